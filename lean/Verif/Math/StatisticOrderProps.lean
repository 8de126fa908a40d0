import Verif.Math.StatisticProps
import Mathlib.Data.List.GetD
import Mathlib.Data.List.Count

/-!
# C42: order statistics

Specification: `ramp s x`, the broken line through the points `(k, s k)`.
-/

namespace Verif.Math.Statistic

theorem sorted_perm (xs : List ℝ) : (sorted xs).Perm xs := List.mergeSort_perm _ _

theorem sorted_pairwise (xs : List ℝ) : (sorted xs).Pairwise (· ≤ ·) := by
  unfold sorted
  have := List.pairwise_mergeSort (le := fun a b : ℝ => @decide (a ≤ b) (Classical.propDecidable _))
    (by simpa using fun a b c => le_trans) (by simpa using fun a b => le_total a b) xs
  simpa using this

theorem sorted_length (xs : List ℝ) : (sorted xs).length = xs.length := (sorted_perm xs).length_eq

theorem sorted_eq_of_perm {xs ys : List ℝ} (h : xs.Perm ys) : sorted xs = sorted ys :=
  List.Perm.eq_of_pairwise (fun _ _ _ _ h1 h2 => le_antisymm h1 h2) (sorted_pairwise xs) (sorted_pairwise ys)
    ((sorted_perm xs).trans (h.trans (sorted_perm ys).symm))

/-- The `k`-th smallest entry (the greatest one beyond the end). -/
noncomputable def nth (xs : List ℝ) (k : ℕ) : ℝ := (sorted xs).getD k ((sorted xs).getLast?.getD 0)

theorem nth_mono (xs : List ℝ) : Monotone (nth xs) := by
  intro i j hij
  unfold nth
  have hp := sorted_pairwise xs
  generalize sorted xs = s at *
  by_cases hj : j < s.length
  · have hi : i < s.length := lt_of_le_of_lt hij hj
    rw [List.getD_eq_getElem _ _ hi, List.getD_eq_getElem _ _ hj]
    rcases Nat.eq_or_lt_of_le hij with rfl | hlt
    · exact le_rfl
    · exact List.pairwise_iff_getElem.1 hp i j hi hj hlt
  · rw [List.getD_eq_default _ _ (not_lt.1 hj)]
    by_cases hi : i < s.length
    · rw [List.getD_eq_getElem _ _ hi]
      have : s.getLast?.getD 0 = s[s.length - 1]'(by omega) := by
        rw [List.getLast?_eq_getElem?, List.getElem?_eq_getElem (by omega)]; rfl
      rw [this]
      rcases Nat.eq_or_lt_of_le (show i ≤ s.length - 1 by omega) with rfl | hlt
      · exact le_rfl
      · exact List.pairwise_iff_getElem.1 hp i _ hi (by omega) hlt
    · rw [List.getD_eq_default _ _ (not_lt.1 hi)]

theorem at_sorted {xs : List ℝ} {k : ℕ} (h : k < xs.length) : at? (sorted xs) k = .val (nth xs k) := by
  unfold at? nth
  have h' : k < (sorted xs).length := by rwa [sorted_length]
  rw [List.getElem?_eq_getElem h', List.getD_eq_getElem _ _ h']

/-- The broken line through the points `(k, s k)`. -/
noncomputable def ramp (s : ℕ → ℝ) (x : ℝ) : ℝ := s ⌊x⌋₊ + (s (⌊x⌋₊ + 1) - s ⌊x⌋₊) * (x - ⌊x⌋₊)

theorem ramp_nat (s : ℕ → ℝ) (k : ℕ) : ramp s k = s k := by simp [ramp]

theorem ramp_mono {s : ℕ → ℝ} (hs : Monotone s) {x y : ℝ} (hx : 0 ≤ x) (h : x ≤ y) : ramp s x ≤ ramp s y := by
  have hf : ⌊x⌋₊ ≤ ⌊y⌋₊ := Nat.floor_mono h
  have b1 := Nat.floor_le hx
  have b2 := Nat.lt_floor_add_one x
  have b3 := Nat.floor_le (hx.trans h)
  unfold ramp
  rcases Nat.eq_or_lt_of_le hf with he | hlt
  · rw [← he]
    have := hs (Nat.le_succ ⌊x⌋₊)
    simp only [Nat.succ_eq_add_one] at this
    nlinarith
  · have h1 := hs (Nat.le_succ ⌊x⌋₊)
    have h2 := hs (show ⌊x⌋₊ + 1 ≤ ⌊y⌋₊ from hlt)
    have h3 := hs (Nat.le_succ ⌊y⌋₊)
    simp only [Nat.succ_eq_add_one] at h1 h3
    have h4 : (s (⌊x⌋₊ + 1) - s ⌊x⌋₊) * (x - ⌊x⌋₊) ≤ (s (⌊x⌋₊ + 1) - s ⌊x⌋₊) * 1 :=
      mul_le_mul_of_nonneg_left (by linarith) (by linarith)
    have h5 : 0 ≤ (s (⌊y⌋₊ + 1) - s ⌊y⌋₊) * (y - ⌊y⌋₊) := mul_nonneg (by linarith) (by linarith)
    linarith

theorem quantile_val (xs : List ℝ) (h : xs ≠ []) (p : ℝ) (h0 : 0 ≤ p) (h1 : p ≤ 1) :
    quantile xs p = .val (ramp (nth xs) (p * (xs.length - 1 : ℕ))) := by
  have hl : 0 < xs.length := List.length_pos_of_ne_nil h
  unfold quantile
  rw [if_neg (by omega), if_neg (not_not.2 ⟨h0, h1⟩)]
  simp only [sorted_length]
  set x := p * (xs.length - 1 : ℕ) with hx
  have hx0 : 0 ≤ x := by positivity
  have hx1 : x ≤ (xs.length - 1 : ℕ) := by
    have : (0 : ℝ) ≤ (xs.length - 1 : ℕ) := by positivity
    nlinarith
  have hc : ⌈x⌉₊ ≤ xs.length - 1 := Nat.ceil_le.2 hx1
  have hf : ⌊x⌋₊ ≤ xs.length - 1 := (Nat.floor_le_ceil x).trans hc
  rw [at_sorted (by omega), at_sorted (by omega)]
  simp only [Out.bind]
  congr 1
  unfold ramp
  by_cases he : x = ⌊x⌋₊
  · have : x - (⌊x⌋₊ : ℝ) = 0 := by rw [sub_eq_zero]; exact he
    rw [this]; simp
  · have : ⌈x⌉₊ = ⌊x⌋₊ + 1 := by
      apply le_antisymm
      · exact Nat.ceil_le_floor_add_one x
      · rw [Nat.succ_le_iff, Nat.lt_ceil]
        exact lt_of_le_of_ne (Nat.floor_le hx0) (Ne.symm he)
    rw [this]

theorem nth_zero (xs : List ℝ) (h : xs ≠ []) : min xs = .val (nth xs 0) := by
  obtain ⟨lo, hi, h1, h2, _, l, _⟩ := (C41_min_max xs).2 h
  rw [h1]
  congr 1
  have hl : 0 < (sorted xs).length := by rw [sorted_length]; exact List.length_pos_of_ne_nil h
  have hm : nth xs 0 ∈ xs := by
    unfold nth
    rw [List.getD_eq_getElem _ _ hl]
    exact (sorted_perm xs).mem_iff.1 (List.getElem_mem _)
  refine le_antisymm (l.2 hm) ?_
  obtain ⟨k, hk, he⟩ := List.mem_iff_getElem.1 ((sorted_perm xs).mem_iff.2 l.1)
  have := nth_mono xs (Nat.zero_le k)
  have e : nth xs k = lo := by unfold nth; rw [List.getD_eq_getElem _ _ hk]; exact he
  rwa [e] at this

theorem nth_last (xs : List ℝ) (h : xs ≠ []) : max xs = .val (nth xs (xs.length - 1)) := by
  obtain ⟨lo, hi, h1, h2, _, _, g⟩ := (C41_min_max xs).2 h
  rw [h2]
  congr 1
  have hl : 0 < xs.length := List.length_pos_of_ne_nil h
  have hl' : xs.length - 1 < (sorted xs).length := by rw [sorted_length]; omega
  have hm : nth xs (xs.length - 1) ∈ xs := by
    unfold nth
    rw [List.getD_eq_getElem _ _ hl']
    exact (sorted_perm xs).mem_iff.1 (List.getElem_mem _)
  refine le_antisymm ?_ (g.2 hm)
  obtain ⟨k, hk, he⟩ := List.mem_iff_getElem.1 ((sorted_perm xs).mem_iff.2 g.1)
  have hk' : k ≤ xs.length - 1 := by rw [sorted_length] at hk; omega
  have := nth_mono xs hk'
  have e : nth xs k = hi := by unfold nth; rw [List.getD_eq_getElem _ _ hk]; exact he
  rwa [e] at this

/-- C42: the quantile panics exactly on the empty vector or outside `[0, 1]`; otherwise it is the broken line through the
sorted sample: at rank `k / (n - 1)` it is the `k`-th smallest entry. `percentile` is the same function. -/
theorem C42_quantile (xs : List ℝ) :
    (∀ p, quantile xs p = .panic ↔ xs = [] ∨ p < 0 ∨ 1 < p) ∧ (∀ p, percentile xs p = quantile xs p) ∧
    (∀ (k : ℕ) x, (sorted xs)[k]? = some x → 2 ≤ xs.length → quantile xs (k / (xs.length - 1)) = .val x) := by
  refine ⟨fun p => ?_, fun p => rfl, fun k x hk h2 => ?_⟩
  · by_cases h : xs = []
    · subst h; simp [quantile]
    · by_cases hp : 0 ≤ p ∧ p ≤ 1
      · rw [quantile_val xs h p hp.1 hp.2]
        simp [h, hp.1, hp.2]
      · unfold quantile
        rw [if_neg (by simpa using h), if_pos hp]
        simp only [h, false_or, true_iff]
        by_contra hc
        push Not at hc
        exact hp hc
  · have hn := length_pos h2
    have hk' : k < xs.length := by
      rw [← sorted_length]; exact (List.getElem?_eq_some_iff.1 hk).1
    have hk1 : (k : ℝ) ≤ xs.length - 1 := by
      have : (k : ℝ) + 1 ≤ xs.length := by exact_mod_cast hk'
      linarith
    rw [quantile_val xs (ne_nil h2) _ (by positivity) (by rw [div_le_one hn]; exact hk1), Nat.cast_sub (by omega), Nat.cast_one,
      div_mul_cancel₀ _ hn.ne', ramp_nat]
    congr 1
    have := at_sorted hk'
    unfold at? at this
    rw [hk] at this
    simp only [Out.val.injEq] at this
    exact this.symm

theorem sorted_demo : sorted [3, 1, 2] = [1, 2, 3] :=
  List.Perm.eq_of_pairwise (fun _ _ _ _ h1 h2 => le_antisymm h1 h2) (sorted_pairwise _) (by norm_num)
    ((sorted_perm _).trans (((List.Perm.swap 1 3 [2]).trans (.cons _ (.swap _ _ _)))))

/-- C42: between two consecutive ranks the quantile is the straight line through the two neighbouring sorted entries. -/
theorem C42_between (xs : List ℝ) (k : ℕ) (x y t : ℝ) (hx : (sorted xs)[k]? = some x) (hy : (sorted xs)[k + 1]? = some y)
    (h0 : 0 ≤ t) (h1 : t ≤ 1) : quantile xs ((k + t) / (xs.length - 1)) = .val ((1 - t) * x + t * y) := by
  have hk' : k + 1 < xs.length := by rw [← sorted_length]; exact (List.getElem?_eq_some_iff.1 hy).1
  have h2 : 2 ≤ xs.length := by omega
  have hn := length_pos h2
  have ex : nth xs k = x := by
    have := at_sorted (xs := xs) (k := k) (by omega)
    unfold at? at this; rw [hx] at this; simpa using this.symm
  have ey : nth xs (k + 1) = y := by
    have := at_sorted (xs := xs) hk'
    unfold at? at this; rw [hy] at this; simpa using this.symm
  rcases eq_or_lt_of_le h1 with rfl | hlt
  · have := (C42_quantile xs).2.2 (k + 1) y hy h2
    rw [Nat.cast_add, Nat.cast_one] at this
    rw [this]; congr 1; ring
  have hk1 : (k : ℝ) + t ≤ xs.length - 1 := by
    have : (k : ℝ) + 1 + 1 ≤ xs.length := by exact_mod_cast hk'
    linarith
  rw [quantile_val xs (ne_nil h2) _ (by positivity) (by rw [div_le_one hn]; exact hk1), Nat.cast_sub (by omega), Nat.cast_one,
    div_mul_cancel₀ _ hn.ne']
  have hf : ⌊(k : ℝ) + t⌋₊ = k := by
    rw [Nat.floor_eq_iff (by positivity)]
    constructor <;> linarith
  unfold ramp
  rw [hf, ex, ey]
  congr 1
  ring

/-- An instance: the quantile of 1, 2, 3 a quarter of the way from 2 to 3. -/
example := C42_between [3, 1, 2] 1 2 3 (1 / 4) (by rw [sorted_demo]; rfl) (by rw [sorted_demo]; rfl) (by norm_num) (by norm_num)

/-- C42: the quantile increases with `p`, from the minimum at 0 to the maximum at 1. -/
theorem C42_monotone (xs : List ℝ) (h : xs ≠ []) :
    quantile xs 0 = min xs ∧ quantile xs 1 = max xs ∧
    ∀ p q, 0 ≤ p → p ≤ q → q ≤ 1 → ∃ a b, quantile xs p = .val a ∧ quantile xs q = .val b ∧ a ≤ b := by
  refine ⟨?_, ?_, fun p q h0 h1 h2 => ?_⟩
  · rw [quantile_val xs h 0 le_rfl zero_le_one, zero_mul, nth_zero xs h]
    congr 1
    simpa using ramp_nat (nth xs) 0
  · rw [quantile_val xs h 1 zero_le_one le_rfl, one_mul, nth_last xs h, ramp_nat]
  · refine ⟨_, _, quantile_val xs h p h0 (h1.trans h2), quantile_val xs h q (h0.trans h1) h2, ?_⟩
    exact ramp_mono (nth_mono xs) (by positivity) (mul_le_mul_of_nonneg_right h1 (by positivity))

example := C42_monotone [3, 1, 2] (by simp)

/-- C42: the median is the quantile at one half, and panics only on the empty vector. -/
theorem C42_median (xs : List ℝ) : median xs = quantile xs (1 / 2) := by
  by_cases h : xs = []
  · subst h; simp [median, quantile]
  · have hl : 0 < xs.length := List.length_pos_of_ne_nil h
    rw [quantile_val xs h _ (by norm_num) (by norm_num)]
    unfold median
    rw [if_neg (by omega)]
    simp only [sorted_length]
    rcases Nat.even_or_odd' xs.length with ⟨m, hm | hm⟩
    · rw [if_pos (by omega), hm, show 2 * m / 2 = m by omega, at_sorted (by omega), at_sorted (by omega)]
      simp only [Out.bind]
      congr 1
      obtain ⟨j, rfl⟩ : ∃ j, m = j + 1 := ⟨m - 1, by omega⟩
      have e : (1 / 2 : ℝ) * (2 * (j + 1) - 1 : ℕ) = j + 1 / 2 := by
        rw [show 2 * (j + 1) - 1 = 2 * j + 1 by omega]; push_cast; ring
      have hf : ⌊(j : ℝ) + 1 / 2⌋₊ = j := by
        rw [Nat.floor_eq_iff (by positivity)]
        constructor <;> norm_num
      rw [e]
      unfold ramp
      rw [hf]
      simp only [Nat.add_sub_cancel]
      ring
    · rw [if_neg (by omega), hm, show (2 * m + 1) / 2 = m by omega, at_sorted (by omega)]
      congr 1
      have e : (1 / 2 : ℝ) * (2 * m + 1 - 1 : ℕ) = m := by
        rw [Nat.add_sub_cancel]; push_cast; ring
      rw [e, ramp_nat]

/-- C42: order statistics do not depend on the order of the entries. -/
theorem C42_order_independent (xs ys : List ℝ) (h : xs.Perm ys) :
    median xs = median ys ∧ (∀ p, quantile xs p = quantile ys p) ∧ (∀ p, percentile xs p = percentile ys p) ∧
      interquartileRange xs = interquartileRange ys := by
  have hs := sorted_eq_of_perm h
  refine ⟨?_, fun p => ?_, fun p => ?_, ?_⟩
  · unfold median; rw [hs, h.length_eq]
  · unfold quantile; rw [hs, h.length_eq]
  · unfold percentile; rw [hs, h.length_eq]
  · unfold interquartileRange; rw [hs, h.length_eq]

example := C42_order_independent [3, 1, 2] [1, 3, 2] (.swap _ _ _)

open Classical in
theorem countP_sorted_le (s : List ℝ) (hs : s.Pairwise (· ≤ ·)) (k : ℕ) (hk : k < s.length) (m : ℝ) (hm : s[k] ≤ m) :
    k + 1 ≤ s.countP (fun x => decide (x ≤ m)) := by
  have h1 : (s.take (k + 1)).countP (fun x => decide (x ≤ m)) = k + 1 := by
    rw [List.countP_eq_length.2]
    · simp; omega
    · intro x hx
      obtain ⟨j, hj, rfl⟩ := List.mem_iff_getElem.1 hx
      rw [List.getElem_take]
      simp only [decide_eq_true_eq]
      rw [List.length_take] at hj
      refine le_trans ?_ hm
      rcases Nat.eq_or_lt_of_le (show j ≤ k by omega) with rfl | hlt
      · exact le_rfl
      · exact List.pairwise_iff_getElem.1 hs j k (by omega) hk hlt
  calc k + 1 = _ := h1.symm
    _ ≤ _ := (List.take_sublist _ _).countP_le

open Classical in
theorem countP_sorted_ge (s : List ℝ) (hs : s.Pairwise (· ≤ ·)) (k : ℕ) (hk : k < s.length) (m : ℝ) (hm : m ≤ s[k]) :
    s.length - k ≤ s.countP (fun x => decide (m ≤ x)) := by
  have h1 : (s.drop k).countP (fun x => decide (m ≤ x)) = s.length - k := by
    rw [List.countP_eq_length.2]
    · simp
    · intro x hx
      obtain ⟨j, hj, rfl⟩ := List.mem_iff_getElem.1 hx
      rw [List.getElem_drop]
      simp only [decide_eq_true_eq]
      rw [List.length_drop] at hj
      refine le_trans hm ?_
      rcases Nat.eq_zero_or_pos j with rfl | hlt
      · simp
      · exact List.pairwise_iff_getElem.1 hs k (k + j) hk (by omega) (by omega)
  calc s.length - k = _ := h1.symm
    _ ≤ _ := (List.drop_sublist _ _).countP_le

open Classical in
/-- C42: at least half of the entries are at or below the median and at least half at or above it. -/
theorem C42_median_splits (xs : List ℝ) (m : ℝ) (h : median xs = .val m) :
    xs.length ≤ 2 * xs.countP (fun x => decide (x ≤ m)) ∧ xs.length ≤ 2 * xs.countP (fun x => decide (m ≤ x)) := by
  have h0 : xs ≠ [] := by rintro rfl; simp [median] at h
  have hl : 0 < xs.length := List.length_pos_of_ne_nil h0
  rw [← (sorted_perm xs).countP_eq, ← (sorted_perm xs).countP_eq]
  unfold median at h
  rw [if_neg (by omega)] at h
  simp only [sorted_length] at h
  have hp := sorted_pairwise xs
  have hsl := sorted_length xs
  have hget : ∀ k (hk : k < (sorted xs).length), nth xs k = (sorted xs)[k] := fun k hk => by
    unfold nth; rw [List.getD_eq_getElem _ _ hk]
  split_ifs at h with he
  · rw [at_sorted (by omega), at_sorted (by omega)] at h
    simp only [Out.bind, Out.val.injEq] at h
    have hmono := nth_mono xs (show xs.length / 2 - 1 ≤ xs.length / 2 by omega)
    have a := countP_sorted_le _ hp (xs.length / 2 - 1) (by omega) m (by rw [← hget]; linarith)
    have b := countP_sorted_ge _ hp (xs.length / 2) (by omega) m (by rw [← hget]; linarith)
    omega
  · rw [at_sorted (by omega)] at h
    simp only [Out.val.injEq] at h
    have a := countP_sorted_le _ hp (xs.length / 2) (by omega) m (by rw [← hget, h])
    have b := countP_sorted_ge _ hp (xs.length / 2) (by omega) m (by rw [← hget, h])
    omega

example := C42_median_splits [3, 1, 2] 2 (by simp [median, sorted_demo, at?])

/-- C42: the interquartile range is defined for every non-empty vector, non-negative and at most the range. -/
theorem C42_iqr_bounds (xs : List ℝ) (h : xs ≠ []) :
    ∃ d w, interquartileRange xs = .val d ∧ range xs = .val w ∧ 0 ≤ d ∧ d ≤ w := by
  have hl : 0 < xs.length := List.length_pos_of_ne_nil h
  unfold interquartileRange range
  rw [if_neg (by omega), if_neg (by omega), nth_zero xs h, nth_last xs h]
  simp only [sorted_length]
  rw [at_sorted (by omega), at_sorted (by omega)]
  refine ⟨_, _, rfl, rfl, ?_, ?_⟩
  · have := nth_mono xs (show xs.length / 4 ≤ xs.length * 3 / 4 by omega)
    linarith
  · have h1 := nth_mono xs (show xs.length * 3 / 4 ≤ xs.length - 1 by omega)
    have h2 := nth_mono xs (show 0 ≤ xs.length / 4 by omega)
    linarith

example := C42_iqr_bounds [3, 1, 2] (by simp)

/-- C42 (defect): the interquartile range is not the difference of the quantiles at 3/4 and 1/4: for `[1, 2, 3, 4]` it is 2,
the difference of the quantiles is 3/2. -/
theorem C42_iqr_not_quantile_difference :
    interquartileRange [1, 2, 3, 4] = .val 2 ∧ quantile [1, 2, 3, 4] (1 / 4) = .val (7 / 4) ∧
      quantile [1, 2, 3, 4] (3 / 4) = .val (13 / 4) := by
  have hs : sorted [1, 2, 3, 4] = [1, 2, 3, 4] := by
    unfold sorted
    apply List.mergeSort_of_pairwise
    norm_num
  refine ⟨?_, ?_, ?_⟩
  · unfold interquartileRange
    simp [hs, at?, Out.bind]
    norm_num
  · rw [quantile_val _ (by simp) _ (by norm_num) (by norm_num)]
    have hf : ⌊(3 / 4 : ℝ)⌋₊ = 0 := by rw [Nat.floor_eq_zero]; norm_num
    have n0 : nth [1, 2, 3, 4] 0 = 1 := by simp [nth, hs]
    have n1 : nth [1, 2, 3, 4] 1 = 2 := by simp [nth, hs]
    rw [show ([1, 2, 3, 4] : List ℝ).length = 4 from rfl, show (1 / 4 : ℝ) * ((4 - 1 : ℕ) : ℝ) = 3 / 4 by norm_num]
    unfold ramp
    rw [hf, n0, n1]
    norm_num
  · rw [quantile_val _ (by simp) _ (by norm_num) (by norm_num)]
    have hf : ⌊(9 / 4 : ℝ)⌋₊ = 2 := by rw [Nat.floor_eq_iff (by norm_num)]; norm_num
    have n2 : nth [1, 2, 3, 4] 2 = 3 := by simp [nth, hs]
    have n3 : nth [1, 2, 3, 4] (2 + 1) = 4 := by simp [nth, hs]
    rw [show ([1, 2, 3, 4] : List ℝ).length = 4 from rfl, show (3 / 4 : ℝ) * ((4 - 1 : ℕ) : ℝ) = 9 / 4 by norm_num]
    unfold ramp
    rw [hf, n2, n3]
    norm_num

end Verif.Math.Statistic
