import Verif.Float.SplineBasis
import Verif.Float.SumProps
import Verif.Float.NanLemmas

/-!
# C111: the sum of a spline in double precision
-/

namespace Verif.Float.Spline

open X64 Nan Finset
open Verif.Math.BSpline (Spline N N_nonneg N_support N_zero N_sum knot_mono)
open Verif.Float.Curves (rep_pow)
open Verif.Float.Laws (one_fin le_fin)

theorem add_nothing (x : X64) : x.add (fin F64.zero) = x := by
  cases x with
  | nan => rfl
  | inf s => rfl
  | fin a => exact ofQ_of_eq a (by rw [F0, _root_.add_zero])

/-- A product with a control point. -/
theorem weighted {n c : F64} {B E A M : ℚ} (hB0 : 0 ≤ B) (hB1 : B ≤ 2 ^ 50) (hE0 : 0 ≤ E) (hE1 : E ≤ 1) (hA0 : 0 ≤ A) (hA1 : A ≤ 1)
    (hn0 : 0 ≤ n.val) (hn : |n.val - B| ≤ E * B + A) (hc : |c.val| ≤ M) (hM : M ≤ 2 ^ 900) :
    ∃ t : F64, (fin n).mul (fin c) = fin t ∧
      |t.val - B * c.val| ≤ ((1 + u) * (1 + E) - 1) * (M * B) + (2 * A * M + eta) := by
  have hu := u_pos
  have hus := u_small
  have he := eta_pos
  have hM0 : 0 ≤ M := (abs_nonneg _).trans hc
  have hnB : n.val ≤ 2 ^ 52 := by
    have h1 := (abs_le.1 hn).2
    have h2 : E * B ≤ 1 * 2 ^ 50 := mul_le_mul hE1 hB1 hB0 (by norm_num)
    linarith
  have hprod : |n.val * c.val| ≤ 2 ^ (952 : ℤ) := by
    rw [abs_mul, abs_of_nonneg hn0]
    have h1 : n.val * |c.val| ≤ 2 ^ 52 * 2 ^ 900 := mul_le_mul hnB (hc.trans hM) (abs_nonneg _) (by positivity)
    rwa [← pow_add, ← zpow_natCast] at h1
  obtain ⟨t, t1, t2⟩ := ofQ_fin (lt_of_le_of_lt (rnd_abs_le (rep_pow 952 (by norm_num)) hprod) (by
    rw [← zpow_natCast]; exact zpow_lt_zpow_right₀ (by norm_num) (by norm_num)))
  refine ⟨t, t1, ?_⟩
  have e1 := rnd_error' (n.val * c.val)
  rw [← t2, abs_sub_comm] at e1
  change _ ≤ _ + eta at e1
  have d1 : |n.val * c.val - B * c.val| ≤ (E * B + A) * M := by
    rw [← sub_mul, abs_mul]
    exact mul_le_mul hn hc (abs_nonneg _) (by positivity)
  have d2 : |n.val * c.val| ≤ |B * c.val| + |n.val * c.val - B * c.val| := by
    have := abs_add_le (B * c.val) (n.val * c.val - B * c.val)
    rwa [add_sub_cancel] at this
  have d3 : |B * c.val| ≤ B * M := by rw [abs_mul, abs_of_nonneg hB0]; exact mul_le_mul_of_nonneg_left hc hB0
  have d4 : |t.val - B * c.val| ≤ |t.val - n.val * c.val| + |n.val * c.val - B * c.val| := abs_sub_le _ _ _
  have d5 : u * |n.val * c.val| ≤ u * (B * M + (E * B + A) * M) := mul_le_mul_of_nonneg_left (by linarith) hu.le
  have hAM : 0 ≤ A * M := mul_nonneg hA0 hM0
  have d6 : u * (A * M) ≤ 1 * (A * M) := mul_le_mul_of_nonneg_right (by linarith) hAM
  generalize |t.val - n.val * c.val| = a at *
  generalize |n.val * c.val - B * c.val| = b at *
  nlinarith

/-- The terms of the sum that are not zero. -/
theorem terms_near {D : Data} (hD : D.Valid) (hm : D.Moderate) (hd : D.degree ≤ 50) {p : F64} (hp : |p.val| ≤ 2 ^ 500) {M : ℚ}
    (hM : M ≤ 2 ^ 900) (cs : List F64) (i : ℕ) (hi : i + cs.length + D.degree < D.knots.length)
    (hc : ∀ k c, cs[k]? = some c → N D.exact.knot p.val D.degree (i + k) ≠ 0 → |c.val| ≤ M) :
    ∃ ts : List F64, (∀ acc, sumFrom (D.knots.map fin) (fin p) D.degree i (cs.map fin) acc = some ((ts.map fin).foldl X64.add acc)) ∧
      ts.length = ((range cs.length).filter fun k => N D.exact.knot p.val D.degree (i + k) ≠ 0).card ∧
      |exactSum ts - ∑ k ∈ range cs.length, N D.exact.knot p.val D.degree (i + k) * (cs.map F64.val).getD k 0| ≤
        ((1 + u) * (1 + rel D.degree) - 1) * (M * ∑ k ∈ range cs.length, N D.exact.knot p.val D.degree (i + k)) +
          ts.length * (2 * absolute D.degree * M + eta) ∧
      absSum ts ≤ ((1 + u) * (1 + rel D.degree)) * (M * ∑ k ∈ range cs.length, N D.exact.knot p.val D.degree (i + k)) +
          ts.length * (2 * absolute D.degree * M + eta) := by
  have ht := hD.mono
  induction cs generalizing i with
  | nil => exact ⟨[], fun acc => rfl, by simp, by simp [exactSum], by simp [absSum]⟩
  | cons c cs ih =>
    rw [List.length_cons] at hi
    obtain ⟨ts, h1, h2, h3, h4⟩ := ih (i + 1) (by omega) (by
      intro k c' hk hN
      refine hc (k + 1) c' (by simpa using hk) ?_
      rwa [show i + (k + 1) = i + 1 + k by omega])
    obtain ⟨n, n1, n2, n3, n4⟩ := cox_near hD hm hp D.degree i hd (by omega)
    have hcard : ((range (cs.length + 1)).filter fun k => N D.exact.knot p.val D.degree (i + k) ≠ 0).card =
        (if N D.exact.knot p.val D.degree i ≠ 0 then 1 else 0) +
          ((range cs.length).filter fun k => N D.exact.knot p.val D.degree (i + 1 + k) ≠ 0).card := by
      rw [card_filter, card_filter, sum_range_succ', _root_.add_comm]
      refine congrArg₂ _ (by simp) (sum_congr rfl fun k _ => ?_)
      rw [show i + (k + 1) = i + 1 + k by omega]
    have hsum : ∀ f : ℕ → ℚ, ∑ k ∈ range (cs.length + 1), f (i + k) = f i + ∑ k ∈ range cs.length, f (i + 1 + k) := by
      intro f
      rw [sum_range_succ', _root_.add_comm]
      refine congrArg₂ _ (by simp) (sum_congr rfl fun k _ => ?_)
      rw [show i + (k + 1) = i + 1 + k by omega]
    have hval : ∑ k ∈ range (cs.length + 1), N D.exact.knot p.val D.degree (i + k) * ((c :: cs).map F64.val).getD k 0 =
        N D.exact.knot p.val D.degree i * c.val +
          ∑ k ∈ range cs.length, N D.exact.knot p.val D.degree (i + 1 + k) * (cs.map F64.val).getD k 0 := by
      rw [sum_range_succ', _root_.add_comm]
      refine congrArg₂ _ (by simp) (sum_congr rfl fun k _ => ?_)
      rw [show i + (k + 1) = i + 1 + k by omega]
      simp
    rw [List.length_cons, hcard, hsum (N D.exact.knot p.val D.degree), hval]
    by_cases hN : N D.exact.knot p.val D.degree i = 0
    · refine ⟨ts, fun acc => ?_, ?_, ?_, ?_⟩
      · rw [List.map_cons, sumFrom, n1]
        have : (fin n).mul (fin c) = fin F64.zero := by
          change ofQ (n.val * c.val) = _
          rw [n3 hN, zero_mul]
          exact ofQ_of_eq _ rfl
        simp only [Option.bind_eq_bind, Option.bind_some, this, add_nothing, h1]
      · rw [if_neg (by simpa using hN), Nat.zero_add, h2]
      · rw [hN, zero_mul, _root_.zero_add, _root_.zero_add]; exact h3
      · rw [hN, _root_.zero_add]; exact h4
    · have hE0 := rel_nonneg D.degree
      have hu := u_pos
      have hus := u_small
      have hE1 : rel D.degree ≤ 1 := by
        refine (rel_le D.degree hd).trans ?_
        have hk' : (D.degree : ℚ) ≤ 50 := by exact_mod_cast hd
        have h3 : (D.degree : ℚ) * u ≤ 50 * u := mul_le_mul_of_nonneg_right hk' hu.le
        linarith
      have hA0 := absolute_nonneg D.degree
      have hA1 : absolute D.degree ≤ 1 := (absolute_le D.degree hd).trans (zpow_le_one_of_nonpos₀ (by norm_num) (by norm_num))
      have hB0 := N_nonneg ht p.val D.degree i
      obtain ⟨t, t1, t2⟩ := weighted (c := c) hB0 ((N_le ht p.val D.degree i).trans (pow_le_pow_right₀ (by norm_num) hd)) hE0 hE1 hA0 hA1 n2 n4
        (hc 0 c (by simp) (by simpa using hN)) hM
      have hcM := hc 0 c (by simp) (by simpa using hN)
      have hBc : |N D.exact.knot p.val D.degree i * c.val| ≤ M * N D.exact.knot p.val D.degree i := by
        rw [abs_mul, abs_of_nonneg hB0, mul_comm]
        exact mul_le_mul_of_nonneg_right hcM hB0
      refine ⟨t :: ts, fun acc => ?_, ?_, ?_, ?_⟩
      · rw [List.map_cons, sumFrom, n1]
        simp only [Option.bind_eq_bind, Option.bind_some, t1, h1]
        rfl
      · rw [if_pos hN, List.length_cons, h2, Nat.add_comm]
      · rw [exactSum_cons, List.length_cons]
        push_cast
        have e := abs_add_le (t.val - N D.exact.knot p.val D.degree i * c.val)
          (exactSum ts - ∑ k ∈ range cs.length, N D.exact.knot p.val D.degree (i + 1 + k) * (cs.map F64.val).getD k 0)
        generalize N D.exact.knot p.val D.degree i = B at *
        generalize (∑ k ∈ range cs.length, N D.exact.knot p.val D.degree (i + 1 + k) * (cs.map F64.val).getD k 0) = V at *
        generalize (∑ k ∈ range cs.length, N D.exact.knot p.val D.degree (i + 1 + k)) = W at *
        rw [show t.val + exactSum ts - (B * c.val + V) = t.val - B * c.val + (exactSum ts - V) by ring]
        refine e.trans ?_
        linarith
      · rw [absSum_cons, List.length_cons]
        push_cast
        have e : |t.val| ≤ |N D.exact.knot p.val D.degree i * c.val| + |t.val - N D.exact.knot p.val D.degree i * c.val| := by
          have := abs_add_le (N D.exact.knot p.val D.degree i * c.val) (t.val - N D.exact.knot p.val D.degree i * c.val)
          rwa [add_sub_cancel] at this
        generalize N D.exact.knot p.val D.degree i = B at *
        generalize (∑ k ∈ range cs.length, N D.exact.knot p.val D.degree (i + 1 + k)) = W at *
        linarith

/-- At most `d + 1` basis functions are not zero. -/
theorem few {t : ℕ → ℚ} (ht : Monotone t) (p : ℚ) (d n : ℕ) : ((range n).filter fun k => N t p d k ≠ 0).card ≤ d + 1 := by
  rcases ((range n).filter fun k => N t p d k ≠ 0).eq_empty_or_nonempty with h | h
  · rw [h]; simp
  · set T := (range n).filter fun k => N t p d k ≠ 0 with hT
    have hm := min'_mem T h
    obtain ⟨-, m2⟩ := mem_filter.1 hm
    have hsub : T ⊆ Ico (T.min' h) (T.min' h + d + 1) := by
      intro k hk
      rw [mem_Ico]
      refine ⟨min'_le _ _ hk, ?_⟩
      by_contra hlt
      have h1 := (N_support ht p d k (mem_filter.1 hk).2).1
      have h2 := (N_support ht p d _ m2).2
      have h3 := ht (not_lt.1 hlt)
      linarith
    have := card_le_card hsub
    rw [Nat.card_Ico] at this
    omega

theorem N_sum_le {t : ℕ → ℚ} (ht : Monotone t) (p : ℚ) (d n : ℕ) (h1 : t d ≤ p) : ∑ i ∈ range n, N t p d i ≤ 1 := by
  by_cases h : ∃ m, p < t m
  · obtain ⟨m, hm⟩ := h
    have h2 : p < t (m + n) := lt_of_lt_of_le hm (ht (by omega))
    rw [← N_sum ht p d (m + n) h1 h2]
    exact sum_le_sum_of_subset_of_nonneg (range_subset_range.2 (by omega)) fun i _ _ => N_nonneg ht p d i
  · rw [not_exists] at h
    rw [sum_eq_zero fun i _ => N_zero ht p d i (Or.inr (not_lt.1 (h _)))]
    norm_num

theorem Data.Valid.reachable {D : Data} (h : D.Valid) : D.exact.Reachable :=
  .new (knots := D.exact.knots) (ctrl := D.exact.ctrl) (degree := D.degree) (by
    unfold Verif.Math.BSpline.Spline.new
    rw [if_neg (by rw [not_not]; exact h.inv.len), List.mergeSort_of_pairwise (by simpa using h.inv.sorted)]
    rfl)

/-- The decision whether a point can be evaluated. -/
theorem interpolate_eq {D : Data} (h : D.Valid) (p : F64) :
    interpolate D.spline (fin p) =
      if D.exact.knot D.degree ≤ p.val ∧ p.val ≤ D.exact.knot D.ctrl.length then
        (sumFrom (D.knots.map fin) (fin p) D.degree 0 (D.ctrl.map fin) zero).map .ok
      else some (.error ()) := by
  have hl := h.len
  obtain ⟨a, -, a1, a2⟩ := knot_at D (show D.degree < D.knots.length by omega)
  obtain ⟨b, -, b1, b2⟩ := knot_at D (show D.ctrl.length < D.knots.length by omega)
  unfold interpolate Data.spline
  simp only [a1, Option.bind_eq_bind, Option.bind_some, List.length_map]
  rw [a2, b2, show D.knots.length - D.degree - 1 = D.ctrl.length by omega, b1]
  by_cases h1 : a.val ≤ p.val
  · rw [if_pos ((le_fin _ _).2 h1), if_neg (by omega)]
    simp only [Option.bind_some]
    by_cases h2 : p.val ≤ b.val
    · rw [if_pos ((le_fin _ _).2 h2), if_pos ⟨h1, h2⟩]
      cases sumFrom (D.knots.map fin) (fin p) D.degree 0 (D.ctrl.map fin) zero <;> rfl
    · rw [if_neg (fun hh => h2 ((le_fin _ _).1 hh)), if_neg (fun hh => h2 hh.2)]
      rfl
  · rw [if_neg (fun hh => h1 ((le_fin _ _).1 hh)), if_neg (fun hh => h1 hh.1)]
    rfl

theorem cox_total (ts : List X64) (p : X64) (d i : ℕ) (h : i + d + 1 < ts.length) : ∃ r, cox ts p d i = some r := by
  induction d generalizing i with
  | zero =>
    unfold cox
    rw [List.getElem?_eq_getElem (show i < ts.length by omega), List.getElem?_eq_getElem (show i + 1 < ts.length by omega)]
    simp only [Option.bind_eq_bind, Option.bind_some]
    split_ifs <;> exact ⟨_, rfl⟩
  | succ d ih =>
    obtain ⟨l, hl⟩ := ih i (by omega)
    obtain ⟨r, hr⟩ := ih (i + 1) (by omega)
    have hpart : ∀ b a f g (n : X64), ∃ v, part b a f g (some n) = some v := by
      intro b a f g n
      unfold part
      split_ifs <;> exact ⟨_, rfl⟩
    unfold cox
    rw [List.getElem?_eq_getElem (show i < ts.length by omega), List.getElem?_eq_getElem (show i + 1 < ts.length by omega),
      List.getElem?_eq_getElem (show i + (d + 1) < ts.length by omega), List.getElem?_eq_getElem (show i + (d + 1) + 1 < ts.length by omega), hl, hr]
    obtain ⟨v, hv⟩ := hpart ts[i + (d + 1)] ts[i] p ts[i] l
    obtain ⟨w, hw⟩ := hpart ts[i + (d + 1) + 1] ts[i + 1] ts[i + (d + 1) + 1] p r
    simp only [Option.bind_eq_bind, Option.bind_some, hv, hw]
    exact ⟨_, rfl⟩

theorem sumFrom_total (ts : List X64) (p : X64) (d i : ℕ) (cs : List X64) (acc : X64) (h : i + cs.length + d < ts.length) :
    ∃ r, sumFrom ts p d i cs acc = some r := by
  induction cs generalizing i acc with
  | nil => exact ⟨_, rfl⟩
  | cons c cs ih =>
    rw [List.length_cons] at h
    obtain ⟨n, hn⟩ := cox_total ts p d i (by omega)
    unfold sumFrom
    rw [hn]
    exact ih (i + 1) _ (by omega)

end Verif.Float.Spline
