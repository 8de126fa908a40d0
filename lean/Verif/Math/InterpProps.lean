import Verif.Math.InterpLemmas
import Mathlib.Analysis.SpecialFunctions.Pow.Real
import Mathlib.Analysis.SpecialFunctions.Log.Basic
import Mathlib.Tactic.Linarith
import Mathlib.Tactic.Ring
import Mathlib.Tactic.FieldSimp
import Mathlib.Tactic.Positivity

/-!
# C38: linear interpolation; C51: exponential interpolation
-/

namespace Verif.Math

variable {α β : Type} [LinearOrder α]

/-- The points of an interpolator, as the user sees them. -/
def Interp.points (I : Interp α β) : List (α × β) := I.xs.zip I.ys

/-- `slice::binary_search` can be implemented: the contract used below is satisfiable. -/
theorem binarySearch_exists : BinarySearch (fun (xs : List α) p => xs.findIdx? (fun x => decide (x = p))) := by
  intro xs p _
  constructor
  · intro i hi
    rw [List.findIdx?_eq_some_iff_getElem] at hi
    obtain ⟨h, h1, _⟩ := hi
    rw [List.getElem?_eq_getElem h]
    simpa using h1
  · intro h hp
    rw [List.findIdx?_eq_none_iff] at h
    simpa using h p hp

/-! ## Points -/

/-- C38: construction fails exactly when the two vectors differ in length; otherwise the interpolator holds exactly the
given points, sorted by index. -/
theorem C38_new (xs : List α) (ys : List β) :
    (xs.length ≠ ys.length ↔ Interp.new xs ys = .error .unequalLength) ∧
    (xs.length = ys.length ↔ ∃ I, Interp.new xs ys = .ok I) ∧
    ∀ I, Interp.new xs ys = .ok I → I.points.Perm (xs.zip ys) ∧ I.xs.Perm xs ∧ I.xs.Pairwise (· ≤ ·) := by
  refine ⟨?_, ?_, ?_⟩
  · unfold Interp.new; split_ifs with h <;> simp [h]
  · unfold Interp.new; split_ifs with h <;> simp [h]; simpa using h
  · intro I h
    obtain ⟨hl, hI, hp⟩ := Interp.new_ok h
    refine ⟨hp, ?_, hI.sorted⟩
    have := hp.map Prod.fst
    rwa [List.map_fst_zip hI.len.le, List.map_fst_zip hl.le] at this

/-- Two points given in the wrong order, used below to instantiate the theorems. -/
theorem demo_reachable : (⟨[1, 2], [10, 30], false⟩ : Interp ℝ ℝ).Reachable :=
  .new (xs := [2, 1]) (ys := [30, 10]) (by simp [Interp.new, List.mergeSort, List.MergeSort.Internal.splitInTwo])

/-- C38: after any number of `add_point` calls the interpolator holds exactly the old points and the added ones, sorted
by index. -/
theorem C38_add_points (I : Interp α β) (hI : I.Reachable) (pts : List (α × β)) :
    (pts.foldl Interp.addPoint I).points.Perm (pts ++ I.points) ∧
      (pts.foldl Interp.addPoint I).xs.Pairwise (· ≤ ·) := by
  induction pts generalizing I with
  | nil => exact ⟨List.Perm.refl _, hI.inv.sorted⟩
  | cons pt pts ih =>
    obtain ⟨h1, h2⟩ := ih (I.addPoint pt) (.addPoint hI pt)
    refine ⟨?_, h2⟩
    refine h1.trans ?_
    refine ((Interp.addPoint_perm hI.inv pt).append_left pts).trans ?_
    exact List.perm_middle

example := C38_add_points _ demo_reachable [(1.5, 7), (0, 3)]

/-- C38: with pairwise distinct indices the order in which the points are given does not matter: the interpolators are
identical. -/
theorem C38_order_independent (xs xs' : List α) (ys ys' : List β) (hl : xs.length = ys.length)
    (hl' : xs'.length = ys'.length) (hd : xs.Nodup) (hp : (xs.zip ys).Perm (xs'.zip ys')) :
    Interp.new xs ys = Interp.new xs' ys' := by
  obtain ⟨I, hI⟩ := (C38_new xs ys).2.1.1 hl
  obtain ⟨J, hJ⟩ := (C38_new xs' ys').2.1.1 hl'
  rw [hI, hJ]
  congr 1
  have fI : I.fitted = false := by
    unfold Interp.new at hI; split_ifs at hI; simp only [Except.ok.injEq] at hI; rw [← hI]
  have fJ : J.fitted = false := by
    unfold Interp.new at hJ; split_ifs at hJ; simp only [Except.ok.injEq] at hJ; rw [← hJ]
  obtain ⟨pI, qI, sI⟩ := (C38_new xs ys).2.2 I hI
  obtain ⟨pJ, qJ, sJ⟩ := (C38_new xs' ys').2.2 J hJ
  obtain ⟨_, iI, _⟩ := Interp.new_ok hI
  obtain ⟨_, iJ, _⟩ := Interp.new_ok hJ
  have hperm : I.points.Perm J.points := pI.trans (hp.trans pJ.symm)
  have hnd : I.xs.Nodup := qI.nodup_iff.2 hd
  have mI : I.points.map Prod.fst = I.xs := List.map_fst_zip iI.len.le
  have mJ : J.points.map Prod.fst = J.xs := List.map_fst_zip iJ.len.le
  have hnd' : J.xs.Nodup := by rw [← mJ]; exact (hperm.map _).nodup_iff.1 (mI ▸ hnd)
  have s1 : I.points.Pairwise (fun a b => a.1 ≤ b.1) := by
    rw [← mI, List.pairwise_map] at sI; exact sI
  have s2 : J.points.Pairwise (fun a b => a.1 ≤ b.1) := by
    rw [← mJ, List.pairwise_map] at sJ; exact sJ
  have he : I.points = J.points := by
    refine hperm.eq_of_pairwise ?_ s1 s2
    intro a b ha hb h1 h2
    exact List.inj_on_of_nodup_map (mI ▸ hnd) ha (hperm.mem_iff.2 hb) (le_antisymm h1 h2)
  have hx : I.xs = J.xs := by rw [← mI, ← mJ, he]
  have hy : I.ys = J.ys := by
    have a : I.points.map Prod.snd = I.ys := List.map_snd_zip iI.len.ge
    have b : J.points.map Prod.snd = J.ys := List.map_snd_zip iJ.len.ge
    rw [← a, ← b, he]
  cases I; cases J; simp_all

example := C38_order_independent [(2 : ℝ), 1] [1, 2] [(30 : ℝ), 10] [10, 30] rfl rfl (by norm_num) (.swap _ _ _)

/-! ## Linear interpolation over the reals -/

variable {bs : List ℝ → ℝ → Option ℕ}

theorem segment_cases {I : Interp α β} (hI : I.Reachable) (p : α) :
    I.xs = [] ∨ (I.xs ≠ [] ∧ ((∀ x ∈ I.xs, p < x) ∨ (∀ x ∈ I.xs, x < p))) ∨ p ∈ I.xs ∨
    ∃ i xl xr yl yr, I.xs[i]? = some xl ∧ I.xs[i + 1]? = some xr ∧ I.ys[i]? = some yl ∧ I.ys[i + 1]? = some yr ∧
      xl < p ∧ p < xr := by
  by_cases h0 : I.xs = []
  · exact Or.inl h0
  by_cases h1 : (∀ x ∈ I.xs, p < x) ∨ (∀ x ∈ I.xs, x < p)
  · exact Or.inr (Or.inl ⟨h0, h1⟩)
  by_cases h2 : p ∈ I.xs
  · exact Or.inr (Or.inr (Or.inl h2))
  · push Not at h1
    obtain ⟨⟨a, ha, hap⟩, ⟨b, hb, hpb⟩⟩ := h1
    exact Or.inr (Or.inr (Or.inr (exists_segment hI.inv ha hb hap hpb h2)))

/-- C38: `interpolate` panics exactly when there are no points, returns `OutsideOfRange` exactly when the point is left or
right of all indices, and returns a value otherwise; it never asks whether `fit` was called. -/
theorem C38_errors (hbs : BinarySearch bs) (I : Interp ℝ ℝ) (hI : I.Reachable) (p : ℝ) :
    (linear bs I p = none ↔ I.xs = []) ∧
    (linear bs I p = some (.error .outsideOfRange) ↔
      I.xs ≠ [] ∧ ((∀ x ∈ I.xs, p < x) ∨ (∀ x ∈ I.xs, x < p))) ∧
    ((∃ v, linear bs I p = some (.ok v)) ↔ (∃ a ∈ I.xs, a ≤ p) ∧ ∃ b ∈ I.xs, p ≤ b) ∧
    linear bs I.fit p = linear bs I p := by
  obtain ⟨s1, s2, s3, s4⟩ := interpolateWith_spec hbs (linearSeg ratioReal) hI.inv p
  change _ → linear bs I p = _ at s1
  change _ → _ → linear bs I p = _ at s2
  refine ⟨?_, ?_, ?_, rfl⟩
  · rcases segment_cases hI p with h | ⟨h, h'⟩ | h | ⟨i, xl, xr, yl, yr, h1, h2, h3, h4, h5, h6⟩
    · simp [s1 h, h]
    · simp [s2 h h', h]
    · obtain ⟨y, _, hy⟩ := s3 h
      change linear bs I p = _ at hy
      simp [hy, List.ne_nil_of_mem h]
    · have := s4 i xl xr yl yr h1 h2 h3 h4 h5 h6
      change linear bs I p = _ at this
      simp [this, List.ne_nil_of_mem (List.mem_of_getElem? h1)]
  · rcases segment_cases hI p with h | ⟨h, h'⟩ | h | ⟨i, xl, xr, yl, yr, h1, h2, h3, h4, h5, h6⟩
    · simp [s1 h, h]
    · simp [s2 h h', h, h']
    · obtain ⟨y, _, hy⟩ := s3 h
      change linear bs I p = _ at hy
      simp only [hy, Option.some.injEq, reduceCtorEq, false_iff, not_and, not_or, not_forall]
      exact fun _ => ⟨⟨p, h, lt_irrefl p⟩, ⟨p, h, lt_irrefl p⟩⟩
    · have := s4 i xl xr yl yr h1 h2 h3 h4 h5 h6
      change linear bs I p = _ at this
      simp only [this, Option.some.injEq, reduceCtorEq, false_iff, not_and, not_or, not_forall]
      exact fun _ => ⟨⟨xl, List.mem_of_getElem? h1, not_lt.2 h5.le⟩, ⟨xr, List.mem_of_getElem? h2, not_lt.2 h6.le⟩⟩
  · rcases segment_cases hI p with h | ⟨h, h'⟩ | h | ⟨i, xl, xr, yl, yr, h1, h2, h3, h4, h5, h6⟩
    · simp [s1 h, h]
    · simp only [s2 h h', Option.some.injEq, reduceCtorEq, exists_false, false_iff, not_and]
      rintro ⟨a, ha, hap⟩ ⟨b, hb, hpb⟩
      rcases h' with h' | h'
      · exact absurd (h' a ha) (not_lt.2 hap)
      · exact absurd (h' b hb) (not_lt.2 hpb)
    · obtain ⟨y, _, hy⟩ := s3 h
      change linear bs I p = _ at hy
      simp only [hy, Option.some.injEq, Except.ok.injEq, exists_eq', true_iff]
      exact ⟨⟨p, h, le_rfl⟩, ⟨p, h, le_rfl⟩⟩
    · have := s4 i xl xr yl yr h1 h2 h3 h4 h5 h6
      change linear bs I p = _ at this
      simp only [this, Option.some.injEq, Except.ok.injEq, exists_eq', true_iff]
      exact ⟨⟨xl, List.mem_of_getElem? h1, h5.le⟩, ⟨xr, List.mem_of_getElem? h2, h6.le⟩⟩

example := C38_errors binarySearch_exists _ demo_reachable 3

/-- C38: at an index of the data the value is one of the values given for that index, hence the given value when the
indices are distinct. -/
theorem C38_at_point (hbs : BinarySearch bs) (I : Interp ℝ ℝ) (hI : I.Reachable) (p : ℝ) :
    (p ∈ I.xs → ∃ y, (p, y) ∈ I.points ∧ linear bs I p = some (.ok y)) ∧
    (I.xs.Nodup → ∀ y, (p, y) ∈ I.points → linear bs I p = some (.ok y)) := by
  obtain ⟨_, _, s3, _⟩ := interpolateWith_spec hbs (linearSeg ratioReal) hI.inv p
  refine ⟨s3, fun hd y hy => ?_⟩
  obtain ⟨y', hy', he⟩ := s3 (List.of_mem_zip hy).1
  have m : I.points.map Prod.fst = I.xs := List.map_fst_zip hI.inv.len.le
  have : (p, y) = (p, y') := List.inj_on_of_nodup_map (m ▸ hd) hy hy' rfl
  simp only [Prod.mk.injEq, true_and] at this
  rw [this]; exact he

example := C38_at_point binarySearch_exists _ demo_reachable 2

/-- C38: between two neighbouring points the value is on the straight line through them, and so between their values. -/
theorem C38_between (hbs : BinarySearch bs) (I : Interp ℝ ℝ) (hI : I.Reachable) (p : ℝ) (i : ℕ) (xl xr yl yr : ℝ)
    (h1 : I.points[i]? = some (xl, yl)) (h2 : I.points[i + 1]? = some (xr, yr)) (hl : xl < p) (hr : p < xr) :
    ∃ v, linear bs I p = some (.ok v) ∧ (v - yl) * (xr - xl) = (yr - yl) * (p - xl) ∧
      min yl yr ≤ v ∧ v ≤ max yl yr := by
  rw [Interp.points, List.getElem?_zip_eq_some] at h1 h2
  have h := (interpolateWith_spec hbs (linearSeg ratioReal) hI.inv p).2.2.2 i xl xr yl yr h1.1 h2.1 h1.2 h2.2 hl hr
  refine ⟨_, h, ?_, ?_, ?_⟩
  · have : xr - xl ≠ 0 := by linarith
    simp only [linearSeg, ratioReal]
    field_simp
    ring
  all_goals
    have hd : 0 < xr - xl := by linarith
    have t0 : 0 ≤ (p - xl) / (xr - xl) := div_nonneg (by linarith) hd.le
    have t1 : (p - xl) / (xr - xl) ≤ 1 := (div_le_one hd).2 (by linarith)
    simp only [linearSeg, ratioReal]
    generalize (p - xl) / (xr - xl) = t at t0 t1
  · rcases le_total yl yr with hy | hy
    · rw [min_eq_left hy]; nlinarith
    · rw [min_eq_right hy]; nlinarith
  · rcases le_total yl yr with hy | hy
    · rw [max_eq_right hy]; nlinarith
    · rw [max_eq_left hy]; nlinarith

example := C38_between binarySearch_exists _ demo_reachable 1.5 0 1 2 10 30 rfl rfl (by norm_num) (by norm_num)

/-- C38: data on a straight line are reproduced exactly everywhere in the range. -/
theorem C38_lines (hbs : BinarySearch bs) (I : Interp ℝ ℝ) (hI : I.Reachable) (m c : ℝ)
    (hline : ∀ q ∈ I.points, q.2 = m * q.1 + c) (p a b : ℝ) (ha : a ∈ I.xs) (hb : b ∈ I.xs) (hap : a ≤ p)
    (hpb : p ≤ b) : linear bs I p = some (.ok (m * p + c)) := by
  by_cases hp : p ∈ I.xs
  · obtain ⟨y, hy, he⟩ := (C38_at_point hbs I hI p).1 hp
    rw [he, show y = m * p + c from hline _ hy]
  · obtain ⟨i, xl, xr, yl, yr, h1, h2, h3, h4, h5, h6⟩ := exists_segment hI.inv ha hb hap hpb hp
    have e1 : I.points[i]? = some (xl, yl) := by rw [Interp.points, List.getElem?_zip_eq_some]; exact ⟨h1, h3⟩
    have e2 : I.points[i + 1]? = some (xr, yr) := by rw [Interp.points, List.getElem?_zip_eq_some]; exact ⟨h2, h4⟩
    obtain ⟨v, hv, hv1, _⟩ := C38_between hbs I hI p i xl xr yl yr e1 e2 h5 h6
    have l1 := hline _ (List.mem_of_getElem? e1)
    have l2 := hline _ (List.mem_of_getElem? e2)
    simp only at l1 l2
    rw [hv]
    congr 2
    subst l1 l2
    have hd : xr - xl ≠ 0 := by linarith
    apply mul_right_cancel₀ hd
    linarith

example := C38_lines binarySearch_exists _ demo_reachable 20 (-10) (by norm_num [Interp.points]) 1.5 1 2 (by norm_num) (by norm_num)
  (by norm_num) (by norm_num)

/-- C38: every interpolated value lies between the least and the greatest value of the data. -/
theorem C38_data_bounds (hbs : BinarySearch bs) (I : Interp ℝ ℝ) (hI : I.Reachable) (lo hi p v : ℝ)
    (hb : ∀ y ∈ I.ys, lo ≤ y ∧ y ≤ hi) (hv : linear bs I p = some (.ok v)) : lo ≤ v ∧ v ≤ hi := by
  obtain ⟨⟨a, ha, hap⟩, b, hb', hpb⟩ := (C38_errors hbs I hI p).2.2.1.1 ⟨v, hv⟩
  by_cases hp : p ∈ I.xs
  · obtain ⟨y, hy, he⟩ := (C38_at_point hbs I hI p).1 hp
    rw [he] at hv
    simp only [Option.some.injEq, Except.ok.injEq] at hv
    exact hv ▸ hb y (List.of_mem_zip hy).2
  · obtain ⟨i, xl, xr, yl, yr, h1, h2, h3, h4, h5, h6⟩ := exists_segment hI.inv ha hb' hap hpb hp
    have e1 : I.points[i]? = some (xl, yl) := by rw [Interp.points, List.getElem?_zip_eq_some]; exact ⟨h1, h3⟩
    have e2 : I.points[i + 1]? = some (xr, yr) := by rw [Interp.points, List.getElem?_zip_eq_some]; exact ⟨h2, h4⟩
    obtain ⟨w, hw, _, w1, w2⟩ := C38_between hbs I hI p i xl xr yl yr e1 e2 h5 h6
    rw [hw] at hv
    simp only [Option.some.injEq, Except.ok.injEq] at hv
    subst hv
    have b1 := hb yl (List.mem_of_getElem? h3)
    have b2 := hb yr (List.mem_of_getElem? h4)
    exact ⟨le_trans (le_min b1.1 b2.1) w1, le_trans w2 (max_le b1.2 b2.2)⟩

example (v : ℝ) := C38_data_bounds binarySearch_exists _ demo_reachable 10 30 1.5 v (by norm_num)

/-- C38 (defect): with an integer index and value type the quotient truncates, and every point strictly between two
neighbours gets the left neighbour's value: the interpolation is a step function. -/
theorem C38_integer_steps {bs : List ℤ → ℤ → Option ℕ} (hbs : BinarySearch bs) (I : Interp ℤ ℤ) (hI : I.Reachable)
    (p : ℤ) (i : ℕ) (xl xr yl yr : ℤ) (h1 : I.points[i]? = some (xl, yl)) (h2 : I.points[i + 1]? = some (xr, yr))
    (hl : xl < p) (hr : p < xr) : linearInt bs I p = some (.ok yl) := by
  rw [Interp.points, List.getElem?_zip_eq_some] at h1 h2
  have h := (interpolateWith_spec hbs (linearSeg ratioInt) hI.inv p).2.2.2 i xl xr yl yr h1.1 h2.1 h1.2 h2.2 hl hr
  rw [linearInt, h]
  simp only [linearSeg, ratioInt]
  rw [Int.tdiv_eq_zero_of_lt (by omega) (by omega)]
  simp

example : ∃ I : Interp ℝ ℝ, I.Reachable ∧ I.points = [(1, 10), (2, 30)] ∧ I.xs.Nodup := by
  refine ⟨⟨[1, 2], [10, 30], false⟩, .new (xs := [2, 1]) (ys := [30, 10]) ?_, rfl, by norm_num⟩
  simp [Interp.new, List.mergeSort, List.MergeSort.Internal.splitInTwo]

/-! ## C51: exponential interpolation -/

/-- C51: between two neighbouring points with positive values the exponential interpolator's value is positive, its
logarithm is on the straight line through the logarithms, and it lies between the two values. -/
theorem C51_between (hbs : BinarySearch bs) (I : Interp ℝ ℝ) (hI : I.Reachable) (p : ℝ) (i : ℕ) (xl xr yl yr : ℝ)
    (h1 : I.points[i]? = some (xl, yl)) (h2 : I.points[i + 1]? = some (xr, yr)) (hl : xl < p) (hr : p < xr)
    (hyl : 0 < yl) (hyr : 0 < yr) :
    ∃ v, exponential bs I p = some (.ok v) ∧ 0 < v ∧
      (Real.log v - Real.log yl) * (xr - xl) = (Real.log yr - Real.log yl) * (p - xl) ∧
      min yl yr ≤ v ∧ v ≤ max yl yr := by
  rw [Interp.points, List.getElem?_zip_eq_some] at h1 h2
  have h := (interpolateWith_spec hbs (expSeg ratioReal) hI.inv p).2.2.2 i xl xr yl yr h1.1 h2.1 h1.2 h2.2 hl hr
  have hv : 0 < expSeg ratioReal p xl xr yl yr := by unfold expSeg; positivity
  have hd : 0 < xr - xl := by linarith
  have hlog : Real.log (expSeg ratioReal p xl xr yl yr) =
      (p - xl) / (xr - xl) * Real.log yr + (xr - p) / (xr - xl) * Real.log yl := by
    unfold expSeg ratioReal
    rw [Real.log_mul (by positivity) (by positivity), Real.log_rpow hyr, Real.log_rpow hyl]
  have ht : (xr - p) / (xr - xl) = 1 - (p - xl) / (xr - xl) := by field_simp; ring
  have t0 : 0 ≤ (p - xl) / (xr - xl) := div_nonneg (by linarith) hd.le
  have t1 : (p - xl) / (xr - xl) ≤ 1 := (div_le_one hd).2 (by linarith)
  refine ⟨_, h, hv, ?_, ?_, ?_⟩
  · rw [hlog]; field_simp; ring
  · rw [← Real.log_le_log_iff (by positivity) hv, hlog, ht]
    generalize (p - xl) / (xr - xl) = t at *
    rcases le_total yl yr with hy | hy
    · rw [min_eq_left hy]; have := Real.log_le_log hyl hy; nlinarith
    · rw [min_eq_right hy]; have := Real.log_le_log hyr hy; nlinarith
  · rw [← Real.log_le_log_iff hv (by positivity), hlog, ht]
    generalize (p - xl) / (xr - xl) = t at *
    rcases le_total yl yr with hy | hy
    · rw [max_eq_right hy]; have := Real.log_le_log hyl hy; nlinarith
    · rw [max_eq_left hy]; have := Real.log_le_log hyr hy; nlinarith

example := C51_between binarySearch_exists _ demo_reachable 1.5 0 1 2 10 30 rfl rfl (by norm_num) (by norm_num) (by norm_num)
  (by norm_num)

/-- C51: at an index of the data the exponential interpolator also returns a given value; outside the range it is an
error; without points it panics. -/
theorem C51_points_and_errors (hbs : BinarySearch bs) (I : Interp ℝ ℝ) (hI : I.Reachable) (p : ℝ) :
    (p ∈ I.xs → ∃ y, (p, y) ∈ I.points ∧ exponential bs I p = some (.ok y)) ∧
    (I.xs = [] → exponential bs I p = none) ∧
    (I.xs ≠ [] → ((∀ x ∈ I.xs, p < x) ∨ (∀ x ∈ I.xs, x < p)) →
      exponential bs I p = some (.error .outsideOfRange)) :=
  let s := interpolateWith_spec hbs (expSeg ratioReal) hI.inv p
  ⟨s.2.2.1, s.1, s.2.1⟩

example := C51_points_and_errors binarySearch_exists _ demo_reachable 3

/-- C51: data of the form `A * exp (k * x)` with `A > 0` are reproduced exactly everywhere in the range. -/
theorem C51_exponentials (hbs : BinarySearch bs) (I : Interp ℝ ℝ) (hI : I.Reachable) (A k : ℝ) (hA : 0 < A)
    (hdata : ∀ q ∈ I.points, q.2 = A * Real.exp (k * q.1)) (p a b : ℝ) (ha : a ∈ I.xs) (hb : b ∈ I.xs)
    (hap : a ≤ p) (hpb : p ≤ b) : exponential bs I p = some (.ok (A * Real.exp (k * p))) := by
  by_cases hp : p ∈ I.xs
  · obtain ⟨y, hy, he⟩ := (C51_points_and_errors hbs I hI p).1 hp
    rw [he, show y = A * Real.exp (k * p) from hdata _ hy]
  · obtain ⟨i, xl, xr, yl, yr, h1, h2, h3, h4, h5, h6⟩ := exists_segment hI.inv ha hb hap hpb hp
    have e1 : I.points[i]? = some (xl, yl) := by rw [Interp.points, List.getElem?_zip_eq_some]; exact ⟨h1, h3⟩
    have e2 : I.points[i + 1]? = some (xr, yr) := by rw [Interp.points, List.getElem?_zip_eq_some]; exact ⟨h2, h4⟩
    have l1 := hdata _ (List.mem_of_getElem? e1)
    have l2 := hdata _ (List.mem_of_getElem? e2)
    simp only at l1 l2
    obtain ⟨v, hv, hv0, hv1, _⟩ := C51_between hbs I hI p i xl xr yl yr e1 e2 h5 h6
      (by rw [l1]; positivity) (by rw [l2]; positivity)
    rw [hv]
    congr 2
    have hd : xr - xl ≠ 0 := by linarith
    rw [← Real.exp_log hv0]
    conv_rhs => rw [← Real.exp_log (show 0 < A * Real.exp (k * p) by positivity)]
    congr 1
    rw [l1, l2] at hv1
    simp only [Real.log_mul hA.ne' (Real.exp_ne_zero _), Real.log_exp] at hv1 ⊢
    apply mul_right_cancel₀ hd
    linarith

/-- An instance: `10/3 * 3^x` through (1, 10) and (2, 30). -/
example := C51_exponentials binarySearch_exists _ demo_reachable (10 / 3) (Real.log 3) (by norm_num) (by
  intro q hq
  have h3 : Real.exp (Real.log 3) = 3 := Real.exp_log (by norm_num)
  rcases List.mem_pair.1 (show q ∈ [(1, 10), (2, 30)] from hq) with rfl | rfl
  · rw [mul_one, h3]; norm_num
  · rw [mul_comm (Real.log 3), two_mul, Real.exp_add, h3]; norm_num) 1.5 1 2 (by norm_num) (by norm_num) (by norm_num) (by norm_num)

end Verif.Math
