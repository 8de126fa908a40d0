import Verif.Math.BSpline
import Verif.Math.InterpLemmas
import Mathlib.Data.List.GetD
import Mathlib.Algebra.BigOperators.Intervals
import Mathlib.Algebra.Order.BigOperators.Ring.Finset
import Mathlib.Tactic.FieldSimp
import Mathlib.Tactic.Ring
import Mathlib.Tactic.Linarith
import Mathlib.Tactic.NormNum

/-!
# C39: B-splines

Specification: `N t p d i`, the textbook Cox-de Boor basis function of degree `d` and index `i` over the knots `t` at `p`,
with the usual convention that a fraction with zero denominator is zero (which is division in a Lean field).
-/

namespace Verif.Math.BSpline

open Finset

variable {α : Type} [Field α] [LinearOrder α]

/-- The textbook basis functions. -/
def N (t : ℕ → α) (p : α) : ℕ → ℕ → α
  | 0, i => if t i ≤ p ∧ p < t (i + 1) then 1 else 0
  | d + 1, i =>
    (p - t i) / (t (i + d + 1) - t i) * N t p d i +
      (t (i + d + 2) - p) / (t (i + d + 2) - t (i + 1)) * N t p d (i + 1)

/-- The `j`-th knot (the last one beyond the end). -/
def Spline.knot (s : Spline α) (j : ℕ) : α := s.knots.getD j (s.knots.getLast?.getD 0)

/-- What holds of every spline a user can hold. -/
structure Spline.Inv (s : Spline α) : Prop where
  sorted : s.knots.Pairwise (· ≤ ·)
  len : s.knots.length = s.ctrl.length + s.degree + 1

omit [Field α] in
theorem new_eq {knots ctrl : List α} {degree : ℕ} {s : Spline α} (h : Spline.new knots ctrl degree = some s) :
    knots.length = ctrl.length + degree + 1 ∧ s.knots.Perm knots ∧ s.Inv ∧ s.ctrl = ctrl ∧ s.degree = degree := by
  unfold Spline.new at h
  split_ifs at h with hl
  rw [not_not] at hl
  simp only [Option.some.injEq] at h
  subst h
  refine ⟨hl, List.mergeSort_perm _ _, ⟨?_, ?_⟩, rfl, rfl⟩
  · have := List.pairwise_mergeSort (le := fun a b : α => decide (a ≤ b)) (by simpa using fun a b c => le_trans)
      (by simpa using fun a b => le_total a b) knots
    simpa using this
  · simp [hl]

omit [Field α] in
theorem addPoint_inv {s : Spline α} (h : s.Inv) (x y : α) : (s.addPoint x y).Inv := by
  have h1 := partitionPoint_le s.knots x
  refine ⟨?_, ?_⟩
  · show (s.knots.insertIdx (partitionPoint s.knots x) x).Pairwise (· ≤ ·)
    rw [insertIdx_partitionPoint]
    exact h.sorted.orderedInsert _ _
  · show (s.knots.insertIdx (partitionPoint s.knots x) x).length = (s.ctrl ++ [y]).length + s.degree + 1
    rw [List.length_insertIdx, if_pos h1, h.len]
    simp; omega

omit [Field α] in
theorem Spline.Reachable.inv {s : Spline α} (h : s.Reachable) : s.Inv := by
  induction h with
  | new h => exact (new_eq h).2.2.1
  | fit _ ih => exact ⟨ih.sorted, ih.len⟩
  | addPoint x y _ ih => exact addPoint_inv ih x y

theorem knot_mono {s : Spline α} (h : s.Inv) : Monotone s.knot := by
  intro i j hij
  unfold Spline.knot
  have hlen : 0 < s.knots.length := by rw [h.len]; omega
  by_cases hj : j < s.knots.length
  · have hi : i < s.knots.length := lt_of_le_of_lt hij hj
    rw [List.getD_eq_getElem _ _ hi, List.getD_eq_getElem _ _ hj]
    rcases Nat.eq_or_lt_of_le hij with rfl | hlt
    · exact le_rfl
    · exact List.pairwise_iff_getElem.1 h.sorted i j hi hj hlt
  · rw [List.getD_eq_default _ _ (not_lt.1 hj)]
    by_cases hi : i < s.knots.length
    · rw [List.getD_eq_getElem _ _ hi]
      have : s.knots.getLast?.getD 0 = s.knots[s.knots.length - 1]'(by omega) := by
        rw [List.getLast?_eq_getElem?, List.getElem?_eq_getElem (by omega)]; rfl
      rw [this]
      rcases Nat.eq_or_lt_of_le (show i ≤ s.knots.length - 1 by omega) with rfl | hlt
      · exact le_rfl
      · exact List.pairwise_iff_getElem.1 h.sorted i _ hi (by omega) hlt
    · rw [List.getD_eq_default _ _ (not_lt.1 hi)]

omit [LinearOrder α] in
theorem knot_get {s : Spline α} {j : ℕ} (hj : j < s.knots.length) : s.knots[j]? = some (s.knot j) := by
  unfold Spline.knot
  rw [List.getElem?_eq_getElem hj, List.getD_eq_getElem _ _ hj]

theorem cox_eq (s : Spline α) (p : α) (d i : ℕ) (h : i + d + 1 < s.knots.length) :
    cox s.knots p d i = some (N s.knot p d i) := by
  induction d generalizing i with
  | zero =>
    simp only [cox, N, knot_get (show i < s.knots.length by omega), knot_get (show i + 1 < s.knots.length by omega)]
    split_ifs with h1 h2 h3 h3 <;> first | rfl | (exfalso; tauto)
  | succ d ih =>
    simp only [cox, N, knot_get (show i < s.knots.length by omega), knot_get (show i + 1 < s.knots.length by omega),
      knot_get (show i + (d + 1) < s.knots.length by omega), knot_get (show i + (d + 1) + 1 < s.knots.length by omega),
      ih i (by omega), ih (i + 1) (by omega), Option.map_some]
    have e1 : i + (d + 1) = i + d + 1 := by omega
    have e2 : i + (d + 1) + 1 = i + d + 2 := by omega
    rw [e1, show i + d + 1 + 1 = i + d + 2 by omega]
    by_cases h1 : s.knot (i + d + 1) = s.knot i
    · simp only [h1, ne_eq, not_true_eq_false, if_false, sub_self, div_zero, zero_mul, zero_add]
      by_cases h2 : s.knot (i + d + 2) = s.knot (i + 1)
      · simp [h2]
      · simp [h2]
    · simp only [h1, ne_eq, not_false_eq_true, if_true]
      by_cases h2 : s.knot (i + d + 2) = s.knot (i + 1)
      · simp [h2]
      · simp [h2]

theorem sumFrom_eq (s : Spline α) (p : α) (d i : ℕ) (cs : List α) (acc : α)
    (h : i + cs.length + d < s.knots.length) :
    sumFrom s.knots p d i cs acc = some (acc + ∑ k ∈ range cs.length, N s.knot p d (i + k) * cs.getD k 0) := by
  induction cs generalizing i acc with
  | nil => simp [sumFrom]
  | cons c cs ih =>
    simp only [List.length_cons] at h
    rw [sumFrom, cox_eq s p d i (by omega)]
    simp only
    rw [ih (i + 1) _ (by omega), List.length_cons, sum_range_succ']
    simp only [List.getD_cons_zero, List.getD_cons_succ, add_zero]
    congr 1
    rw [add_assoc, add_comm (N s.knot p d i * c)]
    congr 2
    refine sum_congr rfl fun k _ => ?_
    rw [show i + 1 + k = i + (k + 1) by omega]

omit [Field α] in
/-- C39: `new` accepts exactly the argument lengths `knots = control points + degree + 1`, and then sorts the knots and
keeps the control points. -/
theorem C39_new (knots ctrl : List α) (degree : ℕ) :
    (Spline.new knots ctrl degree = none ↔ knots.length ≠ ctrl.length + degree + 1) ∧
    ∀ s, Spline.new knots ctrl degree = some s →
      s.knots.Perm knots ∧ s.knots.Pairwise (· ≤ ·) ∧ s.ctrl = ctrl ∧ s.degree = degree := by
  refine ⟨?_, fun s h => ?_⟩
  · unfold Spline.new
    split_ifs with h <;> simp [h]
  · obtain ⟨_, h1, h2, h3, h4⟩ := new_eq h
    exact ⟨h1, h2.sorted, h3, h4⟩

/-- A quadratic spline with seven knots, used below to instantiate the theorems. -/
def demo : Spline ℚ := ⟨[0, 1, 2, 3, 4, 5, 6], [-1, 2, 0, -1], 2, false⟩

theorem demo_reachable : demo.Reachable :=
  .new (knots := [0, 1, 2, 3, 4, 5, 6]) (ctrl := [-1, 2, 0, -1]) (degree := 2) (by
    unfold Spline.new
    rw [if_neg (by decide), List.mergeSort_of_pairwise (by decide)]; rfl)

/-- A broken line through three control points. -/
def demoLine : Spline ℚ := ⟨[0, 1, 2, 3, 4], [5, 7, 6], 1, false⟩

theorem demoLine_reachable : demoLine.Reachable :=
  .new (knots := [0, 1, 2, 3, 4]) (ctrl := [5, 7, 6]) (degree := 1) (by
    unfold Spline.new
    rw [if_neg (by decide), List.mergeSort_of_pairwise (by decide)]; rfl)

/-- C39: `interpolate` never panics; outside `[t_d, t_n]` it is the error, inside it is the spline, the sum of the textbook
basis functions times the control points. -/
theorem C39_value (s : Spline α) (hs : s.Reachable) (p : α) :
    s.interpolate p = some
      (if s.knot s.degree ≤ p ∧ p ≤ s.knot s.ctrl.length then
        .ok (∑ i ∈ range s.ctrl.length, N s.knot p s.degree i * s.ctrl.getD i 0)
       else .error ()) := by
  have hi := hs.inv
  have hl := hi.len
  unfold Spline.interpolate
  rw [knot_get (show s.degree < s.knots.length by omega)]
  simp only
  rw [if_neg (by omega), knot_get (show s.knots.length - s.degree - 1 < s.knots.length by omega)]
  simp only
  rw [show s.knots.length - s.degree - 1 = s.ctrl.length by omega]
  split_ifs with h
  · rw [sumFrom_eq s p s.degree 0 s.ctrl 0 (by omega)]
    simp
  · rfl

example := C39_value demo demo_reachable (5 / 2)

omit [Field α] in
/-- C39: after `add_point` the knots are still sorted, with the new one among them; the new value is the last control point
wherever the knot went. -/
theorem C39_add_point (s : Spline α) (hs : s.Reachable) (x y : α) :
    (s.addPoint x y).knots.Perm (x :: s.knots) ∧ (s.addPoint x y).knots.Pairwise (· ≤ ·) ∧
      (s.addPoint x y).ctrl = s.ctrl ++ [y] ∧ (s.addPoint x y).degree = s.degree := by
  refine ⟨?_, (addPoint_inv hs.inv x y).sorted, rfl, rfl⟩
  exact List.perm_insertIdx _ _ (partitionPoint_le _ _)

example := C39_add_point demo demo_reachable (5 / 2) 7

/-- C39: `range` is the smallest and the largest knot, and contains every point that can be evaluated. -/
theorem C39_range (s : Spline α) (hs : s.Reachable) :
    ∃ a b, s.range = some (a, b) ∧ a ∈ s.knots ∧ b ∈ s.knots ∧ (∀ x ∈ s.knots, a ≤ x ∧ x ≤ b) ∧
      ∀ p v, s.interpolate p = some (.ok v) → a ≤ p ∧ p ≤ b := by
  have hi := hs.inv
  have hl := hi.len
  have hne : s.knots ≠ [] := by
    intro e
    rw [e] at hl
    simp at hl
  have hb : ∀ x ∈ s.knots, s.knots.head hne ≤ x ∧ x ≤ s.knots.getLast hne := by
    intro x hx
    obtain ⟨i, h, rfl⟩ := List.getElem_of_mem hx
    have hp := List.pairwise_iff_getElem.1 hi.sorted
    constructor
    · rw [List.head_eq_getElem]
      rcases Nat.eq_zero_or_pos i with rfl | h0
      · exact le_rfl
      · exact hp 0 i (by omega) h h0
    · rw [List.getLast_eq_getElem]
      rcases Nat.lt_or_ge i (s.knots.length - 1) with h0 | h0
      · exact hp i _ h (by omega) h0
      · have : i = s.knots.length - 1 := by omega
        subst this
        exact le_rfl
  refine ⟨s.knots.head hne, s.knots.getLast hne, ?_, List.head_mem hne, List.getLast_mem hne, hb, fun p v hv => ?_⟩
  · unfold Spline.range
    rw [List.head?_eq_some_head hne, List.getLast?_eq_some_getLast hne]
  · rw [C39_value s hs p] at hv
    by_cases h : s.knot s.degree ≤ p ∧ p ≤ s.knot s.ctrl.length
    · have hm : ∀ j, j < s.knots.length → s.knot j ∈ s.knots := fun j hj => List.mem_of_getElem? (knot_get hj)
      exact ⟨(hb _ (hm s.degree (by omega))).1.trans h.1, h.2.trans (hb _ (hm s.ctrl.length (by omega))).2⟩
    · rw [if_neg h] at hv; simp at hv

/-- C39 (negation of "every point of the range can be evaluated"): below the knot with the index of the degree the
evaluation fails. -/
theorem C39_range_not_evaluable (s : Spline α) (hs : s.Reachable) (p : α) (h : p < s.knot s.degree) :
    s.interpolate p = some (.error ()) := by
  rw [C39_value s hs p, if_neg fun e => absurd e.1 (not_le.2 h)]

/-- A quadratic spline on `0, …, 4` starts at `2`. -/
example : ∃ s : Spline ℚ, s.Reachable ∧ s.range = some (0, 4) ∧ s.interpolate 1 = some (.error ()) := by
  refine ⟨⟨[0, 1, 2, 3, 4], [5, 6], 2, false⟩, ?_, by decide +kernel, by decide +kernel⟩
  exact .new (knots := [0, 1, 2, 3, 4]) (ctrl := [5, 6]) (degree := 2) (by
    unfold Spline.new
    rw [if_neg (by decide), List.mergeSort_of_pairwise (by decide)])

theorem N_support {t : ℕ → α} (ht : Monotone t) (p : α) (d i : ℕ) (h : N t p d i ≠ 0) : t i ≤ p ∧ p < t (i + d + 1) := by
  induction d generalizing i with
  | zero =>
    simp only [N] at h
    split_ifs at h with h1
    · exact h1
    · exact absurd rfl h
  | succ d ih =>
    simp only [N] at h
    by_cases h1 : N t p d i = 0
    · have h2 : N t p d (i + 1) ≠ 0 := fun h2 => h (by rw [h1, h2]; simp)
      obtain ⟨a, b⟩ := ih (i + 1) h2
      exact ⟨le_trans (ht (by omega)) a, by rwa [show i + (d + 1) + 1 = i + 1 + d + 1 by omega]⟩
    · obtain ⟨a, b⟩ := ih i h1
      exact ⟨a, lt_of_lt_of_le b (ht (by omega))⟩

theorem N_zero {t : ℕ → α} (ht : Monotone t) (p : α) (d i : ℕ) (h : p < t i ∨ t (i + d + 1) ≤ p) : N t p d i = 0 := by
  by_contra hc
  obtain ⟨a, b⟩ := N_support ht p d i hc
  rcases h with h | h
  · exact absurd h (not_lt.2 a)
  · exact absurd b (not_lt.2 h)

variable [IsStrictOrderedRing α]

theorem N_nonneg {t : ℕ → α} (ht : Monotone t) (p : α) (d i : ℕ) : 0 ≤ N t p d i := by
  induction d generalizing i with
  | zero => simp only [N]; split_ifs <;> norm_num
  | succ d ih =>
    simp only [N]
    apply add_nonneg
    · by_cases h : N t p d i = 0
      · rw [h, mul_zero]
      · obtain ⟨a, b⟩ := N_support ht p d i h
        exact mul_nonneg (div_nonneg (sub_nonneg.2 a) (sub_nonneg.2 (ht (by omega)))) (ih i)
    · by_cases h : N t p d (i + 1) = 0
      · rw [h, mul_zero]
      · obtain ⟨a, b⟩ := N_support ht p d (i + 1) h
        rw [show i + 1 + d + 1 = i + d + 2 by omega] at b
        exact mul_nonneg (div_nonneg (sub_nonneg.2 b.le) (sub_nonneg.2 (ht (by omega)))) (ih (i + 1))

omit [IsStrictOrderedRing α] in
theorem N_split {t : ℕ → α} (ht : Monotone t) (p : α) (d i : ℕ) :
    (t (i + d + 2) - p) / (t (i + d + 2) - t (i + 1)) * N t p d (i + 1) =
      N t p d (i + 1) - (p - t (i + 1)) / (t (i + 1 + d + 1) - t (i + 1)) * N t p d (i + 1) := by
  rw [show i + 1 + d + 1 = i + d + 2 by omega]
  by_cases h : N t p d (i + 1) = 0
  · rw [h]; simp
  · obtain ⟨a, b⟩ := N_support ht p d (i + 1) h
    rw [show i + 1 + d + 1 = i + d + 2 by omega] at b
    have : t (i + d + 2) - t (i + 1) ≠ 0 := sub_ne_zero.2 (ne_of_gt (lt_of_le_of_lt a b))
    field_simp
    ring

omit [IsStrictOrderedRing α] in
theorem N_sum {t : ℕ → α} (ht : Monotone t) (p : α) (d m : ℕ) (h1 : t d ≤ p) (h2 : p < t m) :
    ∑ i ∈ range m, N t p d i = 1 := by
  induction d with
  | zero =>
    have : ∀ i, N t p 0 i = (if p < t (i + 1) then 1 else 0) - (if p < t i then 1 else 0) := by
      intro i
      simp only [N]
      have := ht (Nat.le_succ i)
      by_cases a : t i ≤ p
      · rw [if_neg (not_lt.2 a)]; simp [a]
      · rw [if_pos (not_le.1 a), if_pos (lt_of_lt_of_le (not_le.1 a) this)]; simp [a]
    simp only [this]
    rw [sum_range_sub (fun i => if p < t i then (1 : α) else 0), if_pos h2, if_neg (not_lt.2 h1), sub_zero]
  | succ d ih =>
    have hd : t d ≤ p := le_trans (ht (Nat.le_succ d)) h1
    rw [← ih hd]
    simp only [N, N_split ht]
    rw [sum_add_distrib, sum_sub_distrib]
    set g : ℕ → α := fun i => (p - t i) / (t (i + d + 1) - t i) * N t p d i with hg
    have e1 : ∑ i ∈ range m, (p - t (i + 1)) / (t (i + 1 + d + 1) - t (i + 1)) * N t p d (i + 1) =
        ∑ i ∈ range m, g i - g 0 + g m := by
      have := sum_range_succ g m
      rw [sum_range_succ' g m] at this
      have e : ∑ i ∈ range m, g (i + 1) = ∑ i ∈ range m, g i + g m - g 0 := by rw [← this]; ring
      rw [e]; ring
    have e2 : ∑ i ∈ range m, N t p d (i + 1) = ∑ i ∈ range m, N t p d i - N t p d 0 + N t p d m := by
      have := sum_range_succ (N t p d) m
      rw [sum_range_succ' (N t p d) m] at this
      have e : ∑ i ∈ range m, N t p d (i + 1) = ∑ i ∈ range m, N t p d i + N t p d m - N t p d 0 := by rw [← this]; ring
      rw [e]; ring
    have z0 : N t p d 0 = 0 := N_zero ht p d 0 (Or.inr (by simpa using h1))
    have zm : N t p d m = 0 := N_zero ht p d m (Or.inl h2)
    have g0 : g 0 = 0 := by rw [hg]; simp only; rw [z0, mul_zero]
    have gm : g m = 0 := by rw [hg]; simp only; rw [zm, mul_zero]
    rw [e1, e2, z0, zm, g0, gm]
    ring

omit [IsStrictOrderedRing α] in
theorem N_sum_closed {t : ℕ → α} (ht : Monotone t) (p : α) (d m : ℕ) (hd : 0 < d) (h1 : t d ≤ p) (h2 : p = t m)
    (h3 : t m < t (m + 1)) : ∑ i ∈ range m, N t p d i = 1 := by
  have := N_sum ht p d (m + 1) h1 (h2 ▸ h3)
  rw [sum_range_succ] at this
  have z : N t p d m = 0 := by
    obtain ⟨e, rfl⟩ : ∃ e, d = e + 1 := ⟨d - 1, by omega⟩
    simp only [N]
    rw [h2, sub_self, zero_div, zero_mul, zero_add, N_zero ht (t m) e (m + 1) (Or.inl h3), mul_zero]
  rwa [z, add_zero] at this

/-- C39: the basis functions are non-negative, vanish outside their own knots, and sum to one at every point of the range
except its right end; at the right end too if the degree is positive and the end knot is simple on the right. -/
theorem C39_basis (s : Spline α) (hs : s.Reachable) (p : α) :
    (∀ i, 0 ≤ N s.knot p s.degree i) ∧
    (∀ i, N s.knot p s.degree i ≠ 0 → s.knot i ≤ p ∧ p < s.knot (i + s.degree + 1)) ∧
    (s.knot s.degree ≤ p → p < s.knot s.ctrl.length ∨
        (0 < s.degree ∧ p = s.knot s.ctrl.length ∧ s.knot s.ctrl.length < s.knot (s.ctrl.length + 1)) →
      ∑ i ∈ range s.ctrl.length, N s.knot p s.degree i = 1) := by
  have hm := knot_mono hs.inv
  refine ⟨N_nonneg hm p _, N_support hm p _, fun h1 h2 => ?_⟩
  rcases h2 with h2 | ⟨h2, h3, h4⟩
  · exact N_sum hm p _ _ h1 h2
  · exact N_sum_closed hm p _ _ h2 h1 h3 h4

example := C39_basis demo demo_reachable (5 / 2)

/-- C39: the value stays between bounds on the control points that are active at `p`: if every control point whose knots
enclose `p` is in `[lo, hi]`, so is the value. With `lo = hi`: a constant spline is constant. -/
theorem C39_hull (s : Spline α) (hs : s.Reachable) (p lo hi v : α)
    (hc : ∀ (i : ℕ) c, s.ctrl[i]? = some c → s.knot i ≤ p → p < s.knot (i + s.degree + 1) → lo ≤ c ∧ c ≤ hi)
    (h2 : p < s.knot s.ctrl.length ∨
        (0 < s.degree ∧ p = s.knot s.ctrl.length ∧ s.knot s.ctrl.length < s.knot (s.ctrl.length + 1)))
    (hv : s.interpolate p = some (.ok v)) : lo ≤ v ∧ v ≤ hi := by
  rw [C39_value s hs p] at hv
  by_cases h : s.knot s.degree ≤ p ∧ p ≤ s.knot s.ctrl.length
  swap
  · rw [if_neg h] at hv; simp at hv
  rw [if_pos h] at hv
  simp only [Option.some.injEq, Except.ok.injEq] at hv
  obtain ⟨b1, b2, b3⟩ := C39_basis s hs p
  have hsum := b3 h.1 h2
  subst hv
  have key : ∀ i ∈ range s.ctrl.length, N s.knot p s.degree i * lo ≤ N s.knot p s.degree i * s.ctrl.getD i 0 ∧
      N s.knot p s.degree i * s.ctrl.getD i 0 ≤ N s.knot p s.degree i * hi := by
    intro i hi'
    rw [mem_range] at hi'
    by_cases hz : N s.knot p s.degree i = 0
    · simp [hz]
    · obtain ⟨c1, c2⟩ := b2 i hz
      have := hc i _ (List.getElem?_eq_getElem hi') c1 c2
      rw [List.getD_eq_getElem _ _ hi']
      exact ⟨mul_le_mul_of_nonneg_left this.1 (b1 i), mul_le_mul_of_nonneg_left this.2 (b1 i)⟩
  constructor
  · calc lo = ∑ i ∈ range s.ctrl.length, N s.knot p s.degree i * lo := by rw [← sum_mul, hsum, one_mul]
      _ ≤ _ := sum_le_sum fun i hi' => (key i hi').1
  · calc _ ≤ ∑ i ∈ range s.ctrl.length, N s.knot p s.degree i * hi := sum_le_sum fun i hi' => (key i hi').2
      _ = hi := by rw [← sum_mul, hsum, one_mul]

/-- An instance: at 5/2 the value is 11/8, between the least and the greatest of the three control points in reach. -/
example := C39_hull demo demo_reachable (5 / 2) (-1) 2 (11 / 8) (by
  intro i c hc _ _
  match i, hc with
  | 0, hc => cases hc; decide
  | 1, hc => cases hc; decide
  | 2, hc => cases hc; decide
  | 3, hc => cases hc; decide
  | n + 4, hc => simp [demo] at hc) (.inl (by decide +kernel)) (by decide +kernel)

omit [IsStrictOrderedRing α] in
/-- C39: a spline of degree one is the broken line through the points `(t_{i+1}, c_i)`. -/
theorem C39_degree_one (s : Spline α) (hs : s.Reachable) (hd : s.degree = 1) (i : ℕ) (hi : i + 1 < s.ctrl.length) (p c c' : α)
    (h1 : s.knot (i + 1) ≤ p) (h2 : p < s.knot (i + 2)) (hc : s.ctrl[i]? = some c) (hc' : s.ctrl[i + 1]? = some c') :
    s.interpolate p = some (.ok (c + (c' - c) * ((p - s.knot (i + 1)) / (s.knot (i + 2) - s.knot (i + 1))))) := by
  have hm := knot_mono hs.inv
  rw [C39_value s hs p, hd, if_pos ⟨le_trans (hm (by omega)) h1, h2.le.trans (hm (by omega))⟩]
  congr 2
  have hN : ∀ k, k ≠ i → k ≠ i + 1 → N s.knot p 1 k = 0 := by
    intro k k1 k2
    apply N_zero hm
    rcases Nat.lt_or_ge k i with hk | hk
    · right; exact le_trans (hm (by omega)) h1
    · left; exact lt_of_lt_of_le h2 (hm (by omega))
  have hi1 : N s.knot p 0 i = 0 := N_zero hm p 0 i (Or.inr (by simpa using h1))
  have hi2 : N s.knot p 0 (i + 1) = 1 := by simp only [N]; rw [if_pos ⟨h1, h2⟩]
  have hi3 : N s.knot p 0 (i + 2) = 0 := N_zero hm p 0 (i + 2) (Or.inl h2)
  rw [sum_eq_add_of_mem i (i + 1) (mem_range.2 (by omega)) (mem_range.2 hi) (by omega)
    (fun k _ hk => by rw [hN k hk.1 hk.2, zero_mul])]
  have g1 : s.ctrl.getD i 0 = c := by simp [List.getD, hc]
  have g2 : s.ctrl.getD (i + 1) 0 = c' := by simp [List.getD, hc']
  have e1 : N s.knot p 1 i = (s.knot (i + 2) - p) / (s.knot (i + 2) - s.knot (i + 1)) := by
    simp only [N] at hi1 hi2 ⊢
    rw [hi1, hi2]; simp
  have e2 : N s.knot p 1 (i + 1) = (p - s.knot (i + 1)) / (s.knot (i + 2) - s.knot (i + 1)) := by
    have h3 : N s.knot p 0 (i + 1 + 1) = 0 := hi3
    show (p - s.knot (i + 1)) / (s.knot (i + 1 + 0 + 1) - s.knot (i + 1)) * N s.knot p 0 (i + 1) +
      (s.knot (i + 1 + 0 + 2) - p) / (s.knot (i + 1 + 0 + 2) - s.knot (i + 1 + 1)) * N s.knot p 0 (i + 1 + 1) = _
    rw [hi2, h3]; simp
  have hne : s.knot (i + 2) - s.knot (i + 1) ≠ 0 := sub_ne_zero.2 (ne_of_gt (lt_of_le_of_lt h1 h2))
  rw [g1, g2, e1, e2]
  field_simp
  ring

example := C39_degree_one demoLine demoLine_reachable rfl 1 (by decide) (5 / 2) 7 6 (by decide +kernel) (by decide +kernel) rfl rfl

omit [IsStrictOrderedRing α] in
/-- C39 (defect): when the right end knot is repeated to the end of the knot vector (a clamped spline), the value there is
zero whatever the control points are. -/
theorem C39_clamped_end (s : Spline α) (hs : s.Reachable)
    (hr : s.knot (s.ctrl.length + s.degree) = s.knot s.ctrl.length)
    (hl : s.knot s.degree ≤ s.knot s.ctrl.length) :
    s.interpolate (s.knot s.ctrl.length) = some (.ok 0) := by
  have hm := knot_mono hs.inv
  rw [C39_value s hs, if_pos ⟨hl, le_rfl⟩]
  congr 2
  refine sum_eq_zero fun i hi => ?_
  rw [mem_range] at hi
  rw [N_zero hm _ _ _ (Or.inr ?_), zero_mul]
  rw [← hr]
  exact hm (by omega)

/-- The clamped quadratic spline with all control points 5 is 5 inside and 0 at its right end. -/
example : Spline.interpolate ⟨[0, 0, 0, 1, 1, 1], [5, 5, (5 : ℚ)], 2, false⟩ (1 / 2) = some (.ok 5) ∧
    Spline.interpolate ⟨[0, 0, 0, 1, 1, 1], [5, 5, (5 : ℚ)], 2, false⟩ 1 = some (.ok 0) := by
  constructor <;> decide +kernel

example : Spline.new [0, 1, 2, 3, 4, 5, 6] [-1, 2, 0, (-1 : ℚ)] 2 = some ⟨[0, 1, 2, 3, 4, 5, 6], [-1, 2, 0, -1], 2, false⟩ ∧
    Spline.interpolate ⟨[0, 1, 2, 3, 4, 5, 6], [-1, 2, 0, (-1 : ℚ)], 2, false⟩ (5 / 2) = some (.ok (11 / 8)) := by
  constructor
  · unfold Spline.new
    rw [if_neg (by decide), List.mergeSort_of_pairwise (by decide)]
  · decide +kernel

end Verif.Math.BSpline
