import Verif.Math.Interp
import Mathlib.Data.List.Sort
import Mathlib.Data.List.Nodup

/-!
# Helper lemmas for the interpolators
-/

namespace Verif.Math

variable {α β : Type} [LinearOrder α]

theorem partitionPoint_le (xs : List α) (p : α) : partitionPoint xs p ≤ xs.length :=
  (List.takeWhile_sublist _).length_le

theorem insertIdx_partitionPoint (xs : List α) (p : α) :
    xs.insertIdx (partitionPoint xs p) p = xs.orderedInsert (· ≤ ·) p := by
  induction xs with
  | nil => simp [partitionPoint]
  | cons x t ih =>
    unfold partitionPoint at *
    by_cases h : x < p
    · simp only [List.takeWhile_cons, h, decide_true, if_true, List.length_cons, List.insertIdx_succ_cons, ih]
      rw [List.orderedInsert_cons, if_neg (not_le.2 h)]
    · simp only [List.takeWhile_cons, h, decide_false, Bool.false_eq_true, if_false, List.length_nil,
        List.insertIdx_zero]
      rw [List.orderedInsert_cons, if_pos (not_lt.1 h)]

theorem partitionPoint_spec (xs : List α) (p : α) (hs : xs.Pairwise (· ≤ ·)) (i : ℕ) (x : α) (hx : xs[i]? = some x) :
    i < partitionPoint xs p ↔ x < p := by
  induction xs generalizing i with
  | nil => simp at hx
  | cons y t ih =>
    rw [List.pairwise_cons] at hs
    unfold partitionPoint at *
    by_cases h : y < p
    · simp only [List.takeWhile_cons, h, decide_true, if_true, List.length_cons]
      cases i with
      | zero => simp at hx; subst hx; simp [h]
      | succ i => simp at hx; rw [← ih hs.2 i hx]; omega
    · simp only [List.takeWhile_cons, h, decide_false, Bool.false_eq_true, if_false, List.length_nil]
      cases i with
      | zero => simp at hx; subst hx; simp [h]
      | succ i =>
        simp at hx
        have := hs.1 x (List.mem_of_getElem? hx)
        simp only [not_lt_zero, false_iff, not_lt]
        exact le_trans (not_lt.1 h) this

omit [LinearOrder α] in
theorem insertIdx_zip (xs : List α) (ys : List β) (k : ℕ) (a : α) (b : β) (h : xs.length = ys.length) :
    (xs.insertIdx k a).zip (ys.insertIdx k b) = (xs.zip ys).insertIdx k (a, b) := by
  induction k generalizing xs ys with
  | zero => simp
  | succ k ih =>
    cases xs with
    | nil =>
      cases ys with
      | nil => simp
      | cons y ys => simp at h
    | cons x xs =>
      cases ys with
      | nil => simp at h
      | cons y ys => simp at h; simp [ih xs ys h]

/-- The invariant of all reachable interpolators. -/
structure Interp.Inv (I : Interp α β) : Prop where
  sorted : I.xs.Pairwise (· ≤ ·)
  len : I.xs.length = I.ys.length

theorem Interp.inv_addPoint {I : Interp α β} (h : I.Inv) (pt : α × β) : (I.addPoint pt).Inv := by
  constructor
  · show (I.xs.insertIdx (partitionPoint I.xs pt.1) pt.1).Pairwise (· ≤ ·)
    rw [insertIdx_partitionPoint]
    exact h.sorted.orderedInsert _ _
  · have h1 := partitionPoint_le I.xs pt.1
    have h2 := h.len
    simp only [Interp.addPoint]
    rw [List.length_insertIdx, List.length_insertIdx, if_pos h1, if_pos (h2 ▸ h1), h2]

theorem Interp.addPoint_perm {I : Interp α β} (h : I.Inv) (pt : α × β) :
    ((I.addPoint pt).xs.zip (I.addPoint pt).ys).Perm (pt :: I.xs.zip I.ys) := by
  simp only [Interp.addPoint]
  rw [insertIdx_zip _ _ _ _ _ h.len]
  apply List.perm_insertIdx
  rw [List.length_zip, ← h.len, Nat.min_self]
  exact partitionPoint_le _ _

theorem Interp.new_ok {xs : List α} {ys : List β} {I : Interp α β} (h : Interp.new xs ys = .ok I) :
    xs.length = ys.length ∧ I.Inv ∧ (I.xs.zip I.ys).Perm (xs.zip ys) := by
  unfold Interp.new at h
  split_ifs at h with hl
  · rw [not_not] at hl
    simp only [Except.ok.injEq] at h
    subst h
    refine ⟨hl, ⟨?_, by simp⟩, ?_⟩
    · simp only
      rw [List.pairwise_map]
      have := List.pairwise_mergeSort (le := fun a b : α × β => decide (a.1 ≤ b.1))
        (fun a b c h1 h2 => by simp only [decide_eq_true_eq] at *; exact le_trans h1 h2)
        (fun a b => by simp only [Bool.or_eq_true, decide_eq_true_eq]; exact le_total _ _) (xs.zip ys)
      exact this.imp (fun h => by simpa using h)
    · simp only
      rw [List.zip_map', List.map_id'']
      · exact List.mergeSort_perm _ _
      · intro; rfl

theorem Interp.Reachable.inv {I : Interp α β} (h : I.Reachable) : I.Inv := by
  induction h with
  | new h => exact (Interp.new_ok h).2.1
  | fit _ ih => exact ⟨ih.sorted, ih.len⟩
  | addPoint _ pt ih => exact Interp.inv_addPoint ih pt

omit [LinearOrder α] in
theorem range_eq_none {I : Interp α β} : I.range = none ↔ I.xs = [] := by
  unfold Interp.range
  cases h : I.xs with
  | nil => simp
  | cons x t => simp [List.getLast?_cons]

theorem range_spec {I : Interp α β} (hI : I.Inv) {a b : α} (h : I.range = some (a, b)) :
    a ∈ I.xs ∧ b ∈ I.xs ∧ (∀ x ∈ I.xs, a ≤ x ∧ x ≤ b) := by
  unfold Interp.range at h
  obtain ⟨hs, _⟩ := hI
  generalize I.xs = xs at *
  cases xs with
  | nil => simp at h
  | cons x t =>
    simp only [List.head?_cons, List.getLast?_eq_some_getLast (List.cons_ne_nil x t), Option.some.injEq,
      Prod.mk.injEq] at h
    obtain ⟨rfl, rfl⟩ := h
    refine ⟨by simp, List.getLast_mem _, fun y hy => ⟨?_, ?_⟩⟩
    · rcases List.mem_cons.1 hy with rfl | hy
      · exact le_rfl
      · exact (List.pairwise_cons.1 hs).1 y hy
    · obtain ⟨i, hi, rfl⟩ := List.getElem_of_mem hy
      rw [List.getLast_eq_getElem]
      rcases Nat.lt_or_ge i ((x :: t).length - 1) with hlt | hge
      · exact List.pairwise_iff_getElem.1 hs _ _ hi (by omega) hlt
      · have : i = (x :: t).length - 1 := by omega
        subst this; exact le_rfl

/-- Interpolation in full: panics, errors, hits and segments. -/
theorem interpolateWith_spec {bs : List α → α → Option ℕ} (hbs : BinarySearch bs) (seg : α → α → α → β → β → β)
    {I : Interp α β} (hI : I.Inv) (p : α) :
    (I.xs = [] → I.interpolateWith bs seg p = none) ∧
    (I.xs ≠ [] → ((∀ x ∈ I.xs, p < x) ∨ (∀ x ∈ I.xs, x < p)) →
      I.interpolateWith bs seg p = some (.error .outsideOfRange)) ∧
    (p ∈ I.xs → ∃ y, (p, y) ∈ I.xs.zip I.ys ∧ I.interpolateWith bs seg p = some (.ok y)) ∧
    (∀ i xl xr yl yr, I.xs[i]? = some xl → I.xs[i + 1]? = some xr → I.ys[i]? = some yl → I.ys[i + 1]? = some yr →
      xl < p → p < xr → I.interpolateWith bs seg p = some (.ok (seg p xl xr yl yr))) := by
  refine ⟨?_, ?_, ?_, ?_⟩
  · intro h
    simp [Interp.interpolateWith, range_eq_none.2 h]
  · intro hne h
    cases hr : I.range with
    | none => exact absurd (range_eq_none.1 hr) hne
    | some ab =>
      obtain ⟨a, b⟩ := ab
      obtain ⟨h1, h2, h3⟩ := range_spec hI hr
      simp only [Interp.interpolateWith, hr]
      rw [if_pos]
      rcases h with h | h
      · exact Or.inl (h a h1)
      · exact Or.inr (h b h2)
  · intro hp
    cases hr : I.range with
    | none => rw [range_eq_none.1 hr] at hp; simp at hp
    | some ab =>
      obtain ⟨a, b⟩ := ab
      obtain ⟨h1, h2, h3⟩ := range_spec hI hr
      simp only [Interp.interpolateWith, hr]
      rw [if_neg (by rintro (h | h); exact absurd h (not_lt.2 (h3 p hp).1); exact absurd h (not_lt.2 (h3 p hp).2))]
      cases hb : bs I.xs p with
      | none => exact absurd hp ((hbs I.xs p hI.sorted).2 hb)
      | some i =>
        have hi := (hbs I.xs p hI.sorted).1 i hb
        have hlt : i < I.xs.length := (List.getElem?_eq_some_iff.1 hi).1
        have hlt' : i < I.ys.length := hI.len ▸ hlt
        refine ⟨I.ys[i], ?_, ?_⟩
        · have : (I.xs.zip I.ys)[i]? = some (p, I.ys[i]) := by
            rw [List.getElem?_zip_eq_some]
            exact ⟨hi, List.getElem?_eq_getElem hlt'⟩
          exact List.mem_of_getElem? this
        · simp [List.getElem?_eq_getElem hlt']
  · intro i xl xr yl yr hxl hxr hyl hyr hl hr'
    cases hr : I.range with
    | none => rw [range_eq_none.1 hr] at hxl; simp at hxl
    | some ab =>
      obtain ⟨a, b⟩ := ab
      obtain ⟨h1, h2, h3⟩ := range_spec hI hr
      have hlm := h3 xl (List.mem_of_getElem? hxl)
      have hrm := h3 xr (List.mem_of_getElem? hxr)
      simp only [Interp.interpolateWith, hr]
      rw [if_neg (by
        rintro (h | h)
        · exact absurd h (not_lt.2 (le_trans hlm.1 hl.le))
        · exact absurd h (not_lt.2 (le_trans hr'.le hrm.2)))]
      have hpp1 := (partitionPoint_spec I.xs p hI.sorted i xl hxl).2 hl
      have hpp2 : ¬ i + 1 < partitionPoint I.xs p := fun h =>
        absurd ((partitionPoint_spec I.xs p hI.sorted (i + 1) xr hxr).1 h) (not_lt.2 hr'.le)
      have hpp : partitionPoint I.xs p = i + 1 := by omega
      cases hb : bs I.xs p with
      | some j =>
        have hj := (hbs I.xs p hI.sorted).1 j hb
        exfalso
        by_cases hji : j < i + 1
        · rw [← hpp, partitionPoint_spec I.xs p hI.sorted j p hj] at hji
          exact lt_irrefl _ hji
        · have hjl : j < I.xs.length := (List.getElem?_eq_some_iff.1 hj).1
          have hil : i + 1 < I.xs.length := (List.getElem?_eq_some_iff.1 hxr).1
          have e1 : I.xs[j] = p := by rw [List.getElem?_eq_getElem hjl] at hj; simpa using hj
          have e2 : I.xs[i + 1] = xr := by rw [List.getElem?_eq_getElem hil] at hxr; simpa using hxr
          have : xr ≤ p := by
            rcases Nat.lt_or_ge (i + 1) j with h | h
            · have := List.pairwise_iff_getElem.1 hI.sorted _ _ hil hjl h
              rwa [e1, e2] at this
            · have : j = i + 1 := by omega
              subst this; rw [← e1, ← e2]
          exact absurd hr' (not_lt.2 this)
      | none =>
        simp only [hpp, Nat.add_sub_cancel, hxl, hxr, hyl, hyr]
        simp

/-- Every point in range that is not a knot lies strictly between two consecutive knots. -/
theorem exists_segment {I : Interp α β} (hI : I.Inv) {p a b : α} (ha : a ∈ I.xs) (hb : b ∈ I.xs) (hap : a ≤ p)
    (hpb : p ≤ b) (hp : p ∉ I.xs) :
    ∃ i xl xr yl yr, I.xs[i]? = some xl ∧ I.xs[i + 1]? = some xr ∧ I.ys[i]? = some yl ∧ I.ys[i + 1]? = some yr ∧
      xl < p ∧ p < xr := by
  have hap' : a < p := lt_of_le_of_ne hap (fun h => hp (h ▸ ha))
  have hpb' : p < b := lt_of_le_of_ne hpb (fun h => hp (h ▸ hb))
  obtain ⟨ia, hia, rfl⟩ := List.getElem_of_mem ha
  obtain ⟨ib, hib, rfl⟩ := List.getElem_of_mem hb
  have h1 := (partitionPoint_spec I.xs p hI.sorted ia _ (List.getElem?_eq_getElem hia)).2 hap'
  have h2 : ¬ ib < partitionPoint I.xs p := fun h =>
    absurd ((partitionPoint_spec I.xs p hI.sorted ib _ (List.getElem?_eq_getElem hib)).1 h) (not_lt.2 hpb)
  set r := partitionPoint I.xs p with hr
  have hr1 : r - 1 < I.xs.length := by omega
  have hr2 : r < I.xs.length := by omega
  have hlen := hI.len
  refine ⟨r - 1, I.xs[r - 1], I.xs[r], I.ys[r - 1]'(by omega), I.ys[r]'(by omega), ?_, ?_, ?_, ?_, ?_, ?_⟩
  · exact List.getElem?_eq_getElem hr1
  · rw [show r - 1 + 1 = r by omega]; exact List.getElem?_eq_getElem hr2
  · exact List.getElem?_eq_getElem (by omega)
  · rw [show r - 1 + 1 = r by omega]; exact List.getElem?_eq_getElem (by omega)
  · exact (partitionPoint_spec I.xs p hI.sorted (r - 1) _ (List.getElem?_eq_getElem hr1)).1 (by omega)
  · have : ¬ I.xs[r] < p := fun h => by
      have := (partitionPoint_spec I.xs p hI.sorted r _ (List.getElem?_eq_getElem hr2)).2 h
      omega
    exact lt_of_le_of_ne (not_lt.1 this) (fun h => hp (h ▸ List.getElem_mem hr2))

end Verif.Math
