import Verif.Float.SortingSpec
import Verif.Float.NanLemmas
import Mathlib.Data.List.Sort

/-! Helper lemmas about sorting data with NaN. -/

namespace Verif.Float.Sorting

open X64

theorem cmp_nan_left (x : X64) : cmp nan x = none := by cases x <;> rfl

theorem cmp_nan_right (x : X64) : cmp x nan = none := by cases x <;> rfl

theorem cmp_value {x y : X64} (hx : x ≠ nan) (hy : y ≠ nan) : cmp x y = some (compare (value x) (value y)) := by
  have hlt : ∀ {a b : EReal}, a < b → compare a b = .lt := fun h => compare_lt_iff_lt.2 h
  have hgt : ∀ {a b : EReal}, b < a → compare a b = .gt := fun h => compare_gt_iff_gt.2 h
  cases x with
  | nan => exact absurd rfl hx
  | fin a => cases y with
    | nan => exact absurd rfl hy
    | fin b =>
      show some (compare a.val b.val) = some (compare ((a.val : ℝ) : EReal) ((b.val : ℝ) : EReal))
      rcases lt_trichotomy a.val b.val with h | h | h
      · rw [compare_lt_iff_lt.2 h, hlt (EReal.coe_lt_coe_iff.2 (Rat.cast_lt.2 h))]
      · rw [h, compare_eq_iff_eq.2 rfl, compare_eq_iff_eq.2 rfl]
      · rw [compare_gt_iff_gt.2 h, hgt (EReal.coe_lt_coe_iff.2 (Rat.cast_lt.2 h))]
    | inf t => cases t
               · exact congrArg some (hlt (EReal.coe_lt_top _)).symm
               · exact congrArg some (hgt (EReal.bot_lt_coe _)).symm
  | inf s => cases y with
    | nan => exact absurd rfl hy
    | fin b => cases s
               · exact congrArg some (hgt (EReal.coe_lt_top _)).symm
               · exact congrArg some (hlt (EReal.bot_lt_coe _)).symm
    | inf t =>
      cases s <;> cases t
      · exact congrArg some (compare_eq_iff_eq.2 rfl : compare (⊤ : EReal) ⊤ = .eq).symm
      · exact congrArg some (hgt bot_lt_top).symm
      · exact congrArg some (hlt bot_lt_top).symm
      · exact congrArg some (compare_eq_iff_eq.2 rfl : compare (⊥ : EReal) ⊥ = .eq).symm

theorem cmp_some {x y : X64} {r : Ordering} (h : cmp x y = some r) : x ≠ nan ∧ y ≠ nan ∧ r = compare (value x) (value y) := by
  have hx : x ≠ nan := by rintro rfl; rw [cmp_nan_left] at h; cases h
  have hy : y ≠ nan := by rintro rfl; rw [cmp_nan_right] at h; cases h
  rw [cmp_value hx hy] at h
  exact ⟨hx, hy, (Option.some.inj h).symm⟩

theorem run_mono {n : ℕ} {c c' : Fin n → Fin n → Option Ordering} (h : ∀ i j r, c i j = some r → c' i j = some r) (s : Sorter n)
    {o : List (Fin n)} (hs : s.run c = some o) : s.run c' = some o := by
  induction s with
  | done order => exact hs
  | ask i j next ih =>
    obtain ⟨r, h1, h2⟩ := Option.bind_eq_some_iff.1 hs
    show ((c' i j).bind fun r => (next r).run c') = _
    rw [h i j r h1]
    exact ih r h2

/-- A procedure that sorts all keys cannot do without comparing an item, if there is another one. -/
theorem run_nan {n : ℕ} (hn : 2 ≤ n) {s : Sorter n} (hs : s.Correct) (key : Fin n → X64) (i : Fin n) (hi : key i = nan) :
    s.run (fun a b => cmp (key a) (key b)) = none := by
  by_contra hne
  obtain ⟨o, ho⟩ := Option.ne_none_iff_exists'.1 hne
  have main : ∀ e : WithBot (WithTop EReal), o.Perm (List.finRange n) ∧
      o.Pairwise fun a b => (if a = i then e else (((value (key a) : EReal) : WithTop EReal) : WithBot (WithTop EReal))) ≤
        (if b = i then e else (((value (key b) : EReal) : WithTop EReal) : WithBot (WithTop EReal))) := by
    intro e
    obtain ⟨o', h1, h2, h3⟩ := hs (WithBot (WithTop EReal))
      (fun a => if a = i then e else (((value (key a) : EReal) : WithTop EReal) : WithBot (WithTop EReal)))
    have h4 := run_mono (c' := fun a b => some (compare (if a = i then e else (((value (key a) : EReal) : WithTop EReal) : WithBot (WithTop EReal)))
      (if b = i then e else (((value (key b) : EReal) : WithTop EReal) : WithBot (WithTop EReal))))) (fun a b r hr => by
        obtain ⟨ha, hb, rfl⟩ := cmp_some hr
        have hai : a ≠ i := fun h => ha (h ▸ hi)
        have hbi : b ≠ i := fun h => hb (h ▸ hi)
        simp only [if_neg hai, if_neg hbi, Option.some.injEq]
        rcases lt_trichotomy (value (key a)) (value (key b)) with h | h | h
        · rw [compare_lt_iff_lt.2 h, compare_lt_iff_lt.2 (WithBot.coe_lt_coe.2 (WithTop.coe_lt_coe.2 h))]
        · rw [h, compare_eq_iff_eq.2 rfl, compare_eq_iff_eq.2 rfl]
        · rw [compare_gt_iff_gt.2 h, compare_gt_iff_gt.2 (WithBot.coe_lt_coe.2 (WithTop.coe_lt_coe.2 h))]) s ho
    have h5 : o' = o := Option.some.inj (h1.symm.trans h4)
    subst h5
    exact ⟨h2, h3.imp fun h => h.elim le_of_lt fun h => h.1.le⟩
  obtain ⟨j, hj⟩ : ∃ j : Fin n, j ≠ i := by
    have : Nontrivial (Fin n) := Fin.nontrivial_iff_two_le.2 hn
    exact exists_ne i
  obtain ⟨hp, hbot⟩ := main ⊥
  obtain ⟨_, htop⟩ := main ⊤
  obtain ⟨a, ha, hai⟩ := List.getElem_of_mem (hp.mem_iff.2 (List.mem_finRange i))
  obtain ⟨b, hb, hbj⟩ := List.getElem_of_mem (hp.mem_iff.2 (List.mem_finRange j))
  rcases lt_trichotomy a b with h | h | h
  · have h1 := List.pairwise_iff_getElem.1 htop a b ha hb h
    rw [hai, hbj, if_pos rfl, if_neg hj] at h1
    rw [top_le_iff, ← WithBot.coe_top, WithBot.coe_inj] at h1
    exact WithTop.coe_ne_top h1
  · subst h
    exact hj (hbj.symm.trans hai)
  · have h1 := List.pairwise_iff_getElem.1 hbot b a hb ha h
    rw [hai, hbj, if_pos rfl, if_neg hj] at h1
    exact WithBot.coe_ne_bot (le_bot_iff.1 h1)

/-- Without NaN, a correct procedure sorts. -/
theorem run_sorts {n : ℕ} {s : Sorter n} (hs : s.Correct) (key : Fin n → X64) (hk : ∀ i, key i ≠ nan) :
    ∃ o, s.run (fun a b => cmp (key a) (key b)) = some o ∧ o.Perm (List.finRange n) ∧ o.Pairwise fun i j =>
      value (key i) < value (key j) ∨ value (key i) = value (key j) ∧ i < j := by
  obtain ⟨o, h1, h2, h3⟩ := hs EReal (fun i => value (key i))
  refine ⟨o, ?_, h2, h3⟩
  rw [← h1]
  congr 1
  funext a b
  exact cmp_value (hk a) (hk b)

/-! ## Insertion sort is such a procedure -/

/-- Insert an item into sorted ones, and go on. -/
def insertion {n : ℕ} (x : Fin n) : List (Fin n) → (List (Fin n) → Sorter n) → Sorter n
  | [], k => k [x]
  | y :: ys, k => .ask x y fun o => if o = .gt then insertion x ys (fun l => k (y :: l)) else k (x :: y :: ys)

/-- Sort items by insertion, and go on. -/
def insertionSort {n : ℕ} : List (Fin n) → (List (Fin n) → Sorter n) → Sorter n
  | [], k => k []
  | x :: xs, k => insertionSort xs fun l => insertion x l k

theorem insertion_run {n : ℕ} {K : Type} [LinearOrder K] (key : Fin n → K) (x : Fin n) (l : List (Fin n)) (k : List (Fin n) → Sorter n) :
    (insertion x l k).run (fun i j => some (compare (key i) (key j))) =
      (k (l.orderedInsert (fun i j => key i ≤ key j) x)).run (fun i j => some (compare (key i) (key j))) := by
  induction l generalizing k with
  | nil => rfl
  | cons y ys ih =>
    unfold insertion
    show (Sorter.run _ (if compare (key x) (key y) = .gt then _ else _)) = _
    by_cases h : key x ≤ key y
    · rw [if_neg (by rw [compare_gt_iff_gt]; exact not_lt.2 h), List.orderedInsert, if_pos h]
    · rw [if_pos (compare_gt_iff_gt.2 (not_le.1 h)), ih, List.orderedInsert, if_neg h]

theorem insertionSort_run {n : ℕ} {K : Type} [LinearOrder K] (key : Fin n → K) (l : List (Fin n)) (k : List (Fin n) → Sorter n) :
    (insertionSort l k).run (fun i j => some (compare (key i) (key j))) =
      (k (l.insertionSort (fun i j => key i ≤ key j))).run (fun i j => some (compare (key i) (key j))) := by
  induction l generalizing k with
  | nil => rfl
  | cons x xs ih =>
    unfold insertionSort
    rw [ih, insertion_run]
    rfl

theorem insertion_stable {n : ℕ} {K : Type} [LinearOrder K] (key : Fin n → K) (x : Fin n) (l : List (Fin n)) (hx : ∀ y ∈ l, x < y)
    (hl : l.Pairwise fun i j => key i < key j ∨ key i = key j ∧ i < j) :
    (l.orderedInsert (fun i j => key i ≤ key j) x).Pairwise fun i j => key i < key j ∨ key i = key j ∧ i < j := by
  induction l with
  | nil => simp
  | cons y ys ih =>
    rw [List.pairwise_cons] at hl
    rw [List.orderedInsert]
    split_ifs with h
    · refine List.pairwise_cons.2 ⟨fun z hz => ?_, List.pairwise_cons.2 hl⟩
      have hyz : key y ≤ key z := by
        rcases List.mem_cons.1 hz with rfl | hz
        · exact le_rfl
        · exact (hl.1 z hz).elim le_of_lt fun h => h.1.le
      rcases (h.trans hyz).lt_or_eq with h1 | h1
      · exact Or.inl h1
      · exact Or.inr ⟨h1, hx z hz⟩
    · refine List.pairwise_cons.2 ⟨fun z hz => ?_, ih (fun z hz => hx z (List.mem_cons_of_mem _ hz)) hl.2⟩
      rcases (List.mem_orderedInsert _).1 hz with rfl | hz
      · exact Or.inl (not_le.1 h)
      · exact hl.1 z hz

/-- Insertion sort. -/
def insertionSorter (n : ℕ) : Sorter n := insertionSort (List.finRange n) .done

theorem insertionSorter_correct (n : ℕ) : (insertionSorter n).Correct := by
  intro K _ key
  refine ⟨_, insertionSort_run key _ _, List.perm_insertionSort _ _, ?_⟩
  have : ∀ l : List (Fin n), l.Pairwise (· < ·) →
      (l.insertionSort (fun i j => key i ≤ key j)).Pairwise fun i j => key i < key j ∨ key i = key j ∧ i < j := by
    intro l hl
    induction l with
    | nil => simp
    | cons x xs ih =>
      rw [List.pairwise_cons] at hl
      rw [List.insertionSort_cons]
      exact insertion_stable key x _ (fun y hy => hl.1 y ((List.perm_insertionSort _ xs).mem_iff.1 hy)) (ih hl.2)
  exact this _ (List.pairwise_lt_finRange n)

theorem insertion_distinct {n : ℕ} (x : Fin n) (l : List (Fin n)) (hx : ∀ y ∈ l, x ≠ y) (k : List (Fin n) → Sorter n)
    (hk : ∀ l' : List (Fin n), l'.Perm (x :: l) → (k l').Distinct) : (insertion x l k).Distinct := by
  induction l generalizing k with
  | nil => exact hk _ (List.Perm.refl _)
  | cons y ys ih =>
    unfold insertion
    refine ⟨hx y (by simp), fun o => ?_⟩
    dsimp only
    split_ifs
    · exact ih (fun z hz => hx z (List.mem_cons_of_mem _ hz)) _ fun l' hl => hk _ ((hl.cons y).trans (List.Perm.swap x y ys))
    · exact hk _ (List.Perm.refl _)

theorem insertionSort_distinct {n : ℕ} (l : List (Fin n)) (hl : l.Nodup) (k : List (Fin n) → Sorter n)
    (hk : ∀ l' : List (Fin n), l'.Perm l → (k l').Distinct) : (insertionSort l k).Distinct := by
  induction l generalizing k with
  | nil => exact hk _ (List.Perm.refl _)
  | cons x xs ih =>
    rw [List.nodup_cons] at hl
    exact ih hl.2 _ fun l' h => insertion_distinct x l' (fun y hy e => hl.1 (e ▸ h.mem_iff.1 hy)) k fun l'' h' => hk _ (h'.trans (h.cons x))

theorem insertionSorter_distinct (n : ℕ) : (insertionSorter n).Distinct :=
  insertionSort_distinct _ (List.nodup_finRange n) _ fun _ _ => trivial

theorem value_inj {x y : X64} (hx : x ≠ nan) (hy : y ≠ nan) (h : value x = value y) : x = y := by
  cases x with
  | nan => exact absurd rfl hx
  | fin a => cases y with
    | nan => exact absurd rfl hy
    | fin b =>
      have h1 : ((a.val : ℝ) : EReal) = ((b.val : ℝ) : EReal) := h
      exact congrArg fin (F64.ext (by exact_mod_cast h1))
    | inf t => cases t
               · exact absurd h (EReal.coe_ne_top _)
               · exact absurd h (EReal.coe_ne_bot _)
  | inf s => cases y with
    | nan => exact absurd rfl hy
    | fin b => cases s
               · exact absurd h.symm (EReal.coe_ne_top _)
               · exact absurd h.symm (EReal.coe_ne_bot _)
    | inf t =>
      cases s <;> cases t
      · rfl
      · exact absurd h (by simp [value])
      · exact absurd h (by simp [value])
      · rfl

end Verif.Float.Sorting
