import Verif.Float.SortingLemmas
import Verif.Float.OrderProps

/-!
# C103: data with NaN
-/

namespace Verif.Float.Sorting

open X64
open Verif.Math (Interp InterpErr)
open Verif.Float.Nan (isNan known nan_div foldl_add_mem)

/-- **C103**: without NaN among the keys, the sort succeeds, and gives the items in ascending order. -/
theorem C103_sorts {α : Type} {S : ∀ n, Sorter n} (hS : ∀ n, (S n).Correct) (key : α → X64) (xs : List α) (h : ∀ x ∈ xs, key x ≠ nan) :
    ∃ ys, sortBy S key xs = some ys ∧ ys.Perm xs ∧ ys.Pairwise fun x y => value (key x) ≤ value (key y) := by
  obtain ⟨o, h1, h2, h3⟩ := run_sorts (hS xs.length) (fun i => key xs[i]) fun i => h _ (List.getElem_mem _)
  refine ⟨o.map fun i => xs[i], by unfold sortBy; rw [h1]; rfl, ?_, ?_⟩
  · refine (h2.map _).trans (List.Perm.of_eq ?_)
    rw [← List.ofFn_eq_map]
    exact List.ofFn_getElem
  · rw [List.pairwise_map]
    exact h3.imp fun h => h.elim le_of_lt fun h => h.1.le

/-- **C103**: sorting at least two items, one of them NaN, panics: whichever way of sorting by comparisons is used, it cannot leave an item out. -/
theorem C103_sort_nan {α : Type} {S : ∀ n, Sorter n} (hS : ∀ n, (S n).Correct) (key : α → X64) (xs : List α) (h2 : 2 ≤ xs.length) (x : α)
    (hx : x ∈ xs) (hn : key x = nan) : sortBy S key xs = none := by
  obtain ⟨i, hi, hxi⟩ := List.getElem_of_mem hx
  unfold sortBy
  rw [run_nan h2 (hS xs.length) (fun i => key xs[i]) ⟨i, hi⟩ (by show key xs[i] = nan; rw [hxi, hn])]
  rfl

/-- **C103**: a single item is not compared with anything, so a NaN goes unnoticed there. -/
theorem C103_sort_single {α : Type} {S : ∀ n, Sorter n} (hS : ∀ n, (S n).Correct) (hd : ∀ n, (S n).Distinct) (key : α → X64) (x : α) :
    sortBy S key [x] = some [x] := by
  have h1 : ∀ c, (S 1).run c = some [0] := by
    intro c
    have h2 := hS 1
    have h3 := hd 1
    cases hs : S 1 with
    | ask i j next => rw [hs] at h3; exact absurd (Subsingleton.elim i j) h3.1
    | done o =>
      rw [hs] at h2
      obtain ⟨o', h4, h5, _⟩ := h2 ℕ (fun _ => 0)
      have : o = o' := Option.some.inj h4
      subst this
      show some o = _
      rw [List.perm_singleton.1 (h5.trans (List.Perm.of_eq (by rfl : List.finRange 1 = [0])))]
  unfold sortBy
  show ((S 1).run _).bind _ = _
  rw [h1]
  rfl

/-- **C103**: the median, quantiles, percentiles and the interquartile range of two or more data panic if one of them is NaN; the quantiles of no data set
whatever can be taken at NaN. -/
theorem C103_statistics {S : ∀ n, Sorter n} (hS : ∀ n, (S n).Correct) (xs : List X64) (h2 : 2 ≤ xs.length) (hn : nan ∈ xs) (q : X64) :
    median S xs = none ∧ quantile S xs q = none ∧ interquartileRange S xs = none ∧ ∀ ys, quantile S ys nan = none := by
  have h := C103_sort_nan hS id xs h2 nan hn rfl
  have h0 : xs ≠ [] := List.ne_nil_of_mem hn
  refine ⟨?_, ?_, ?_, fun ys => ?_⟩
  · unfold median; rw [if_neg h0, h]; rfl
  · unfold quantile; rw [if_neg h0, h]; split_ifs <;> rfl
  · unfold interquartileRange; rw [if_neg h0, h]; rfl
  · unfold quantile; rw [Nan.le_nan]; split_ifs with h1
    · rfl
    · rfl
    · exact absurd rfl ‹¬ _›

/-- **C103**: a single NaN has the median NaN, every quantile NaN, and the interquartile range NaN. -/
theorem C103_statistics_single {S : ∀ n, Sorter n} (hS : ∀ n, (S n).Correct) (hd : ∀ n, (S n).Distinct) (q : F64) (h0 : 0 ≤ q.val) (h1 : q.val ≤ 1) :
    median S [nan] = some nan ∧ quantile S [nan] (fin q) = some nan ∧ interquartileRange S [nan] = some nan := by
  have h := C103_sort_single hS hd id nan
  refine ⟨?_, ?_, ?_⟩
  · unfold median; rw [if_neg (by simp), h]; rfl
  · obtain ⟨one, h2, h3⟩ := Bsm.one_val
    have hc : (Nan.le Nan.zero (fin q) && Nan.le (fin q) (ofQ 1)) = true := by
      rw [h2]
      show (decide (0 ≤ q.val) && decide (q.val ≤ one.val)) = true
      rw [h3]; simp [h0, h1]
    unfold quantile
    rw [if_neg (by simp), hc, h]
    have h4 : (fin q).mul (X64.ofNat (List.length [nan] - 1)) = fin F64.zero := by
      rw [show X64.ofNat (List.length [nan] - 1) = fin F64.zero from ofQ_of_eq _ (by simp [F64.zero])]
      exact ofQ_of_eq _ (by show q.val * 0 = 0; ring)
    simp only [Bool.not_true, Bool.false_eq_true, if_false, Option.bind_eq_bind, Option.bind_some]
    rw [h4]
    show (some nan : Option X64) = some nan
    rfl
  · unfold interquartileRange; rw [if_neg (by simp), h]; rfl

/-- **C103**: the mean and the variance of data with a NaN are NaN. -/
theorem C103_mean (xs : List X64) (hn : nan ∈ xs) : mean xs = some nan ∧ variance xs = some nan := by
  have h0 : xs ≠ [] := List.ne_nil_of_mem hn
  have h : mean xs = some nan := by
    unfold mean Nan.sum
    rw [if_neg h0, foldl_add_mem hn, nan_div]
  refine ⟨h, ?_⟩
  unfold variance
  rw [h]
  refine congrArg some ?_
  unfold Nan.sum
  rw [foldl_add_mem (List.mem_map.2 ⟨nan, hn, rfl⟩), nan_div]

theorem known_cons_nan (xs : List X64) : known (nan :: xs) = known xs := rfl

theorem foldl_max_known (xs : List X64) (a : X64) (ha : a ≠ nan) : xs.foldl X64.max a = (known xs).foldl X64.max a ∧
    xs.foldl X64.max a ≠ nan := by
  induction xs generalizing a with
  | nil => exact ⟨rfl, ha⟩
  | cons x xs ih =>
    have hstep : ∀ y : X64, y ≠ nan → a.max y ≠ nan := by
      intro y hy
      cases a with
      | nan => exact absurd rfl ha
      | fin b => cases y with
        | nan => exact absurd rfl hy
        | fin c => show (if X64.lt (fin b) (fin c) then fin c else fin b) ≠ nan; split_ifs <;> simp
        | inf t => show (if X64.lt (fin b) (inf t) then inf t else fin b) ≠ nan; split_ifs <;> simp
      | inf s => cases y with
        | nan => exact absurd rfl hy
        | fin c => show (if X64.lt (inf s) (fin c) then fin c else inf s) ≠ nan; split_ifs <;> simp
        | inf t => show (if X64.lt (inf s) (inf t) then inf t else inf s) ≠ nan; split_ifs <;> simp
    cases x with
    | nan =>
      rw [known_cons_nan, List.foldl_cons, show a.max nan = a by cases a <;> rfl]
      exact ih a ha
    | fin b => exact ih _ (hstep (fin b) (by simp))
    | inf s => exact ih _ (hstep (inf s) (by simp))

theorem foldl_min_known (xs : List X64) (a : X64) (ha : a ≠ nan) : xs.foldl Nan.min a = (known xs).foldl Nan.min a ∧
    xs.foldl Nan.min a ≠ nan := by
  induction xs generalizing a with
  | nil => exact ⟨rfl, ha⟩
  | cons x xs ih =>
    have hstep : ∀ y : X64, y ≠ nan → Nan.min a y ≠ nan := by
      intro y hy
      cases a with
      | nan => exact absurd rfl ha
      | fin b => cases y with
        | nan => exact absurd rfl hy
        | fin c => show (if X64.lt (fin c) (fin b) then fin c else fin b) ≠ nan; split_ifs <;> simp
        | inf t => show (if X64.lt (inf t) (fin b) then inf t else fin b) ≠ nan; split_ifs <;> simp
      | inf s => cases y with
        | nan => exact absurd rfl hy
        | fin c => show (if X64.lt (fin c) (inf s) then fin c else inf s) ≠ nan; split_ifs <;> simp
        | inf t => show (if X64.lt (inf t) (inf s) then inf t else inf s) ≠ nan; split_ifs <;> simp
    cases x with
    | nan =>
      rw [known_cons_nan, List.foldl_cons, show Nan.min a nan = a by cases a <;> rfl]
      exact ih a ha
    | fin b => exact ih _ (hstep (fin b) (by simp))
    | inf s => exact ih _ (hstep (inf s) (by simp))

/-- C103 (defect): the smallest and largest value pass over NaN, where the mean and the median of the same data do not: with at least one other datum they are those of
the rest, and with none at all they are `+∞` and `-∞`, with a range of `-∞`. -/
theorem C103_extremes (xs : List X64) (h0 : xs ≠ []) :
    (known xs ≠ [] → min xs = min (known xs) ∧ max xs = max (known xs) ∧ range xs = range (known xs)) ∧
    (known xs = [] → min xs = some (inf false) ∧ max xs = some (inf true) ∧ range xs = some (inf true)) ∧
    min xs ≠ some nan ∧ max xs ≠ some nan := by
  have h1 := foldl_min_known xs (inf false) (by simp)
  have h2 := foldl_max_known xs (inf true) (by simp)
  have hmin : min xs = some ((known xs).foldl Nan.min (inf false)) := by unfold min; rw [if_neg h0, h1.1]
  have hmax : max xs = some ((known xs).foldl X64.max (inf true)) := by unfold max; rw [if_neg h0, h2.1]
  refine ⟨fun hk => ?_, fun hk => ?_, ?_, ?_⟩
  · have hmin' : min xs = min (known xs) := by rw [hmin]; unfold min; rw [if_neg hk]
    have hmax' : max xs = max (known xs) := by rw [hmax]; unfold max; rw [if_neg hk]
    exact ⟨hmin', hmax', by unfold range; rw [hmin', hmax']⟩
  · rw [hk] at hmin hmax
    refine ⟨hmin, hmax, ?_⟩
    unfold range
    rw [hmin, hmax]
    rfl
  · unfold min; rw [if_neg h0]; exact fun h => h1.2 (Option.some.inj h)
  · unfold max; rw [if_neg h0]; exact fun h => h2.2 (Option.some.inj h)

theorem lt_value {x y : X64} (hx : x ≠ nan) (hy : y ≠ nan) : X64.lt x y = true ↔ value x < value y := by
  cases x with
  | nan => exact absurd rfl hx
  | fin a => cases y with
    | nan => exact absurd rfl hy
    | fin b => simp [X64.lt, value]
    | inf t => cases t <;> simp [X64.lt, value, EReal.coe_lt_top]
  | inf s => cases y with
    | nan => exact absurd rfl hy
    | fin b => cases s <;> simp [X64.lt, value, EReal.bot_lt_coe]
    | inf t => cases s <;> cases t <;> simp [X64.lt, value]

theorem min_value {x y : X64} (hx : x ≠ nan) (hy : y ≠ nan) :
    (Nan.min x y = x ∨ Nan.min x y = y) ∧ value (Nan.min x y) ≤ value x ∧ value (Nan.min x y) ≤ value y := by
  have h : Nan.min x y = if X64.lt y x then y else x := by cases x <;> cases y <;> first | rfl | exact absurd rfl hx
  rw [h]
  split_ifs with hl
  · exact ⟨Or.inr rfl, ((lt_value hy hx).1 hl).le, le_rfl⟩
  · exact ⟨Or.inl rfl, le_rfl, not_lt.1 fun h => hl ((lt_value hy hx).2 h)⟩

theorem max_value {x y : X64} (hx : x ≠ nan) (hy : y ≠ nan) :
    (X64.max x y = x ∨ X64.max x y = y) ∧ value x ≤ value (X64.max x y) ∧ value y ≤ value (X64.max x y) := by
  have h : X64.max x y = if X64.lt x y then y else x := by cases x <;> cases y <;> first | rfl | exact absurd rfl hx
  rw [h]
  split_ifs with hl
  · exact ⟨Or.inr rfl, ((lt_value hx hy).1 hl).le, le_rfl⟩
  · exact ⟨Or.inl rfl, le_rfl, not_lt.1 fun h => hl ((lt_value hx hy).2 h)⟩

theorem foldl_min_value (xs : List X64) (hx : ∀ x ∈ xs, x ≠ nan) (a : X64) (ha : a ≠ nan) :
    (xs.foldl Nan.min a = a ∨ xs.foldl Nan.min a ∈ xs) ∧ value (xs.foldl Nan.min a) ≤ value a ∧
      ∀ x ∈ xs, value (xs.foldl Nan.min a) ≤ value x := by
  induction xs generalizing a with
  | nil => simp
  | cons x xs ih =>
    obtain ⟨h1, h2, h3⟩ := min_value ha (hx x (by simp))
    have hm : Nan.min a x ≠ nan := by rcases h1 with h | h <;> rw [h]; exacts [ha, hx x (by simp)]
    obtain ⟨i1, i2, i3⟩ := ih (fun y hy => hx y (by simp [hy])) _ hm
    rw [List.foldl_cons]
    refine ⟨?_, i2.trans h2, ?_⟩
    · rcases i1 with h | h
      · rw [h]
        rcases h1 with h | h <;> rw [h] <;> simp
      · exact Or.inr (by simp [h])
    · intro y hy
      rcases List.mem_cons.1 hy with rfl | hy
      · exact i2.trans h3
      · exact i3 y hy

theorem foldl_max_value (xs : List X64) (hx : ∀ x ∈ xs, x ≠ nan) (a : X64) (ha : a ≠ nan) :
    (xs.foldl X64.max a = a ∨ xs.foldl X64.max a ∈ xs) ∧ value a ≤ value (xs.foldl X64.max a) ∧
      ∀ x ∈ xs, value x ≤ value (xs.foldl X64.max a) := by
  induction xs generalizing a with
  | nil => simp
  | cons x xs ih =>
    obtain ⟨h1, h2, h3⟩ := max_value ha (hx x (by simp))
    have hm : X64.max a x ≠ nan := by rcases h1 with h | h <;> rw [h]; exacts [ha, hx x (by simp)]
    obtain ⟨i1, i2, i3⟩ := ih (fun y hy => hx y (by simp [hy])) _ hm
    rw [List.foldl_cons]
    refine ⟨?_, h2.trans i2, ?_⟩
    · rcases i1 with h | h
      · rw [h]
        rcases h1 with h | h <;> rw [h] <;> simp
      · exact Or.inr (by simp [h])
    · intro y hy
      rcases List.mem_cons.1 hy with rfl | hy
      · exact h3.trans i2
      · exact i3 y hy

theorem known_ne_nan (xs : List X64) : ∀ x ∈ known xs, x ≠ nan := by
  intro x hx h
  subst h
  simp [known, isNan] at hx

/-- C103: with at least one datum that is not NaN, the smallest value is a datum no larger than any datum that is not NaN, and the largest value
one no smaller; the range is their difference. -/
theorem C103_extreme_values (xs : List X64) (hk : known xs ≠ []) :
    ∃ lo hi, min xs = some lo ∧ max xs = some hi ∧ range xs = some (hi.sub lo) ∧ lo ∈ xs ∧ hi ∈ xs ∧ lo ≠ nan ∧ hi ≠ nan ∧
      ∀ x ∈ xs, x ≠ nan → value lo ≤ value x ∧ value x ≤ value hi := by
  have h0 : xs ≠ [] := fun h => hk (by rw [h]; rfl)
  have h1 := foldl_min_known xs (inf false) (by simp)
  have h2 := foldl_max_known xs (inf true) (by simp)
  have hmin : min xs = some ((known xs).foldl Nan.min (inf false)) := by unfold min; rw [if_neg h0, h1.1]
  have hmax : max xs = some ((known xs).foldl X64.max (inf true)) := by unfold max; rw [if_neg h0, h2.1]
  obtain ⟨a1, _, a3⟩ := foldl_min_value (known xs) (known_ne_nan xs) (inf false) (by simp)
  obtain ⟨b1, _, b3⟩ := foldl_max_value (known xs) (known_ne_nan xs) (inf true) (by simp)
  obtain ⟨w, hw⟩ := List.exists_mem_of_ne_nil _ hk
  have hsub : ∀ x ∈ known xs, x ∈ xs := fun x hx => (List.mem_filter.1 hx).1
  have ha : (known xs).foldl Nan.min (inf false) ∈ known xs := by
    rcases a1 with h | h
    · rw [h] at a3 ⊢
      have : w = inf false := value_inj (known_ne_nan xs w hw) (by simp) (le_antisymm (by simp [value]) (a3 w hw))
      rwa [← this]
    · exact h
  have hb : (known xs).foldl X64.max (inf true) ∈ known xs := by
    rcases b1 with h | h
    · rw [h] at b3 ⊢
      have : w = inf true := value_inj (known_ne_nan xs w hw) (by simp) (le_antisymm (b3 w hw) (by simp [value]))
      rwa [← this]
    · exact h
  refine ⟨_, _, hmin, hmax, by unfold range; rw [hmin, hmax]; rfl, hsub _ ha, hsub _ hb, known_ne_nan xs _ ha, known_ne_nan xs _ hb, ?_⟩
  intro x hx hn
  have hx' : x ∈ known xs := List.mem_filter.2 ⟨hx, by cases x <;> simp_all [isNan]⟩
  exact ⟨a3 x hx', b3 x hx'⟩

end Verif.Float.Sorting
