import Verif.Float.NanPaths

/-!
# Lookback options on paths with NaN (C102)

Source: `crates/RustQuant_instruments/src/options/lookback.rs`, which orders the path by `total_cmp`: there a NaN comes before all numbers or after all
of them, by its sign bit. The sign of a NaN that an invalid operation makes is not specified by IEEE 754 or Rust (it is set on x86-64 and clear on AArch64).
Here all NaN have the same sign, which is a parameter.
-/

namespace Verif.Float.Nan

open X64
open Verif.Options (TypeFlag StrikeFlag)

/-- `x.total_cmp(&y) != Greater`, where NaN have the sign bit set or not. There is one zero here. Called at lookback.rs 36-37. -/
def totalLe (negative : Bool) : X64 → X64 → Bool
  | nan, nan => true
  | nan, _ => negative
  | _, nan => !negative
  | x, y => le x y

/-- `iter().max_by(|x, y| x.total_cmp(y))` (lookback.rs 36). -/
def maxBy (negative : Bool) : List X64 → Option X64
  | [] => none
  | x :: xs => some (xs.foldl (fun a b => if totalLe negative a b then b else a) x)

/-- `iter().min_by(|x, y| x.total_cmp(y))` (lookback.rs 37). -/
def minBy (negative : Bool) : List X64 → Option X64
  | [] => none
  | x :: xs => some (xs.foldl (fun a b => if totalLe negative a b then a else b) x)

/-- `LookbackOption::payoff` (lookback.rs 30-53). It panics on an empty path, and for a fixed strike that is missing. -/
def lookback (negative : Bool) (strike : Option X64) (strikeFlag : Option StrikeFlag) (flag : TypeFlag) (path : List X64) : Option X64 := do
  let terminal ← path.getLast?
  let sMax := (maxBy negative path).getD terminal
  let sMin := (minBy negative path).getD terminal
  match strikeFlag, flag with
  | some .fixed, .call => return (sMax.sub (← strike)).max zero
  | some .fixed, .put => return ((← strike).sub sMin).max zero
  | _, .call => return (terminal.sub sMin).max zero
  | _, .put => return (sMax.sub terminal).max zero

theorem totalLe_nan_left (n : Bool) {x : X64} (hx : x ≠ nan) : totalLe n nan x = n := by cases x <;> first | rfl | exact absurd rfl hx

theorem totalLe_nan_right (n : Bool) {x : X64} (hx : x ≠ nan) : totalLe n x nan = !n := by cases x <;> first | rfl | exact absurd rfl hx

theorem isNan_iff {x : X64} : isNan x = true ↔ x = nan := by cases x <;> simp [isNan]

/-- A running choice between two values that prefers NaN ends with NaN. -/
theorem fold_prefers {f : X64 → X64 → X64} (h1 : ∀ x, f x nan = nan) (h2 : ∀ x, f nan x = nan) {l : List X64} (h : nan ∈ l) (a : X64) :
    l.foldl f a = nan := by
  have hn : ∀ l : List X64, l.foldl f nan = nan := by
    intro l
    induction l with
    | nil => rfl
    | cons x l ih => rw [List.foldl_cons, h2, ih]
  induction l generalizing a with
  | nil => cases h
  | cons x l ih =>
    rw [List.foldl_cons]
    rcases List.mem_cons.1 h with h3 | h3
    · rw [← h3, h1, hn]
    · exact ih h3 _

/-- A running choice between two values that avoids NaN goes by the other values alone. -/
theorem fold_avoids {f : X64 → X64 → X64} (h1 : ∀ x, f x nan = x) (h2 : ∀ x, f nan x = x) (h3 : ∀ x y, x ≠ nan → y ≠ nan → f x y ≠ nan) (l : List X64) (a : X64) :
    (a ≠ nan → l.foldl f a = (known l).foldl f a ∧ l.foldl f a ≠ nan) ∧
    ∀ y ys, known l = y :: ys → l.foldl f nan = ys.foldl f y ∧ l.foldl f nan ≠ nan := by
  induction l generalizing a with
  | nil => exact ⟨fun h => ⟨rfl, h⟩, fun y ys h => by cases h⟩
  | cons x l ih =>
    by_cases hx : x = nan
    · subst hx
      have hk : known (nan :: l) = known l := rfl
      rw [hk]
      refine ⟨fun ha => ?_, fun y ys h => ?_⟩
      · rw [List.foldl_cons, h1]; exact (ih a).1 ha
      · rw [List.foldl_cons, h1]; exact (ih nan).2 y ys h
    · have hk : known (x :: l) = x :: known l := by
        unfold known
        rw [List.filter_cons_of_pos (by simpa using fun h => hx (isNan_iff.1 h))]
      rw [hk]
      refine ⟨fun ha => ?_, fun y ys h => ?_⟩
      · rw [List.foldl_cons, List.foldl_cons]
        exact (ih _).1 (h3 a x ha hx)
      · obtain ⟨rfl, rfl⟩ := List.cons.inj h
        rw [List.foldl_cons, h2]
        exact (ih x).1 hx

theorem choose_max (n : Bool) (x y : X64) (hx : x ≠ nan) (hy : y ≠ nan) : (if totalLe n x y then y else x) ≠ nan := by split_ifs <;> assumption

theorem choose_min (n : Bool) (x y : X64) (hx : x ≠ nan) (hy : y ≠ nan) : (if totalLe n x y then x else y) ≠ nan := by split_ifs <;> assumption

theorem prefer_max_right (x : X64) : (if totalLe false x nan then nan else x) = nan := by cases x <;> rfl
theorem prefer_max_left (x : X64) : (if totalLe false nan x then x else nan) = nan := by cases x <;> rfl
theorem avoid_max_right (x : X64) : (if totalLe true x nan then nan else x) = x := by cases x <;> rfl
theorem avoid_max_left (x : X64) : (if totalLe true nan x then x else nan) = x := by cases x <;> rfl
theorem prefer_min_right (x : X64) : (if totalLe true x nan then x else nan) = nan := by cases x <;> rfl
theorem prefer_min_left (x : X64) : (if totalLe true nan x then nan else x) = nan := by cases x <;> rfl
theorem avoid_min_right (x : X64) : (if totalLe false x nan then x else nan) = x := by cases x <;> rfl
theorem avoid_min_left (x : X64) : (if totalLe false nan x then nan else x) = x := by cases x <;> rfl

theorem pick_prefers {f : X64 → X64 → X64} (h1 : ∀ x, f x nan = nan) (h2 : ∀ x, f nan x = nan) {x : X64} {l : List X64} (h : nan ∈ x :: l) :
    l.foldl f x = nan := by
  have := fold_prefers h1 h2 h nan
  rw [List.foldl_cons] at this
  rcases List.mem_cons.1 h with h3 | h3
  · rw [← h3, h1] at this
    rw [← h3]; exact this
  · exact fold_prefers h1 h2 h3 x

theorem pick_avoids {f : X64 → X64 → X64} (h1 : ∀ x, f x nan = x) (h2 : ∀ x, f nan x = x) (h3 : ∀ x y, x ≠ nan → y ≠ nan → f x y ≠ nan) {x : X64} {l : List X64}
    {y : X64} {ys : List X64} (h : known (x :: l) = y :: ys) : l.foldl f x = ys.foldl f y := by
  have h4 := ((fold_avoids h1 h2 h3 (x :: l) nan).2 y ys h).1
  rw [List.foldl_cons, h2] at h4
  exact h4

/-- C102 (defect): the highest and lowest value of a path with NaN depend on the sign of the NaN. If it is clear, the highest value is NaN and the lowest one is that of
the numbers; if it is set, it is the other way round. -/
theorem C102_lookback_extremes (path : List X64) (hn : nan ∈ path) (hk : known path ≠ []) :
    maxBy false path = some nan ∧ minBy false path = minBy false (known path) ∧
    maxBy true path = maxBy true (known path) ∧ minBy true path = some nan := by
  obtain ⟨y, ys, hy⟩ := List.exists_cons_of_ne_nil hk
  cases path with
  | nil => cases hn
  | cons x l =>
    rw [hy]
    exact ⟨congrArg some (pick_prefers prefer_max_right prefer_max_left hn), congrArg some (pick_avoids (f := fun a b => if totalLe false a b then a else b)
        avoid_min_right avoid_min_left (choose_min false) hy),
      congrArg some (pick_avoids avoid_max_right avoid_max_left (choose_max true) hy),
      congrArg some (pick_prefers (f := fun a b => if totalLe true a b then a else b) prefer_min_right prefer_min_left hn)⟩

/-- C102 (defect): so of the lookback options on a path with a NaN inside, some pay zero and the others what the numbers of the path say, and which do which depends on
the sign of the NaN. If it is clear, fixed-strike calls and floating-strike puts pay zero; if it is set, fixed-strike puts and floating-strike calls do. -/
theorem C102_lookback (strike last : X64) (path : List X64) (hn : nan ∈ path) (hl : isNan last = false) :
    let pays := fun negative strikeFlag flag p => lookback negative (some strike) strikeFlag flag p
    let p := path ++ [last]
    (pays false (some .fixed) .call p = some zero ∧ pays true (some .fixed) .call p = pays true (some .fixed) .call (known p)) ∧
    (pays true (some .fixed) .put p = some zero ∧ pays false (some .fixed) .put p = pays false (some .fixed) .put (known p)) ∧
    (∀ sf : Option StrikeFlag, sf ≠ some .fixed →
      (pays true sf .call p = some zero ∧ pays false sf .call p = pays false sf .call (known p)) ∧
      (pays false sf .put p = some zero ∧ pays true sf .put p = pays true sf .put (known p))) := by
  have hp : nan ∈ path ++ [last] := List.mem_append_left _ hn
  have hkp : known (path ++ [last]) = known path ++ [last] := by unfold known; rw [List.filter_append]; simp [hl]
  obtain ⟨h1, h2, h3, h4⟩ := C102_lookback_extremes (path ++ [last]) hp (by rw [hkp]; simp)
  have hlast : (path ++ [last]).getLast? = some last := List.getLast?_concat
  have hlast' : (known (path ++ [last])).getLast? = some last := by rw [hkp]; exact List.getLast?_concat
  dsimp only
  refine ⟨⟨?_, ?_⟩, ⟨?_, ?_⟩, fun sf hsf => ⟨⟨?_, ?_⟩, ?_, ?_⟩⟩
  all_goals
    unfold lookback
    simp only [hlast, hlast', h1, h2, h3, h4, Option.bind_eq_bind, Option.bind_some, Option.getD_some, nan_sub, sub_nan, nan_max, Option.pure_def]

example := C102_lookback_extremes [fin (lit 100), nan, fin (lit 121)] (by simp) (by simp [known, isNan])

example := C102_lookback (fin (lit 105)) (fin (lit 121)) [fin (lit 100), nan] (by simp) rfl

/-- The same path, the same fixed-strike call: zero, or 25 for the highest value 130. -/
example : (lookback false (some (fin (lit 105))) (some .fixed) .call [fin (lit 100), fin (lit 130), nan, fin (lit 121)]).map show' = some (some (.inl 0)) ∧
    (lookback true (some (fin (lit 105))) (some .fixed) .call [fin (lit 100), fin (lit 130), nan, fin (lit 121)]).map show' = some (some (.inl 25)) := by
  decide +kernel

end Verif.Float.Nan
