import Verif.Float.NanPayoffs
import Verif.Math.Interp

/-!
# Data with NaN: sorting, order statistics and interpolation

Sources: `crates/RustQuant_math/src/statistic.rs`, `interpolation/linear_interpolator.rs`, `interpolation/exponential_interpolator.rs` and
`interpolation/b_splines.rs` beside it, `crates/RustQuant_ml/src/k_nearest_neighbors.rs`. All of them sort with
`sort_by(|a, b| a.partial_cmp(b).unwrap())`. `none` is a panic.
-/

namespace Verif.Float.Sorting

open X64
open Verif.Float.Nan (zero le)
open Verif.Math (Interp InterpErr)

/-- `x.partial_cmp(&y)` on `f64`: nothing when either is NaN. Called e.g. at crates/RustQuant_math/src/statistic.rs 223. -/
def cmp : X64 → X64 → Option Ordering
  | fin a, fin b => some (compare a.val b.val)
  | nan, _ => none
  | _, nan => none
  | inf s, inf t => some (compare t s)
  | inf s, fin _ => some (if s then .lt else .gt)
  | fin _, inf t => some (if t then .gt else .lt)

/-- A sorting procedure for `n` items that learns about them by comparing two of them at a time, as `slice::sort_by` does: what it compares next
depends on what it has learnt. At the end it has the order of the items. Called e.g. at crates/RustQuant_math/src/statistic.rs 223. -/
inductive Sorter (n : ℕ) where
  | done (order : List (Fin n))
  | ask (i j : Fin n) (next : Ordering → Sorter n)

/-- Sort with a comparison that may panic. Called e.g. at crates/RustQuant_math/src/statistic.rs 223. -/
def Sorter.run {n : ℕ} (compare : Fin n → Fin n → Option Ordering) : Sorter n → Option (List (Fin n))
  | .done order => some order
  | .ask i j next => do (next (← compare i j)).run compare

/-- The contract of `slice::sort_by`: for keys of every totally ordered type the result is a permutation of the items in ascending order, and equal keys
stay in the order they were in. Called e.g. at crates/RustQuant_math/src/statistic.rs 223. -/
def Sorter.Correct {n : ℕ} (s : Sorter n) : Prop :=
  ∀ (K : Type) [LinearOrder K] (key : Fin n → K), ∃ order : List (Fin n), s.run (fun i j => some (compare (key i) (key j))) = some order ∧
    order.Perm (List.finRange n) ∧ order.Pairwise fun i j => key i < key j ∨ key i = key j ∧ i < j

/-- It never compares an item with itself. Called e.g. at crates/RustQuant_math/src/statistic.rs 223. -/
def Sorter.Distinct {n : ℕ} : Sorter n → Prop
  | .done _ => True
  | .ask i j next => i ≠ j ∧ ∀ o, (next o).Distinct

/-- `sort_by(|a, b| key(a).partial_cmp(key(b)).unwrap())`. Called at statistic.rs 223, 241, 258, 271, linear_interpolator.rs 61,
exponential_interpolator.rs 64, b_splines.rs 67, k_nearest_neighbors.rs 143. -/
def sortBy {α : Type} (S : ∀ n, Sorter n) (key : α → X64) (xs : List α) : Option (List α) := do
  let order ← (S xs.length).run fun i j => cmp (key xs[i]) (key xs[j])
  return order.map fun i => xs[i]

/-! ## Statistics -/

/-- `median` (statistic.rs 219-231). -/
def median (S : ∀ n, Sorter n) (xs : List X64) : Option X64 := do
  if xs = [] then none else
  let sorted ← sortBy S id xs
  let mid := sorted.length / 2
  if sorted.length % 2 = 0 then return ((← sorted[mid - 1]?).add (← sorted[mid]?)).div (ofQ 2) else sorted[mid]?

/-- `quantile` (statistic.rs 250-265) and, with the same text, `percentile` (233-248). Simplified: a position that is not finite, which a quantile between
0 and 1 does not have, panics. -/
def quantile (S : ∀ n, Sorter n) (xs : List X64) (q : X64) : Option X64 := do
  if xs = [] then none else
  if !(le zero q && le q (ofQ 1)) then none else
  let sorted ← sortBy S id xs
  match q.mul (X64.ofNat (sorted.length - 1)) with
  | fin index =>
    let lower ← sorted[⌊index.val⌋₊]?
    let upper ← sorted[⌈index.val⌉₊]?
    return lower.add ((upper.sub lower).mul ((fin index).sub (ofQ ⌊index.val⌋)))
  | _ => none

/-- `interquartile_range` (statistic.rs 267-277). -/
def interquartileRange (S : ∀ n, Sorter n) (xs : List X64) : Option X64 := do
  if xs = [] then none else
  let sorted ← sortBy S id xs
  let q1 ← sorted[sorted.length / 4]?
  let q3 ← sorted[sorted.length * 3 / 4]?
  return q3.sub q1

/-- `mean` and `arithmetic_mean` (statistic.rs 78-88). -/
def mean (xs : List X64) : Option X64 := if xs = [] then none else some ((Nan.sum xs).div (X64.ofNat xs.length))

/-- `sample_variance` (statistic.rs 108-113). -/
def variance (xs : List X64) : Option X64 := do
  let mu ← mean xs
  return (Nan.sum (xs.map fun x => (x.sub mu).mul (x.sub mu))).div (X64.ofNat (xs.length - 1))

/-- `min` (statistic.rs 207-211). -/
def min (xs : List X64) : Option X64 := if xs = [] then none else some (xs.foldl Nan.min (inf false))

/-- `max` (statistic.rs 213-217). -/
def max (xs : List X64) : Option X64 := if xs = [] then none else some (xs.foldl X64.max (inf true))

/-- `range` (statistic.rs 279-283). -/
def range (xs : List X64) : Option X64 := do return (← max xs).sub (← min xs)

/-! ## Interpolation -/

/-- `LinearInterpolator::new` (linear_interpolator.rs 51-70) and `ExponentialInterpolator::new` (exponential_interpolator.rs 54-73). -/
def newInterp (S : ∀ n, Sorter n) (xs ys : List X64) : Option (Except InterpErr (Interp X64 X64)) := do
  if xs.length ≠ ys.length then return .error .unequalLength else
  let tmp ← sortBy S Prod.fst (xs.zip ys)
  return .ok ⟨tmp.map Prod.fst, tmp.map Prod.snd, false⟩

/-- `partition_point(|x| x < p)` (linear_interpolator.rs 89, 107): on a list partitioned by the condition, the length of the first part. -/
def partitionPoint (xs : List X64) (p : X64) : ℕ := (xs.takeWhile fun x => x.lt p).length

/-- `add_point` (linear_interpolator.rs 88-92, exponential_interpolator.rs 91-96). -/
def addPoint (I : Interp X64 X64) (point : X64 × X64) : Interp X64 X64 :=
  let idx := partitionPoint I.xs point.1
  { I with xs := I.xs.insertIdx idx point.1, ys := I.ys.insertIdx idx point.2 }

/-- The check at the start of `interpolate`: outside of the range? The linear interpolator (linear_interpolator.rs 95-100) compares with the second end only
if the first comparison does not settle it; the exponential one (exponential_interpolator.rs 99-106) always compares with both. -/
def outside (lazy : Bool) (I : Interp X64 X64) (p : X64) : Option Bool := do
  let first ← I.xs.head?
  let last ← I.xs.getLast?
  let c ← cmp p first
  if lazy && c == .lt then return true else
  let c' ← cmp p last
  return c == .lt || c' == .gt

/-- The linear formula (linear_interpolator.rs 110-119). -/
def segment (p xl xr yl yr : X64) : X64 := yl.add ((yr.sub yl).mul ((p.sub xl).div (xr.sub xl)))

/-- `interpolate` of the linear (linear_interpolator.rs 94-122) and exponential interpolator (exponential_interpolator.rs 98-166). The formula for the segment
and the binary search are parameters; the search panics where it meets a NaN. -/
def interpolate (lazy : Bool) (search : List X64 → X64 → Option (Option ℕ)) (seg : X64 → X64 → X64 → X64 → X64 → X64) (I : Interp X64 X64) (p : X64) :
    Option (Except InterpErr X64) := do
  if ← outside lazy I p then return .error .outsideOfRange else
  match ← search I.xs p with
  | some idx => return .ok (← I.ys[idx]?)
  | none =>
    let r := partitionPoint I.xs p
    if r = 0 then none else
    return .ok (seg p (← I.xs[r - 1]?) (← I.xs[r]?) (← I.ys[r - 1]?) (← I.ys[r]?))

/-- `find_neighbors` (k_nearest_neighbors.rs 119-145) from the distances on: the samples and their distances, nearest first. -/
def findNeighbors (S : ∀ n, Sorter n) (distances : List X64) (k : ℕ) : Option (List (ℕ × X64)) := do
  return (← sortBy S Prod.snd ((List.range distances.length).zip distances)).take k

/-- `BSplineInterpolator::new` (b_splines.rs 54-75): the sorted knots. -/
def splineKnots (S : ∀ n, Sorter n) (knots : List X64) (controlPoints degree : ℕ) : Option (Option (List X64)) := do
  if knots.length ≠ controlPoints + degree + 1 then return none else
  return some (← sortBy S id knots)

end Verif.Float.Sorting
