import Mathlib.Data.Real.Basic
import Mathlib.Analysis.SpecialFunctions.Pow.Real
import Mathlib.Tactic.Common

/-!
# Model of the linear and exponential interpolators (`RustQuant_math::interpolation`)

The index type is any linearly ordered type `α` with the quotient of two differences `(a - b) / (c - d)` given by a
function `ratio`: the code's `IndexType: PartialOrd + Sub` and `Delta / Delta` (interpolation/mod.rs 33-92). Instances:
`ℝ` for `f64`, dates, and `ℤ` with truncating division for the integer index types. Values are `ℝ` (`f64`) or `ℤ`.
`none` is a panic, `some (.error e)` an `Err`. NaN is not modelled.
-/

namespace Verif.Math

/-- `InterpolationError` (crates/RustQuant_math/src/interpolation/mod.rs): the two variants these interpolators return. -/
inductive InterpErr
  | unequalLength
  | outsideOfRange
deriving DecidableEq

/-- `LinearInterpolator` (linear_interpolator.rs 20-33) and `ExponentialInterpolator` (exponential_interpolator.rs 23-36):
same fields. -/
structure Interp (α β : Type) where
  xs : List α
  ys : List β
  fitted : Bool

variable {α β : Type} [LinearOrder α]

/-- `slice::partition_point(|x| x < p)`: on a list partitioned by the predicate, the length of the true prefix.
Called at linear_interpolator.rs 89 and 107, exponential_interpolator.rs 92 and 152. -/
def partitionPoint (xs : List α) (p : α) : ℕ := (xs.takeWhile fun x => x < p).length

/-- The contract of `slice::binary_search_by` on a sorted slice: it returns some index holding the searched value if
there is one (an unspecified one among several), and `Err` otherwise.
Called at linear_interpolator.rs 103 and exponential_interpolator.rs 110. -/
def BinarySearch (bs : List α → α → Option ℕ) : Prop :=
  ∀ xs p, xs.Pairwise (· ≤ ·) → (∀ i, bs xs p = some i → xs[i]? = some p) ∧ (bs xs p = none → p ∉ xs)

/-- `LinearInterpolator::new` (linear_interpolator.rs 51-70), `ExponentialInterpolator::new`
(exponential_interpolator.rs 54-73): length check, then a stable sort of the pairs by index. -/
def Interp.new (xs : List α) (ys : List β) : Except InterpErr (Interp α β) :=
  if xs.length ≠ ys.length then .error .unequalLength
  else
    let tmp := (xs.zip ys).mergeSort (fun a b => decide (a.1 ≤ b.1))
    .ok ⟨tmp.map (·.1), tmp.map (·.2), false⟩

/-- `fit` (linear_interpolator.rs 79-82): marks as fitted. -/
def Interp.fit (I : Interp α β) : Interp α β := { I with fitted := true }

/-- `range` (linear_interpolator.rs 84-86): `unwrap` of the first and last index; panics when there are none. -/
def Interp.range (I : Interp α β) : Option (α × α) :=
  match I.xs.head?, I.xs.getLast? with
  | some a, some b => some (a, b)
  | _, _ => none

/-- `add_point` (linear_interpolator.rs 88-92): insert at the partition point. -/
def Interp.addPoint (I : Interp α β) (pt : α × β) : Interp α β :=
  let idx := partitionPoint I.xs pt.1
  { I with xs := I.xs.insertIdx idx pt.1, ys := I.ys.insertIdx idx pt.2 }

/-- `interpolate` (linear_interpolator.rs 94-122, exponential_interpolator.rs 98-166); `seg p x_l x_r y_l y_r` is the
formula used between the two neighbouring points. -/
def Interp.interpolateWith (bs : List α → α → Option ℕ) (seg : α → α → α → β → β → β) (I : Interp α β) (p : α) :
    Option (Except InterpErr β) :=
  match I.range with
  | none => none
  | some (lo, hi) =>
    if p < lo ∨ hi < p then some (.error .outsideOfRange)
    else
      match bs I.xs p with
      | some idx => (I.ys[idx]?).map .ok
      | none =>
        let r := partitionPoint I.xs p
        match I.xs[r - 1]?, I.xs[r]?, I.ys[r - 1]?, I.ys[r]? with
        | some xl, some xr, some yl, some yr => if r = 0 then none else some (.ok (seg p xl xr yl yr))
        | _, _, _, _ => none

/-- The linear formula (linear_interpolator.rs 112-121): `y_l + (y_r - y_l) * ((p - x_l) / (x_r - x_l))`. -/
def linearSeg [Add β] [Sub β] [Mul β] (ratio : α → α → α → α → β) (p xl xr : α) (yl yr : β) : β :=
  yl + (yr - yl) * ratio p xl xr xl

/-- The exponential formula (exponential_interpolator.rs 152-165):
`y_r ^ ((p - x_l)/(x_r - x_l)) * y_l ^ ((x_r - p)/(x_r - x_l))`. -/
noncomputable def expSeg (ratio : α → α → α → α → ℝ) (p xl xr : α) (yl yr : ℝ) : ℝ :=
  yr ^ (ratio p xl xr xl) * yl ^ (ratio xr p xr xl)

/-- `(a - b) / (c - d)` for `f64` indices (interpolation/mod.rs 33-92). -/
noncomputable def ratioReal (a b c d : ℝ) : ℝ := (a - b) / (c - d)

/-- `(a - b) / (c - d)` for integer indices: truncating division.
Written in linear_interpolator.rs 107-120 with integer types. -/
def ratioInt (a b c d : ℤ) : ℤ := (a - b).tdiv (c - d)

/-- `LinearInterpolator<f64, f64>::interpolate`. See linear_interpolator.rs. -/
noncomputable def linear (bs : List ℝ → ℝ → Option ℕ) (I : Interp ℝ ℝ) (p : ℝ) :=
  I.interpolateWith bs (linearSeg ratioReal) p

/-- `ExponentialInterpolator<f64, f64>::interpolate`. See exponential_interpolator.rs. -/
noncomputable def exponential (bs : List ℝ → ℝ → Option ℕ) (I : Interp ℝ ℝ) (p : ℝ) :=
  I.interpolateWith bs (expSeg ratioReal) p

/-- `LinearInterpolator` over an integer type for both index and value. See linear_interpolator.rs. -/
def linearInt (bs : List ℤ → ℤ → Option ℕ) (I : Interp ℤ ℤ) (p : ℤ) :=
  I.interpolateWith bs (linearSeg ratioInt) p

/-- States reachable through the public methods. See linear_interpolator.rs and exponential_interpolator.rs. -/
inductive Interp.Reachable : Interp α β → Prop
  | new {xs : List α} {ys : List β} {I} (h : Interp.new xs ys = .ok I) : Reachable I
  | fit {I} (h : Reachable I) : Reachable I.fit
  | addPoint {I} (h : Reachable I) (pt : α × β) : Reachable (I.addPoint pt)

end Verif.Math
