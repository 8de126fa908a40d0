import Verif.Float.Sorting
import Verif.Math.BSpline

/-!
# B-spline and exponential interpolation in double precision

b_splines.rs and exponential_interpolator.rs of crates/RustQuant_math/src/interpolation, with index and value type `f64`: every operation is
rounded, infinities and NaN are carried on. Outer `none` is a panic.
-/

namespace Verif.Float.Spline

open X64 Nan Verif.Float.Sorting
open Verif.Math.BSpline (Spline)

/-- `!=` of `f64` (b_splines.rs 90, 96): NaN differs from everything. -/
def ne : X64 → X64 → Bool
  | fin a, fin b => a.val ≠ b.val
  | inf s, inf t => s ≠ t
  | _, _ => true

/-- `new` (b_splines.rs 54-75): the inner `none` is the error for lists of the wrong lengths. -/
def new (S : ∀ n, Sorter n) (knots ctrl : List X64) (degree : ℕ) : Option (Option (Spline X64)) := do
  match ← splineKnots S knots ctrl.length degree with
  | none => return none
  | some ts => return some ⟨ts, ctrl, degree, false⟩

/-- One term of the recursion (b_splines.rs 90-94, 96-100): `(f - g) / (b - a)` times the basis function `n` of lower degree, zero if `a` and `b`
are equal. -/
def part (b a f g : X64) (n : Option X64) : Option X64 :=
  if ne b a then n.map fun n => ((f.sub g).div (b.sub a)).mul n else some zero

/-- `cox_de_boor` (b_splines.rs 78-102). -/
def cox (ts : List X64) (p : X64) : ℕ → ℕ → Option X64
  | 0, i => do
    let a ← ts[i]?
    if le a p then
      let b ← ts[i + 1]?
      return if p.lt b then ofQ 1 else zero
    else return zero
  | d + 1, i => do
    let b ← ts[i + (d + 1)]?
    let a ← ts[i]?
    let left ← part b a p a (cox ts p d i)
    let b' ← ts[i + (d + 1) + 1]?
    let a' ← ts[i + 1]?
    let right ← part b' a' b' p (cox ts p d (i + 1))
    return left.add right

/-- `fit` (b_splines.rs 111-114). -/
def fit (s : Spline X64) : Spline X64 := { s with fitted := true }

/-- `add_point` (b_splines.rs 120-125). -/
def addPoint (s : Spline X64) (x y : X64) : Spline X64 :=
  { s with knots := s.knots.insertIdx (partitionPoint s.knots x) x, ctrl := s.ctrl ++ [y] }

/-- The loop of `interpolate` (b_splines.rs 140-143) from control point `i` on. -/
def sumFrom (ts : List X64) (p : X64) (d : ℕ) : ℕ → List X64 → X64 → Option X64
  | _, [], acc => some acc
  | i, c :: cs, acc => do
    let n ← cox ts p d i
    sumFrom ts p d (i + 1) cs (acc.add (n.mul c))

/-- `interpolate` (b_splines.rs 127-146): the inner error is that of a point outside of the range. -/
def interpolate (s : Spline X64) (p : X64) : Option (Except Unit X64) := do
  let a ← s.knots[s.degree]?
  if le a p then
    if s.knots.length < s.degree + 1 then none else
    let b ← s.knots[s.knots.length - s.degree - 1]?
    if le p b then return .ok (← sumFrom s.knots p s.degree 0 s.ctrl zero) else return .error ()
  else return .error ()

/-- The formula of the exponential interpolator between two points (exponential_interpolator.rs 152-165). `pow` is the platform's `powf`. -/
def powSegment (pow : X64 → X64 → X64) (p xl xr yl yr : X64) : X64 :=
  (pow yr ((p.sub xl).div (xr.sub xl))).mul (pow yl ((xr.sub p).div (xr.sub xl)))

end Verif.Float.Spline
