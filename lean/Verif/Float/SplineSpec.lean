import Verif.Float.Spline
import Verif.Math.BSplineProps

/-!
# C111: splines of finite numbers, and their exact counterparts

The exact spline is that of C39, over the rational numbers.
-/

namespace Verif.Float.Spline

open X64 Verif.Float.Sorting
open Verif.Math.BSpline (Spline)

/-- Knots and control points that are finite. -/
structure Data where
  knots : List F64
  ctrl : List F64
  degree : ℕ

/-- The spline as the program sees it. -/
def Data.spline (D : Data) : Spline X64 := ⟨D.knots.map fin, D.ctrl.map fin, D.degree, false⟩

/-- The spline of the same numbers in exact arithmetic. -/
def Data.exact (D : Data) : Spline ℚ := ⟨D.knots.map F64.val, D.ctrl.map F64.val, D.degree, false⟩

/-- Knots in order, as many as there have to be. -/
structure Data.Valid (D : Data) : Prop where
  sorted : D.knots.Pairwise fun a b => a.val ≤ b.val
  len : D.knots.length = D.ctrl.length + D.degree + 1

/-- No knot beyond `2^500` in size, and different knots at least `2^-500` apart. -/
def Data.Moderate (D : Data) : Prop :=
  (∀ t ∈ D.knots, |t.val| ≤ 2 ^ 500) ∧ ∀ s ∈ D.knots, ∀ t ∈ D.knots, s.val < t.val → 2 ^ (-500 : ℤ) ≤ t.val - s.val

/-- `c` is the control point number `i`, and `p` lies between the knots that enclose its part of the curve. -/
def Data.Active (D : Data) (p : ℚ) (i : ℕ) (c : F64) : Prop :=
  D.ctrl[i]? = some c ∧ D.exact.knot i ≤ p ∧ p < D.exact.knot (i + D.degree + 1)

end Verif.Float.Spline
