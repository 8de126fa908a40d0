import Mathlib.Data.Real.Basic
import Mathlib.Data.List.Sort
import Verif.Math.Interp

/-!
# B-spline interpolation (crates/RustQuant_math/src/interpolation/b_splines.rs)

Index and value types are modelled by an ordered field, so `(a - b) / (c - d)` is exact. `none` is a panic (index out of
bounds), `.error ()` the `RustQuantError` of the code.
-/

namespace Verif.Math.BSpline

variable {α : Type} [Field α] [LinearOrder α] [IsStrictOrderedRing α]

/-- `BSplineInterpolator` (b_splines.rs 20-36). -/
structure Spline (α : Type) where
  knots : List α
  ctrl : List α
  degree : ℕ
  fitted : Bool

/-- `new` (b_splines.rs 54-75): `none` stands for the error `BSplineInvalidParameters`. The stable sort is Lean's merge
sort. -/
def Spline.new (knots ctrl : List α) (degree : ℕ) : Option (Spline α) :=
  if knots.length ≠ ctrl.length + degree + 1 then none
  else some ⟨knots.mergeSort (fun a b => decide (a ≤ b)), ctrl, degree, false⟩

/-- `cox_de_boor` (b_splines.rs 78-102); `none` is an index panic. -/
def cox (ts : List α) (p : α) : ℕ → ℕ → Option α
  | 0, i =>
    match ts[i]? with
    | none => none
    | some a =>
      if a ≤ p then
        match ts[i + 1]? with
        | none => none
        | some b => if p < b then some 1 else some 0
      else some 0
  | d + 1, i =>
    match ts[i + (d + 1)]?, ts[i]? with
    | some b, some a =>
      let left := if b ≠ a then (cox ts p d i).map fun n => (p - a) / (b - a) * n else some 0
      match left with
      | none => none
      | some l =>
        match ts[i + (d + 1) + 1]?, ts[i + 1]? with
        | some b', some a' =>
          let right := if b' ≠ a' then (cox ts p d (i + 1)).map fun n => (b' - p) / (b' - a') * n else some 0
          right.map fun r => l + r
        | _, _ => none
    | _, _ => none

/-- `fit` (b_splines.rs 111-114). -/
def Spline.fit (s : Spline α) : Spline α := { s with fitted := true }

/-- `range` (b_splines.rs 116-118). -/
def Spline.range (s : Spline α) : Option (α × α) :=
  match s.knots.head?, s.knots.getLast? with
  | some a, some b => some (a, b)
  | _, _ => none

/-- `add_point` (b_splines.rs 120-125): the knot goes to its sorted place, the value to the end of the control points. -/
def Spline.addPoint (s : Spline α) (x y : α) : Spline α :=
  { s with knots := s.knots.insertIdx (partitionPoint s.knots x) x, ctrl := s.ctrl ++ [y] }

/-- The loop of `interpolate` (b_splines.rs 140-143) from control point `i` on. -/
def sumFrom (ts : List α) (p : α) (d : ℕ) : ℕ → List α → α → Option α
  | _, [], acc => some acc
  | i, c :: cs, acc =>
    match cox ts p d i with
    | none => none
    | some n => sumFrom ts p d (i + 1) cs (acc + n * c)

/-- `interpolate` (b_splines.rs 126-146): outer `none` a panic, `.error ()` the out-of-range error. The index
`knots.len() - degree - 1` underflows, and panics, when there are too few knots. -/
def Spline.interpolate (s : Spline α) (p : α) : Option (Except Unit α) :=
  match s.knots[s.degree]? with
  | none => none
  | some a =>
    if s.knots.length < s.degree + 1 then none
    else
      match s.knots[s.knots.length - s.degree - 1]? with
      | none => none
      | some b =>
        if a ≤ p ∧ p ≤ b then (sumFrom s.knots p s.degree 0 s.ctrl 0).map .ok
        else some (.error ())

/-- The splines a user can hold. Through the public methods of b_splines.rs. -/
inductive Spline.Reachable : Spline α → Prop
  | new {knots ctrl degree s} : Spline.new knots ctrl degree = some s → Reachable s
  | fit {s} : Reachable s → Reachable s.fit
  | addPoint {s} (x y : α) : Reachable s → Reachable (s.addPoint x y)

end Verif.Math.BSpline
