import Verif.Float.Model

/-!
# Covariances, standard deviations and correlations in `f64`

Models crates/RustQuant_math/src/statistic.rs 122-172 with the rounding of `f64`. The square root is a parameter `sq`;
`Float/CorrelationSpec.lean` says what IEEE 754 requires of it. A call in which some intermediate result is an infinity or NaN
is given the outcome `nonfinite`; the code may then also panic, or come back to a finite number.
-/

namespace Verif.Float

/-- The sum of the products of the deviations (crates/RustQuant_math/src/statistic.rs 152-156). -/
def coSum (ps : List (F64 × F64)) (mx my : F64) : Option F64 := do
  sum (← ps.mapM fun p => do (← p.1.sub mx).mul (← p.2.sub my))

/-- `covariance` past its assertions (crates/RustQuant_math/src/statistic.rs 148-158). -/
def covVal (xs ys : List F64) : Option F64 := do
  let n ← ofNat xs.length
  let mx ← (← sum xs).div n
  let my ← (← sum ys).div n
  (← coSum (xs.zip ys) mx my).div (← n.sub (← ofNat 1))

/-- `covariance` (crates/RustQuant_math/src/statistic.rs 140-159). -/
def covariance (xs ys : List F64) : Res :=
  if xs.length ≠ ys.length then .panic
  else if xs.length ≤ 1 then .panic
  else .of (covVal xs ys)

/-- `standard_deviation` and `sample_standard_deviation` (crates/RustQuant_math/src/statistic.rs 122-132). -/
def standardDeviation (sq : F64 → F64) (xs : List F64) : Res :=
  if xs.length ≤ 1 then .panic
  else match variance xs with
    | .ok v => .ok (sq v)
    | r => r

/-- `correlation` (crates/RustQuant_math/src/statistic.rs 161-172). -/
def correlation (sq : F64 → F64) (xs ys : List F64) : Res :=
  match covariance xs ys, standardDeviation sq xs, standardDeviation sq ys with
  | .panic, _, _ => .panic
  | _, .panic, _ => .panic
  | _, _, .panic => .panic
  | .ok c, .ok sx, .ok sy =>
    if sx.val = 0 ∨ sy.val = 0 then .panic
    else .of (do c.div (← sx.mul sy))
  | _, _, _ => .nonfinite

end Verif.Float
