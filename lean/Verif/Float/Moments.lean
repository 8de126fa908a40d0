import Verif.Float.Correlation

/-!
# Skewness and kurtosis in `f64`

Models crates/RustQuant_math/src/statistic.rs 174-205 with the rounding of `f64`. The square root is a parameter `sq`, as in `Float/Correlation.lean`.
A call in which some intermediate result is an infinity or NaN has the outcome `nonfinite`.
-/

namespace Verif.Float

/-- `powi(3)` (crates/RustQuant_math/src/statistic.rs 184): `x * (x * x)`, two multiplications. -/
def cube (x : F64) : Option F64 := do x.mul (← x.mul x)

/-- `powi(4)` (crates/RustQuant_math/src/statistic.rs 200): the square of the square, two multiplications. -/
def fourth (x : F64) : Option F64 := do
  let y ← x.mul x
  y.mul y

/-- The sum of the powers of the standardised data (crates/RustQuant_math/src/statistic.rs 181-185, 197-201). -/
def powerSum (power : F64 → Option F64) (m s : F64) (xs : List F64) : Option F64 := do
  sum (← xs.mapM fun x => do power (← (← x.sub m).div s))

/-- `skew * n / ((n - 1.0) * (n - 2.0))` (crates/RustQuant_math/src/statistic.rs 187). -/
def scaleSkew (t n : F64) : Option F64 := do
  (← t.mul n).div (← (← n.sub (← ofNat 1)).mul (← n.sub (← ofNat 2)))

/-- `skewness` (crates/RustQuant_math/src/statistic.rs 174-188). -/
def skewness (sq : F64 → F64) (xs : List F64) : Res :=
  if xs.length ≤ 2 then .panic
  else match mean xs, standardDeviation sq xs with
    | .panic, _ => .panic
    | _, .panic => .panic
    | .ok m, .ok s => .of (do scaleSkew (← powerSum cube m s xs) (← ofNat xs.length))
    | _, _ => .nonfinite

/-- `kurt * n * (n + 1.0) / ((n - 1.0) * (n - 2.0) * (n - 3.0)) - 3.0 * (n - 1.0).powi(2) / ((n - 2.0) * (n - 3.0))`
(crates/RustQuant_math/src/statistic.rs 203-204). -/
def scaleKurt (t n : F64) : Option F64 := do
  let n1 ← n.sub (← ofNat 1)
  let n2 ← n.sub (← ofNat 2)
  let n3 ← n.sub (← ofNat 3)
  let a ← (← (← t.mul n).mul (← n.add (← ofNat 1))).div (← (← n1.mul n2).mul n3)
  let b ← (← (← ofNat 3).mul (← n1.mul n1)).div (← n2.mul n3)
  a.sub b

/-- `kurtosis` (crates/RustQuant_math/src/statistic.rs 190-205). -/
def kurtosis (sq : F64 → F64) (xs : List F64) : Res :=
  if xs.length ≤ 3 then .panic
  else match mean xs, standardDeviation sq xs with
    | .panic, _ => .panic
    | _, .panic => .panic
    | .ok m, .ok s => .of (do scaleKurt (← powerSum fourth m s xs) (← ofNat xs.length))
    | _, _ => .nonfinite

end Verif.Float
