import Verif.Math.QuadratureTable
import Mathlib.Data.Real.Basic

/-!
# Model of `RustQuant_math::integration`

Source: `crates/RustQuant_math/src/integration.rs`. `f64` is an exact real. An integrand is a function `ℝ → Option ℝ`,
`none` standing for a NaN or infinite result.
-/

namespace Verif.Math.Quadrature

/-- The number a transcribed decimal literal stands for. The literals of integration.rs 86-291. -/
noncomputable def dec (p : ℤ × ℕ) : ℝ := (p.1 : ℝ) / 10 ^ p.2

/-- integration.rs 65-76: the accumulation `integral += WEIGHTS[i] * f(ABSCISSAE[i])` over `i in 0..100`. -/
noncomputable def tanhsinh (f : ℝ → ℝ) : ℝ :=
  (List.range 100).foldl (fun integral i =>
    integral + dec (weights.getD i (0, 0)) * f (dec (abscissae.getD i (0, 0)))) 0

/-- integration.rs 39-62. -/
noncomputable def integrate (f : ℝ → Option ℝ) (a b : ℝ) : ℝ :=
  let c := 0.5 * (b - a)
  let d := 0.5 * (a + b)
  c * tanhsinh (fun t => match f (c * t + d) with
    | some out => out
    | none => 0)

end Verif.Math.Quadrature
