import Verif.Float.Ops
import Verif.Math.QuadratureTable

/-!
# Tanh-sinh quadrature on `f64` values with their rounding

`none` is a result that is infinite or NaN. The integrand maps finite numbers to a finite number or `none`.
-/

namespace Verif.Float

open Verif.Math.Quadrature (weights abscissae)

/-- The value of a decimal literal of the tables (crates/RustQuant_math/src/integration.rs 86-291) before it is rounded to an `f64`. -/
def decimal (p : ℤ × ℕ) : ℚ := p.1 / 10 ^ p.2

/-- `tanhsinh` (integration.rs 65-76): the literals are rounded, so are each product and each sum. -/
def tanhsinh (f : F64 → Option F64) : Option F64 :=
  (List.range 100).foldlM (fun integral i => do
    integral.add (← (← toF64 (decimal (weights.getD i (0, 0)))).mul (← f (← toF64 (decimal (abscissae.getD i (0, 0))))))) F64.zero

/-- The closure passed to `tanhsinh` (integration.rs 54-61). A value of the integrand that is not finite counts as zero. Simplified:
when the point at which the integrand is to be evaluated is itself not finite, so is the result here, whatever the integrand. -/
def transformed (f : F64 → Option F64) (c d t : F64) : Option F64 := do return (f (← (← c.mul t).add d)).getD F64.zero

/-- `integrate` (integration.rs 39-62). -/
def integrate (f : F64 → Option F64) (a b : F64) : Option F64 := do
  let c ← (← toF64 0.5).mul (← b.sub a)
  let d ← (← toF64 0.5).mul (← a.add b)
  c.mul (← tanhsinh (transformed f c d))

end Verif.Float
