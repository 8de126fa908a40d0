import Verif.Options.Payoffs
import Verif.Math.Quadrature
import Mathlib.Analysis.SpecialFunctions.Pow.Complex
import Mathlib.Analysis.SpecialFunctions.Log.Basic
import Mathlib.Analysis.Real.Pi.Bounds

/-!
# The Heston model (crates/RustQuant_instruments/src/options/option_models.rs, `mod heston` and `Heston93`)

`f64` is an exact real, `num::Complex<f64>` an exact complex number with the principal square root and logarithm. The
probabilities are the quadrature of the code (`Verif.Math.Quadrature.integrate`), not exact integrals; an integrand value
is `none` when a division by zero or the logarithm of a non-positive price makes it NaN.
-/

namespace Verif.Options

open Complex (I)

/-- `Switch` (option_models.rs 651-655). -/
inductive Switch | one | two
  deriving DecidableEq

/-- `Heston93` (option_models.rs 59-70). -/
structure Heston93 where
  s : ℝ
  v : ℝ
  r : ℝ
  q : ℝ
  rho : ℝ
  kappa : ℝ
  theta : ℝ
  sigma : ℝ

namespace Heston93

/-- `u` (option_models.rs 867-872, 745-750). -/
noncomputable def u : Switch → ℝ
  | .one => 0.5
  | .two => -0.5

/-- `b` (option_models.rs 874-879, 752-757), with the market price of volatility risk `lambda = 0`. -/
noncomputable def b (m : Heston93) : Switch → ℝ
  | .one => m.kappa + 0 - m.rho * m.sigma
  | .two => m.kappa + 0

/-- `d` (option_models.rs 881-885, 759-763): the principal square root. -/
noncomputable def d (m : Heston93) (j : Switch) (phi : ℝ) : ℂ :=
  ((m.rho * m.sigma * I * phi - m.b j) ^ 2 - m.sigma ^ 2 * (2 * u j * I * phi - phi ^ 2)) ^ ((1 : ℂ) / 2)

/-- `g` (option_models.rs 887-889, 765-767). -/
noncomputable def g (m : Heston93) (j : Switch) (phi : ℝ) : ℂ :=
  (m.b j - m.rho * m.sigma * I * phi + m.d j phi) / (m.b j - m.rho * m.sigma * I * phi - m.d j phi)

/-- `C` (option_models.rs 891-897, 769-775). -/
noncomputable def C (m : Heston93) (t : ℝ) (j : Switch) (phi : ℝ) : ℂ :=
  (m.r - m.q) * I * phi * t
    + (m.kappa * m.theta / m.sigma ^ 2) *
      ((m.b j - m.rho * m.sigma * I * phi + m.d j phi) * t
        - 2 * Complex.log ((1 - m.g j phi * Complex.exp (m.d j phi * t)) / (1 - m.g j phi)))

/-- `D` (option_models.rs 899-902, 777-780). -/
noncomputable def D (m : Heston93) (t : ℝ) (j : Switch) (phi : ℝ) : ℂ :=
  ((m.b j - m.rho * m.sigma * I * phi + m.d j phi) * (1 - Complex.exp (m.d j phi * t)))
    / (m.sigma ^ 2 * (1 - m.g j phi * Complex.exp (m.d j phi * t)))

/-- `f` (option_models.rs 905-907, 783-785). -/
noncomputable def f (m : Heston93) (t : ℝ) (j : Switch) (phi : ℝ) : ℂ :=
  Complex.exp (m.C t j phi + m.D t j phi * m.v + I * phi * Real.log m.s)

/-- Every division of the integrands is by a non-zero number and the logarithms of the prices are finite.
The divisions are at option_models.rs 899-907 and 777-785. -/
def Finite (m : Heston93) (k t : ℝ) (j : Switch) (phi : ℝ) : Prop :=
  0 < m.s ∧ 0 < k ∧ m.sigma ≠ 0 ∧ m.b j - m.rho * m.sigma * I * phi - m.d j phi ≠ 0 ∧ 1 - m.g j phi ≠ 0 ∧
    1 - m.g j phi * Complex.exp (m.d j phi * t) ≠ 0

open Classical in
/-- `Re1`, `Re2` of `p1p2` (option_models.rs 910-919). -/
noncomputable def integrand (m : Heston93) (k t : ℝ) (j : Switch) (phi : ℝ) : Option ℝ :=
  if m.Finite k t j phi ∧ phi ≠ 0 then
    some (m.f t j phi * Complex.exp (-I * phi * Real.log k) / (I * phi)).re
  else none

/-- `P1`, `P2` of `p1p2` (option_models.rs 847-927). -/
noncomputable def P (m : Heston93) (k t : ℝ) (j : Switch) : ℝ :=
  0.5 + 1 / Real.pi * Math.Quadrature.integrate (m.integrand k t j) 0.00001 50

/-- `call_price` (option_models.rs 658-673). -/
noncomputable def callPrice (m : Heston93) (k t : ℝ) : ℝ :=
  m.s * Real.exp (-m.q * t) * m.P k t .one - k * Real.exp (-m.r * t) * m.P k t .two

/-- `put_price` (option_models.rs 676-691). -/
noncomputable def putPrice (m : Heston93) (k t : ℝ) : ℝ :=
  m.callPrice k t + (k * Real.exp (-m.r * t) - m.s * Real.exp (-m.q * t))

/-- `call_delta` (option_models.rs 693-708). -/
noncomputable def callDelta (m : Heston93) (k t : ℝ) : ℝ := Real.exp (-m.q * t) * m.P k t .one

/-- `put_delta` (option_models.rs 710-723). -/
noncomputable def putDelta (m : Heston93) (k t : ℝ) : ℝ := m.callDelta k t - Real.exp (-m.q * t)

open Classical in
/-- `Re1` of `call_gamma` (option_models.rs 787-791). -/
noncomputable def gammaIntegrand (m : Heston93) (k t : ℝ) (phi : ℝ) : Option ℝ :=
  if m.Finite k t .one phi then
    some (Complex.exp (-I * phi * Real.log k) * m.f t .one phi).re
  else none

/-- `call_gamma`, `put_gamma` (option_models.rs 725-811). -/
noncomputable def callGamma (m : Heston93) (k t : ℝ) : ℝ :=
  Math.Quadrature.integrate (m.gammaIntegrand k t) 0.00001 50 * (Real.pi * m.s)⁻¹ * Real.exp (-m.q * t)

/-- `call_rho` (option_models.rs 813-828). -/
noncomputable def callRho (m : Heston93) (k t : ℝ) : ℝ := k * t * Real.exp (-m.r * t) * m.P k t .two

/-- `put_rho` (option_models.rs 830-845). -/
noncomputable def putRho (m : Heston93) (k t : ℝ) : ℝ := k * t * Real.exp (-m.r * t) * (m.P k t .two - 1)

/-- `price` (option_models.rs 932-939). -/
noncomputable def price (m : Heston93) (k t : ℝ) : TypeFlag → ℝ
  | .call => m.callPrice k t
  | .put => m.putPrice k t

/-- `delta` (option_models.rs 942-949). -/
noncomputable def delta (m : Heston93) (k t : ℝ) : TypeFlag → ℝ
  | .call => m.callDelta k t
  | .put => m.putDelta k t

/-- `gamma` (option_models.rs 952-959). -/
noncomputable def gamma (m : Heston93) (k t : ℝ) : TypeFlag → ℝ
  | .call => m.callGamma k t
  | .put => m.callGamma k t

/-- `Heston93::rho` (option_models.rs 962-969); named `rhoGreek` because the correlation is also called `rho`. -/
noncomputable def rhoGreek (m : Heston93) (k t : ℝ) : TypeFlag → ℝ
  | .call => m.callRho k t
  | .put => m.putRho k t

end Heston93

end Verif.Options
