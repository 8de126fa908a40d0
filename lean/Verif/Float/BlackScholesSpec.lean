import Verif.Float.BlackScholesExtended
import Verif.Float.SimulationSpec
import Verif.Distributions.Gaussian
import Mathlib.Probability.CDF
import Mathlib.Probability.Distributions.Gaussian.Real

/-! What the theorems about rounded Black-Scholes-Merton prices are stated with. -/

namespace Verif.Float.Bsm

open Real Verif.Float.Sim Verif.Options

/-- The standard normal distribution function. -/
noncomputable def Phi (x : ℝ) : ℝ := ProbabilityTheory.cdf (ProbabilityTheory.gaussianReal 0 1) x

/-- The functions of the platform are right up to an error `δ`: `exp` and `sqrt` relative to their values, `erfc` in absolute terms, and
`ln` either way, whichever is the weaker. -/
structure Libm.Accurate (m : Libm) (δ : ℝ) : Prop where
  exp : ∀ x, |F64.real x| ≤ 500 → ∃ y, m.exp x = some y ∧ |F64.real y - Real.exp (F64.real x)| ≤ δ * Real.exp (F64.real x)
  ln : ∀ x, 0 < F64.real x → ∃ y, m.ln x = some y ∧ |F64.real y - Real.log (F64.real x)| ≤ δ * (1 + |Real.log (F64.real x)|)
  sqrt : ∀ x, 0 < F64.real x → ∃ y, m.sqrt x = some y ∧ |F64.real y - √(F64.real x)| ≤ δ * √(F64.real x)
  erfc : ∀ x, ∃ y, m.erfc x = some y ∧ |F64.real y - Distributions.erfc (F64.real x)| ≤ δ

/-- A contract with real parameters. -/
structure Exact where
  S : ℝ
  K : ℝ
  v : ℝ
  r : ℝ
  b : ℝ
  T : ℝ

namespace Exact

variable (e : Exact)

/-- `v √T`. -/
noncomputable def width : ℝ := e.v * √e.T

noncomputable def d1 : ℝ := (log (e.S / e.K) + (e.b + e.v ^ 2 / 2) * e.T) / e.width

noncomputable def d2 : ℝ := e.d1 - e.width

/-- Present value of the underlying delivered at expiry. -/
noncomputable def asset : ℝ := e.S * exp ((e.b - e.r) * e.T)

/-- Present value of the strike. -/
noncomputable def cash : ℝ := e.K * exp (-e.r * e.T)

/-- The Black-Scholes-Merton formula. -/
noncomputable def price : TypeFlag → ℝ
  | .call => e.asset * Phi e.d1 - e.cash * Phi e.d2
  | .put => e.cash * Phi (-e.d2) - e.asset * Phi (-e.d1)

/-- Its derivative in `S`. -/
noncomputable def delta : TypeFlag → ℝ
  | .call => exp ((e.b - e.r) * e.T) * Phi e.d1
  | .put => exp ((e.b - e.r) * e.T) * (Phi e.d1 - 1)

/-- How strongly `d1` and `d2` react to relative changes of the terms they are made of. -/
noncomputable def condition : ℝ := (1 + |log (e.S / e.K)| + (|e.b| + e.v ^ 2 / 2) * e.T) / e.width

/-- The sizes of the exponents. -/
noncomputable def exponents : ℝ := (|e.b| + |e.r|) * e.T

/-- Prices within `2^±200`, volatility and time within `2^±100`, exponents up to 300. -/
structure Ordinary : Prop where
  S : 2 ^ (-200 : ℤ) ≤ e.S ∧ e.S ≤ 2 ^ 200
  K : 2 ^ (-200 : ℤ) ≤ e.K ∧ e.K ≤ 2 ^ 200
  v : 2 ^ (-100 : ℤ) ≤ e.v ∧ e.v ≤ 2 ^ 100
  T : 2 ^ (-100 : ℤ) ≤ e.T ∧ e.T ≤ 2 ^ 100
  exponents : e.exponents ≤ 300

end Exact

/-- The parameters of a contract. -/
noncomputable def Contract.exact (o : Contract) : Exact :=
  ⟨F64.real o.underlyingPrice, F64.real o.strikePrice, F64.real o.volatility, F64.real o.riskFreeRate, F64.real o.costOfCarry, F64.real o.T⟩

/-! ### Infinities and NaN -/

open X64

/-- The two libraries agree where the result is finite. -/
structure XLibm.Extends (x : XLibm) (m : Libm) : Prop where
  exp : ∀ a r, m.exp a = some r → x.exp (fin a) = fin r
  ln : ∀ a r, m.ln a = some r → x.ln (fin a) = fin r
  sqrt : ∀ a r, m.sqrt a = some r → x.sqrt (fin a) = fin r
  erfc : ∀ a r, m.erfc a = some r → x.erfc (fin a) = fin r

/-- What every library does at the special values: `exp 0 = 1`, `ln 1 = 0`, `sqrt 0 = 0`, `sqrt 1 = 1`, `erfc (±∞)` is 0 and 2, and the
functions of NaN are NaN. -/
structure XLibm.Special (x : XLibm) : Prop where
  exp_zero : x.exp (fin F64.zero) = ofQ 1
  ln_one : x.ln (ofQ 1) = fin F64.zero
  ln_pos : ∀ a : F64, 1 < a.val → ∃ r : F64, 0 < r.val ∧ x.ln (fin a) = fin r
  ln_neg : ∀ a : F64, 0 < a.val → a.val < 1 → ∃ r : F64, r.val < 0 ∧ x.ln (fin a) = fin r
  sqrt_zero : x.sqrt (fin F64.zero) = fin F64.zero
  sqrt_one : x.sqrt (ofQ 1) = ofQ 1
  erfc_inf : x.erfc (inf false) = fin F64.zero
  erfc_neg_inf : x.erfc (inf true) = ofQ 2
  erfc_nan : x.erfc nan = nan

/-- A contract evaluated on its expiration date, with a positive volatility and parameters up to `2^500`. -/
structure Contract.Expiring (o : Contract) : Prop where
  T : o.T = F64.zero
  S : 0 < o.underlyingPrice.val
  K : 0 < o.strikePrice.val
  v : 0 < o.volatility.val ∧ o.volatility.val ≤ 2 ^ 500
  b : |o.costOfCarry.val| ≤ 2 ^ 500
  r : |o.riskFreeRate.val| ≤ 2 ^ 500

end Verif.Float.Bsm
