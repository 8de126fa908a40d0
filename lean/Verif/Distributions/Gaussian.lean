import Mathlib.Probability.Distributions.Gaussian.Real
import Mathlib.MeasureTheory.Integral.IntegralEqImproper

/-!
# The Gaussian distribution (crates/RustQuant_math/src/distributions/gaussian.rs)

`f64` is modelled by `ℝ`.  The error functions come from outside the repository (crate
`errorfunctions` for `erfc`, crate `statrs` for `erf_inv`); they are modelled by their mathematical
definitions: `erfc` by its integral, `erf_inv` by an inverse function of `erf`.
The random generator behind `sample` is not modelled here (see `Sampling`).
-/

namespace Verif.Distributions

open Real MeasureTheory

/-- The complementary error function of the external crate `errorfunctions`, exact. Called at gaussian.rs 141. -/
noncomputable def erfc (x : ℝ) : ℝ := 2 / √π * ∫ t in Set.Ioi x, exp (-t ^ 2)

/-- The error function: `erf = 1 - erfc`. Its inverse is called at gaussian.rs 160. -/
noncomputable def erf (x : ℝ) : ℝ := 1 - erfc x

/-- `statrs::function::erf::erf_inv`, exact: an inverse of `erf` (the value outside the range of
`erf`, where the library returns infinities, is not used). Called at gaussian.rs 160. -/
noncomputable def erfInv (y : ℝ) : ℝ := Function.invFun erf y

/-- `struct Gaussian` (gaussian.rs 23-28); its fields are private, so the values are those made by
`new` and `default`. -/
structure Gaussian where
  mean : ℝ
  variance : ℝ

namespace Gaussian

open Classical in
/-- `Gaussian::new` (gaussian.rs 64-69): asserts a positive variance (`none` = panic). -/
noncomputable def new (mean variance : ℝ) : Option Gaussian :=
  if 0 < variance then some ⟨mean, variance⟩ else none

/-- `Gaussian::default` and the constant `N` (gaussian.rs 33, 39-46). -/
def std : Gaussian := ⟨0, 1⟩

/-- `cf` (gaussian.rs 84-90). -/
noncomputable def cf (g : Gaussian) (t : ℝ) : ℂ :=
  Complex.exp (Complex.I * g.mean * t - 0.5 * g.variance * t ^ 2)

/-- `pdf`, `pmf` (gaussian.rs 102-109, 122-124). -/
noncomputable def pdf (g : Gaussian) (x : ℝ) : ℝ :=
  (√(2 * π * g.variance))⁻¹ * exp (-0.5 * (x - g.mean) ^ 2 / g.variance)

/-- `cdf` (gaussian.rs 137-142). -/
noncomputable def cdf (g : Gaussian) (x : ℝ) : ℝ :=
  0.5 * erfc (-(x - g.mean) / (√2 * √g.variance))

/-- `inv_cdf` (gaussian.rs 157-161). -/
noncomputable def invCdf (g : Gaussian) (p : ℝ) : ℝ :=
  g.mean + √2 * √g.variance * erfInv (2 * p - 1)

/-- `median` (gaussian.rs 187-189). -/
def median (g : Gaussian) : ℝ := g.mean

/-- `mode` (gaussian.rs 201-203). -/
def mode (g : Gaussian) : ℝ := g.mean

/-- `skewness` (gaussian.rs 228-230). -/
def skewness (_ : Gaussian) : ℝ := 0

/-- `kurtosis` (gaussian.rs 243-245): the excess kurtosis. -/
def kurtosis (_ : Gaussian) : ℝ := 0

/-- `entropy` (gaussian.rs 257-259). -/
noncomputable def entropy (g : Gaussian) : ℝ := 0.5 * (1 + log (2 * π * g.variance))

/-- `mgf` (gaussian.rs 271-275). -/
noncomputable def mgf (g : Gaussian) (t : ℝ) : ℝ := exp (g.mean * t + g.variance * t * t / 2)

end Gaussian

end Verif.Distributions
