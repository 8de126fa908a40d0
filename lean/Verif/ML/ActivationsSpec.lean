import Verif.ML.Activations
import Mathlib.Probability.Distributions.Gaussian.Real
import Mathlib.Probability.CDF

/-!
# The functions the activations are named after
-/

namespace Verif.ML

/-- The mathematical functions: `gelu` is `x` times the standard normal distribution function. -/
noncomputable def Act.math : Act → ℝ → ℝ
  | .sigmoid, x => 1 / (1 + Real.exp (-x))
  | .identity, x => x
  | .logistic, x => 1 / (1 + Real.exp (-x))
  | .relu, x => max x 0
  | .gelu, x => x * ProbabilityTheory.cdf (ProbabilityTheory.gaussianReal 0 1) x
  | .tanh, x => Real.sinh x / Real.cosh x
  | .softplus, x => Real.log (1 + Real.exp x)
  | .gaussian, x => Real.exp (-(x ^ 2))

end Verif.ML
