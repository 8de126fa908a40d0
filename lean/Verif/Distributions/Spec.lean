import Mathlib.MeasureTheory.Integral.Bochner.Basic
import Mathlib.Analysis.Complex.Basic
import Mathlib.Analysis.SpecialFunctions.Complex.Log
import Mathlib.Probability.Distributions.Gaussian.Real
import Mathlib.MeasureTheory.Constructions.Pi

/-!
# What the methods of the `Distribution` trait mean

The vocabulary in which the properties of the distributions are stated.  A distribution is a
probability measure on `ℝ`; nothing here mentions the code.
-/

namespace Verif.Distributions.Spec

open MeasureTheory

/-- The expectation of a law. -/
noncomputable def mean (μ : Measure ℝ) : ℝ := ∫ x, x ∂μ

/-- The `n`-th moment about the expectation. -/
noncomputable def centralMoment (μ : Measure ℝ) (n : ℕ) : ℝ := ∫ x, (x - mean μ) ^ n ∂μ

/-- The variance. -/
noncomputable def variance (μ : Measure ℝ) : ℝ := centralMoment μ 2

/-- The third standardised moment. -/
noncomputable def skewness (μ : Measure ℝ) : ℝ := centralMoment μ 3 / √(variance μ) ^ 3

/-- The fourth standardised moment, less three. -/
noncomputable def excessKurtosis (μ : Measure ℝ) : ℝ := centralMoment μ 4 / variance μ ^ 2 - 3

/-- The characteristic function. -/
noncomputable def cf (μ : Measure ℝ) (t : ℝ) : ℂ := ∫ x, Complex.exp (Complex.I * t * x) ∂μ

/-- The moment generating function. -/
noncomputable def mgf (μ : Measure ℝ) (t : ℝ) : ℝ := ∫ x, Real.exp (t * x) ∂μ

/-- The distribution function: the probability of not exceeding `x`. -/
noncomputable def cdf (μ : Measure ℝ) (x : ℝ) : ℝ := μ.real (Set.Iic x)

/-- `m` is a median: neither side of it has probability below one half. -/
def IsMedian (μ : Measure ℝ) (m : ℝ) : Prop :=
  1 / 2 ≤ μ.real (Set.Iic m) ∧ 1 / 2 ≤ μ.real (Set.Ici m)

/-- `q` is the quantile at level `p`: the least point whose distribution function reaches `p`. -/
def IsQuantile (μ : Measure ℝ) (p q : ℝ) : Prop := p ≤ cdf μ q ∧ ∀ y, p ≤ cdf μ y → q ≤ y

/-- The law of the sum of the squares of `k` independent standard normal variables. -/
noncomputable def chiLaw (k : ℕ) : Measure ℝ :=
  (Measure.pi fun _ : Fin k => ProbabilityTheory.gaussianReal 0 1).map fun z => ∑ i, z i ^ 2

end Verif.Distributions.Spec
