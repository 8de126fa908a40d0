import Verif.Distributions.GaussianProps
import Verif.Distributions.ChiSquaredProps
import Verif.Distributions.TrialsProps
import Verif.Distributions.UniformProps

/-!
# `Distribution::sample` (crates/RustQuant_math/src/distributions/*.rs)

The random numbers come from the external crate `rand_distr`.  The model keeps what the code asks
that crate for (a `Request`) and what it does with the numbers it gets: `draw r i` stands for the
`i`-th number produced by the sampler built from the request `r`.

A sample is filled by `for _ in 0..variates.capacity()` after `Vec::with_capacity(n)`.  The standard
library promises a capacity of *at least* `n`; `cap n` stands for the capacity obtained.

`none` stands for a panic (`assert!(n > 0)`, `Uniform::new` of `rand_distr` with an empty range) or
for the error of a refused request.  `f64` is modelled by `ℝ`; `as usize` by the integer part of
`GammaFamily.asUsize`, without its saturation at `2 ^ 64`.
-/

namespace Verif.Distributions

open Real MeasureTheory ProbabilityTheory

/-- The samplers of `rand_distr` the code builds, with their arguments.
Built in the `sample` methods, e.g. bernoulli.rs 288 and binomial.rs 290. -/
inductive Request where
  /-- `Normal::new(mean, std_dev)` -/
  | normal (mean stdDev : ℝ)
  /-- `Exp::new(lambda)` -/
  | exp (rate : ℝ)
  /-- `Bernoulli::new(p)` -/
  | bernoulli (p : ℝ)
  /-- `Poisson::new(lambda)` -/
  | poisson (rate : ℝ)
  /-- `Gamma::new(shape, scale)` -/
  | gamma (shape scale : ℝ)
  /-- `ChiSquared::new(k)` -/
  | chiSquared (k : ℝ)
  /-- `Uniform::new(low, high)` -/
  | uniform (low high : ℝ)
  /-- `Binomial::new(n, p)` -/
  | binomial (n : ℕ) (p : ℝ)

/-- The arguments accepted by the constructors of `rand_distr` 0.4 (on finite numbers; `Exp` also
accepts a zero rate, which no object of the repository asks for).
The `?` after each constructor, e.g. bernoulli.rs 288. -/
def Request.ok : Request → Prop
  | .normal _ _ => True
  | .exp l => 0 < l
  | .bernoulli p => 0 ≤ p ∧ p ≤ 1
  | .poisson l => 0 < l
  | .gamma shape scale => 0 < shape ∧ 0 < scale
  | .chiSquared k => 0 < k
  | .uniform low high => low < high
  | .binomial _ p => 0 ≤ p ∧ p ≤ 1

open Classical in
/-- The common part of the `sample` methods: refuse an empty sample, build the sampler, fill a vector
up to its capacity, pass every draw through `post`. See e.g. bernoulli.rs 278-297. -/
noncomputable def fill (draw : Request → ℕ → ℝ) (cap : ℕ → ℕ) (n : ℕ) (r : Request)
    (post : ℝ → ℝ) : Option (List ℝ) :=
  if 0 < n ∧ r.ok then some ((List.range (cap n)).map fun i => post (draw r i)) else none

/-- `Gaussian::sample` (gaussian.rs 292-309). -/
noncomputable def Gaussian.sampleN (g : Gaussian) (draw : Request → ℕ → ℝ) (cap : ℕ → ℕ) (n : ℕ) :
    Option (List ℝ) :=
  fill draw cap n (.normal g.mean (√g.variance)) id

/-- `Exponential::sample` (exponential.rs 206-223). -/
noncomputable def Exponential.sampleN (d : Exponential) (draw : Request → ℕ → ℝ) (cap : ℕ → ℕ)
    (n : ℕ) : Option (List ℝ) :=
  fill draw cap n (.exp d.lambda) id

/-- `Bernoulli::sample` (bernoulli.rs 278-297): `true` and `false` become one and zero, which is how
the model counts the draws of that sampler from the start. -/
noncomputable def Bernoulli.sampleN (d : Bernoulli) (draw : Request → ℕ → ℝ) (cap : ℕ → ℕ) (n : ℕ) :
    Option (List ℝ) :=
  fill draw cap n (.bernoulli d.p) id

/-- `Poisson::sample` (poisson.rs 255-274). -/
noncomputable def Poisson.sampleN (d : Poisson) (draw : Request → ℕ → ℝ) (cap : ℕ → ℕ) (n : ℕ) :
    Option (List ℝ) :=
  fill draw cap n (.poisson d.lambda) asUsize

/-- `Gamma::sample` (gamma.rs 127-146). -/
noncomputable def GammaDist.sampleN (d : GammaDist) (draw : Request → ℕ → ℝ) (cap : ℕ → ℕ) (n : ℕ) :
    Option (List ℝ) :=
  fill draw cap n (.gamma d.alpha d.beta⁻¹) asUsize

/-- `ChiSquared::sample` (chi_squared.rs 285-304). -/
noncomputable def ChiSquared.sampleN (d : ChiSquared) (draw : Request → ℕ → ℝ) (cap : ℕ → ℕ)
    (n : ℕ) : Option (List ℝ) :=
  fill draw cap n (.chiSquared d.k) asUsize

/-- `Uniform::sample` (uniform.rs 349-376). -/
noncomputable def Uniform.sampleN (d : Uniform) (draw : Request → ℕ → ℝ) (cap : ℕ → ℕ) (n : ℕ) :
    Option (List ℝ) :=
  match d.cls with
  | .discrete => fill draw cap n (.uniform d.a d.b) asUsize
  | .continuous => fill draw cap n (.uniform d.a d.b) id

/-- `Binomial::sample` (binomial.rs 280-299): the sample size is passed on as the number of
trials. -/
noncomputable def Binomial.sampleN (d : Binomial) (draw : Request → ℕ → ℝ) (cap : ℕ → ℕ) (n : ℕ) :
    Option (List ℝ) :=
  fill draw cap n (.binomial n d.p) id

namespace Spec

/-- What `rand_distr` documents: the law of the numbers a sampler produces.
Part of the specification of the library called at bernoulli.rs 288 and in the other `sample` methods. -/
noncomputable def requestLaw : Request → Measure ℝ
  | .normal m s => gaussianReal m (s ^ 2).toNNReal
  | .exp l => expMeasure l
  | .bernoulli p => bernoulliLaw p
  | .poisson l => poissonLaw l
  | .gamma shape scale => gammaMeasure shape scale⁻¹
  | .chiSquared k => gammaMeasure (k / 2) (1 / 2)
  | .uniform low high => contLaw low high
  | .binomial n p => binomialLaw n p

/-- An ideal source of randomness on a probability space: the numbers of every legal sampler are
random variables with the documented law, independent of each other.
Stands for `thread_rng` in the `sample` methods, e.g. bernoulli.rs 278-297. -/
structure IdealSource {Ω : Type*} [MeasurableSpace Ω] (P : Measure Ω)
    (X : Ω → Request → ℕ → ℝ) : Prop where
  measurable : ∀ r i, r.ok → Measurable fun ω => X ω r i
  law : ∀ r i, r.ok → P.map (fun ω => X ω r i) = requestLaw r
  indep : ∀ r, r.ok → ∀ i j, i ≠ j → IndepFun (fun ω => X ω r i) (fun ω => X ω r j) P

/-- The arithmetic mean of the numbers in a sample. Specification, not in the .rs files. -/
noncomputable def average (l : List ℝ) : ℝ := l.sum / l.length

/-- The mean squared deviation of the numbers in a sample from `m`. Specification, not in the .rs files. -/
noncomputable def spread (m : ℝ) (l : List ℝ) : ℝ := average (l.map fun x => (x - m) ^ 2)

open Classical in
/-- The proportion of the numbers in a sample that do not exceed `x`. Specification, not in the .rs files. -/
noncomputable def frequency (x : ℝ) (l : List ℝ) : ℝ :=
  ((l.filter fun y => decide (y ≤ x)).length : ℝ) / l.length

/-- As the requested size grows, the samples exist and the statistic of the sample approaches `L`.
Specification, not in the .rs files. -/
def Approaches (sample : ℕ → Option (List ℝ)) (stat : List ℝ → ℝ) (L : ℝ) : Prop :=
  ∀ ε > 0, ∃ N, ∀ n ≥ N, ∃ l, sample n = some l ∧ |stat l - L| < ε

/-- Samples in which the law, its expectation `m` and its variance `v` can be recognised: with
probability one the average approaches `m`, the mean squared deviation from `m` approaches `v`, and
the proportion of numbers up to `x` approaches the probability of not exceeding `x`.
Specification, not in the .rs files. -/
def Faithful {Ω : Type*} [MeasurableSpace Ω] (P : Measure Ω) (sample : Ω → ℕ → Option (List ℝ))
    (m v : ℝ) (law : Measure ℝ) : Prop :=
  (∀ᵐ ω ∂P, Approaches (sample ω) average m) ∧ (∀ᵐ ω ∂P, Approaches (sample ω) (spread m) v) ∧
  ∀ x, ∀ᵐ ω ∂P, Approaches (sample ω) (frequency x) (cdf law x)

end Spec

end Verif.Distributions
