import Mathlib.Analysis.SpecialFunctions.Gamma.Basic
import Mathlib.Analysis.SpecialFunctions.Gamma.Deriv
import Mathlib.MeasureTheory.Integral.IntervalIntegral.Basic
import Mathlib.Analysis.Calculus.LogDeriv

/-!
# The exponential, gamma and chi-squared distributions
(crates/RustQuant_math/src/distributions/{exponential,gamma,chi_squared}.rs)

`f64` is modelled by `ℝ`, `Complex<f64>` by `ℂ` and `powf` by the principal power.  `none` stands
for a panic, or, where the comment says so, for a result that is not a finite number.  The special
functions of the crate `statrs` (`gamma`, `gamma_li`, `digamma`) are modelled by their mathematical
definitions.  The random generators behind `sample` are not modelled; what `sample` does to each
draw is.
-/

namespace Verif.Distributions

open Real MeasureTheory

/-- `statrs::function::gamma::gamma_li`, exact: the lower incomplete gamma function
(used for positive arguments only). Called at gamma.rs 82 and chi_squared.rs 129. -/
noncomputable def gammaLi (a x : ℝ) : ℝ := ∫ t in (0:ℝ)..x, t ^ (a - 1) * exp (-t)

/-- `statrs::function::gamma::digamma`, exact. Called at chi_squared.rs 253. -/
noncomputable def digamma (a : ℝ) : ℝ := logDeriv Real.Gamma a

/-- `x as usize as f64` for a non-negative `x` (gamma.rs 142, chi_squared.rs 300): the integer
part. -/
noncomputable def asUsize (x : ℝ) : ℝ := (⌊x⌋₊ : ℝ)

/-- `struct Exponential` (exponential.rs 19-22). -/
structure Exponential where
  lambda : ℝ

namespace Exponential

open Classical in
/-- `Exponential::new` (exponential.rs 35-39): asserts a positive rate. -/
noncomputable def new (lambda : ℝ) : Option Exponential :=
  if 0 < lambda then some ⟨lambda⟩ else none

/-- `cf` (exponential.rs 51-54). -/
noncomputable def cf (d : Exponential) (t : ℝ) : ℂ := 1 / (1 - Complex.I * t / d.lambda)

open Classical in
/-- `pdf`, `pmf` (exponential.rs 64-68, 78-80): asserts `x >= 0`. -/
noncomputable def pdf (d : Exponential) (x : ℝ) : Option ℝ :=
  if 0 ≤ x then some (d.lambda * exp (-d.lambda * x)) else none

open Classical in
/-- `cdf` (exponential.rs 90-94): asserts `x >= 0`. -/
noncomputable def cdf (d : Exponential) (x : ℝ) : Option ℝ :=
  if 0 ≤ x then some (1 - exp (-d.lambda * x)) else none

open Classical in
/-- `inv_cdf` (exponential.rs 104-106).  `none`: the result is not finite (`+∞` at `p = 1`, `NaN`
above). -/
noncomputable def invCdf (d : Exponential) (p : ℝ) : Option ℝ :=
  if 1 - p ≤ 0 then none else some (-log (1 - p) / d.lambda)

/-- `mean` (exponential.rs 116-118). -/
noncomputable def mean (d : Exponential) : ℝ := d.lambda⁻¹

/-- `median` (exponential.rs 128-130). -/
noncomputable def median (d : Exponential) : ℝ := log 2 / d.lambda

/-- `mode` (exponential.rs 140-142). -/
noncomputable def mode (_ : Exponential) : ℝ := 0

/-- `variance` (exponential.rs 152-154). -/
noncomputable def variance (d : Exponential) : ℝ := d.lambda⁻¹ ^ 2

/-- `skewness` (exponential.rs 164-166). -/
noncomputable def skewness (_ : Exponential) : ℝ := 2

/-- `kurtosis` (exponential.rs 176-178). -/
noncomputable def kurtosis (_ : Exponential) : ℝ := 6

/-- `entropy` (exponential.rs 188-190). -/
noncomputable def entropy (d : Exponential) : ℝ := 1 - log d.lambda

open Classical in
/-- `mgf` (exponential.rs 200-204): asserts `t < lambda`. -/
noncomputable def mgf (d : Exponential) (t : ℝ) : Option ℝ :=
  if t < d.lambda then some (d.lambda * (d.lambda - t)⁻¹) else none

end Exponential

/-- `struct Gamma` (gamma.rs 29-34), shape and rate. -/
structure GammaDist where
  alpha : ℝ
  beta : ℝ

namespace GammaDist

open Classical in
/-- `Gamma::new` (gamma.rs 47-51): asserts both parameters positive. -/
noncomputable def new (alpha beta : ℝ) : Option GammaDist :=
  if 0 < alpha ∧ 0 < beta then some ⟨alpha, beta⟩ else none

/-- `cf` (gamma.rs 55-61). -/
noncomputable def cf (d : GammaDist) (t : ℝ) : ℂ :=
  (1 - Complex.I * t / d.beta) ^ (-d.alpha : ℂ)

open Classical in
/-- `pdf`, `pmf` (gamma.rs 63-70, 72-74): asserts `x > 0`. -/
noncomputable def pdf (d : GammaDist) (x : ℝ) : Option ℝ :=
  if 0 < x then
    some (d.beta ^ d.alpha * x ^ (d.alpha - 1) * exp (-d.beta * x) / Real.Gamma d.alpha)
  else none

open Classical in
/-- `cdf` (gamma.rs 76-83): asserts `x > 0`. -/
noncomputable def cdf (d : GammaDist) (x : ℝ) : Option ℝ :=
  if 0 < x then some (gammaLi d.alpha (d.beta * x) / Real.Gamma d.alpha) else none

/-- `inv_cdf` (gamma.rs 85-87): `unimplemented!()`. -/
noncomputable def invCdf (_ : GammaDist) (_ : ℝ) : Option ℝ := none

/-- `mean` (gamma.rs 89-91). -/
noncomputable def mean (d : GammaDist) : ℝ := d.alpha / d.beta

/-- `median` (gamma.rs 93-95): `unimplemented!()`. -/
noncomputable def median (_ : GammaDist) : Option ℝ := none

open Classical in
/-- `mode` (gamma.rs 97-103). -/
noncomputable def mode (d : GammaDist) : ℝ :=
  if 1 ≤ d.alpha then (d.alpha - 1) / d.beta else 0

/-- `variance` (gamma.rs 105-107). -/
noncomputable def variance (d : GammaDist) : ℝ := d.alpha / d.beta ^ 2

/-- `skewness` (gamma.rs 109-111). -/
noncomputable def skewness (d : GammaDist) : ℝ := 2 / √d.alpha

/-- `kurtosis` (gamma.rs 113-115). -/
noncomputable def kurtosis (d : GammaDist) : ℝ := 6 / d.alpha

/-- `entropy` (gamma.rs 117-119): `todo!()`. -/
noncomputable def entropy (_ : GammaDist) : Option ℝ := none

open Classical in
/-- `mgf` (gamma.rs 121-125): asserts `t < beta`. -/
noncomputable def mgf (d : GammaDist) (t : ℝ) : Option ℝ :=
  if t < d.beta then some ((1 - t / d.beta) ^ (-d.alpha)) else none

/-- `sample` (gamma.rs 127-146): every draw of the generator goes through `as usize as f64`. -/
noncomputable def sample (_ : GammaDist) (draws : List ℝ) : List ℝ := draws.map asUsize

end GammaDist

/-- `struct ChiSquared` (chi_squared.rs 20-23). -/
structure ChiSquared where
  k : ℕ

namespace ChiSquared

/-- `ChiSquared::new` (chi_squared.rs 51-55): asserts `k > 0`. -/
def new (k : ℕ) : Option ChiSquared := if 0 < k then some ⟨k⟩ else none

/-- `cf` (chi_squared.rs 72-77). -/
noncomputable def cf (d : ChiSquared) (t : ℝ) : ℂ :=
  (1 - 2 * Complex.I * t) ^ (-(d.k / 2) : ℂ)

/-- The assertion of `pdf` and `cdf` (chi_squared.rs 90, 125). -/
def inDomain (d : ChiSquared) (x : ℝ) : Prop := if d.k = 1 then 0 < x else 0 ≤ x

open Classical in
/-- `pdf`, `pmf` (chi_squared.rs 89-96, 110-112). -/
noncomputable def pdf (d : ChiSquared) (x : ℝ) : Option ℝ :=
  if d.inDomain x then
    some (x ^ ((d.k : ℝ) / 2 - 1) * exp (-x / 2) / (2 ^ ((d.k : ℝ) / 2) * Real.Gamma (d.k / 2)))
  else none

open Classical in
/-- `cdf` (chi_squared.rs 124-130).  `liZero` says whether the library's `gamma_li` accepts the
argument `0` (value `0`) or panics there: the properties cover both. -/
noncomputable def cdf (liZero : Bool) (d : ChiSquared) (x : ℝ) : Option ℝ :=
  if d.inDomain x ∧ (x = 0 → liZero = true) then
    some (gammaLi (d.k / 2) (x / 2) / Real.Gamma (d.k / 2))
  else none

/-- How a loop run with a bounded number of turns ends. The loop is chi_squared.rs 149-157. -/
inductive Outcome where
  /-- the bound was too small -/
  | running
  /-- the program panicked -/
  | panic
  /-- the loop ended with this value -/
  | value (x : ℝ)

open Classical in
/-- The `while` loop of `inv_cdf` (chi_squared.rs 149-157), at most `fuel` turns. -/
noncomputable def invLoop (liZero : Bool) (d : ChiSquared) (p : ℝ) : ℕ → ℝ → ℝ → Outcome
  | 0, _, _ => .running
  | fuel + 1, x, delta =>
    if 1e-10 < delta then
      match d.cdf liZero x with
      | none => .panic
      | some c => if c < p then invLoop liZero d p fuel (x + delta) (delta * 0.5)
                  else invLoop liZero d p fuel (x - delta) (delta * 0.5)
    else .value x

open Classical in
/-- `inv_cdf` (chi_squared.rs 142-159), at most `fuel` turns of the loop. -/
noncomputable def invCdf (liZero : Bool) (d : ChiSquared) (p : ℝ) (fuel : ℕ) : Outcome :=
  if 0 ≤ p ∧ p ≤ 1 then invLoop liZero d p fuel (0.5 * d.k) (0.5 * d.k) else .panic

/-- `mean` (chi_squared.rs 170-172). -/
noncomputable def mean (d : ChiSquared) : ℝ := d.k

/-- `median` (chi_squared.rs 184-186). -/
noncomputable def median (d : ChiSquared) : ℝ := d.k * (1 - 2 / (9 * d.k)) ^ (3 : ℝ)

/-- `mode` (chi_squared.rs 197-199). -/
noncomputable def mode (d : ChiSquared) : ℝ := max 0 (d.k - 2)

/-- `variance` (chi_squared.rs 210-212). -/
noncomputable def variance (d : ChiSquared) : ℝ := 2 * d.k

/-- `skewness` (chi_squared.rs 224-226). -/
noncomputable def skewness (d : ChiSquared) : ℝ := √(8 / d.k)

/-- `kurtosis` (chi_squared.rs 236-238). -/
noncomputable def kurtosis (d : ChiSquared) : ℝ := 12 / d.k

/-- `entropy` (chi_squared.rs 250-254). -/
noncomputable def entropy (d : ChiSquared) : ℝ :=
  d.k / 2 + log (2 * Real.Gamma (d.k / 2)) + (1 - d.k / 2) * digamma (d.k / 2)

open Classical in
/-- `mgf` (chi_squared.rs 266-270): asserts `t < 0.5`. -/
noncomputable def mgf (d : ChiSquared) (t : ℝ) : Option ℝ :=
  if t < 0.5 then some ((1 - 2 * t) ^ (-(d.k : ℝ) / 2)) else none

/-- `sample` (chi_squared.rs 285-304): every draw goes through `as usize as f64`. -/
noncomputable def sample (_ : ChiSquared) (draws : List ℝ) : List ℝ := draws.map asUsize

end ChiSquared

end Verif.Distributions
