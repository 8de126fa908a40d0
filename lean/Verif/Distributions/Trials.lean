import Verif.Distributions.Poisson
import Verif.Distributions.Uniform

/-!
# The Bernoulli and binomial distributions
(crates/RustQuant_math/src/distributions/{bernoulli,binomial}.rs)

`f64` is modelled by `ℝ`, `Complex<f64>` by `ℂ`.  `none` stands for a panic, or, where the comment
says so, for a result that is not a finite number.  Integer overflow is a panic (as in a build with
overflow checks).  `statrs::function::beta::beta_reg` is modelled by the quotient of integrals it
computes, with its refusal of non-positive parameters.
-/

namespace Verif.Distributions

open Real

/-- `struct Bernoulli` (bernoulli.rs 19-22). -/
structure Bernoulli where
  p : ℝ

namespace Bernoulli

open Classical in
/-- `Bernoulli::new` (bernoulli.rs 51-55): asserts a probability.  (The same assertion, repeated in
the methods, cannot fail afterwards: the field is private.) -/
noncomputable def new (p : ℝ) : Option Bernoulli := if 0 ≤ p ∧ p ≤ 1 then some ⟨p⟩ else none

/-- `cf` (bernoulli.rs 70-75). -/
noncomputable def cf (d : Bernoulli) (t : ℝ) : ℂ := 1 - d.p + d.p * Complex.exp (Complex.I * t)

open Classical in
/-- `pmf`, `pdf` (bernoulli.rs 100-105, 87-89): asserts `k == 0` or `k == 1`. -/
noncomputable def pmf (d : Bernoulli) (k : ℝ) : Option ℝ :=
  if k = 0 ∨ k = 1 then some (d.p ^ asI32 k * (1 - d.p) ^ (1 - asI32 k)) else none

/-- `cdf` (bernoulli.rs 117-127). -/
noncomputable def cdf (d : Bernoulli) (k : ℝ) : ℝ :=
  if asI32 k < 0 then 0 else if 0 ≤ asI32 k ∧ asI32 k < 1 then 1 - d.p else 1

open Classical in
/-- `inv_cdf` (bernoulli.rs 138-146): asserts a level in `[0,1]`. -/
noncomputable def invCdf (d : Bernoulli) (p : ℝ) : Option ℝ :=
  if 0 ≤ p ∧ p ≤ 1 then some (if p < 1 - d.p then 0 else 1) else none

/-- `mean` (bernoulli.rs 157-159). -/
noncomputable def mean (d : Bernoulli) : ℝ := d.p

open Classical in
/-- `median` (bernoulli.rs 170-176). -/
noncomputable def median (d : Bernoulli) : ℝ := if d.p < 0.5 then 0 else 1

open Classical in
/-- `mode` (bernoulli.rs 187-194). -/
noncomputable def mode (d : Bernoulli) : ℝ := if d.p ≤ 0.5 then 0 else 1

/-- `variance` (bernoulli.rs 205-207). -/
noncomputable def variance (d : Bernoulli) : ℝ := d.p * (1 - d.p)

/-- `skewness` (bernoulli.rs 218-221).  `none`: infinite. -/
noncomputable def skewness (d : Bernoulli) : Option ℝ :=
  fdiv (1 - d.p - d.p) (√(d.p * (1 - d.p)))

/-- `kurtosis` (bernoulli.rs 232-235).  `none`: infinite. -/
noncomputable def kurtosis (d : Bernoulli) : Option ℝ :=
  fdiv (1 - 6 * d.p * (1 - d.p)) (d.p * (1 - d.p))

open Classical in
/-- `entropy` (bernoulli.rs 247-249).  `none`: zero times the logarithm of zero, not a number. -/
noncomputable def entropy (d : Bernoulli) : Option ℝ :=
  if d.p = 0 ∨ 1 - d.p = 0 then none else some ((d.p - 1) * log (1 - d.p) - d.p * log d.p)

/-- `mgf` (bernoulli.rs 261-263). -/
noncomputable def mgf (d : Bernoulli) (t : ℝ) : ℝ := 1 - d.p + d.p * exp t

end Bernoulli

/-- `n as i32` for an unsigned 64-bit `n`: the low 32 bits, read as a signed number. Written at binomial.rs 80. -/
def wrapI32 (n : ℕ) : ℤ := if n % 2 ^ 32 < 2 ^ 31 then (n % 2 ^ 32 : ℕ) else (n % 2 ^ 32 : ℕ) - 2 ^ 32

/-- The cast `x as u32`: towards zero, saturating. Written at binomial.rs 120. -/
noncomputable def asU32 (x : ℝ) : ℕ := min (2 ^ 32 - 1) ⌊x⌋₊

open Classical in
/-- `statrs::function::beta::beta_reg`, exact: the regularised incomplete beta function; `none` for
parameters it refuses. Called at binomial.rs 136. -/
noncomputable def betaReg (a b x : ℝ) : Option ℝ :=
  if 0 < a ∧ 0 < b ∧ 0 ≤ x ∧ x ≤ 1 then
    some ((∫ t in (0:ℝ)..x, t ^ (a - 1) * (1 - t) ^ (b - 1)) /
      ∫ t in (0:ℝ)..1, t ^ (a - 1) * (1 - t) ^ (b - 1))
  else none

/-- `struct Binomial` (binomial.rs 20-25). -/
structure Binomial where
  n : ℕ
  p : ℝ

namespace Binomial

/-- `Default` (binomial.rs 31-36). -/
noncomputable def default : Binomial := ⟨1, 0.5⟩

open Classical in
/-- `Binomial::new` (binomial.rs 53-60): asserts a probability. -/
noncomputable def new (n : ℕ) (p : ℝ) : Option Binomial :=
  if 0 ≤ p ∧ p ≤ 1 then some ⟨n, p⟩ else none

/-- `cf` (binomial.rs 76-81). -/
noncomputable def cf (d : Binomial) (t : ℝ) : ℂ :=
  (1 - d.p + d.p * Complex.exp (Complex.I * t)) ^ wrapI32 d.n

/-- The closure `n_C_k` (binomial.rs 116-118) on 32-bit numbers. -/
def nCk (n k : ℕ) : Option ℕ :=
  (product 32 n).bind fun nf =>
    (product 32 k).bind fun kf =>
      if k ≤ n then
        (product 32 (n - k)).bind fun mf =>
          if kf * mf < 2 ^ 32 then some (nf / (kf * mf)) else none
      else none

open Classical in
/-- `pmf`, `pdf` (binomial.rs 112-123, 97-99).  `none`: a panic, or a negative power of zero. -/
noncomputable def pmf (d : Binomial) (k : ℝ) : Option ℝ :=
  if asU64 k ≤ d.n then
    (nCk (d.n % 2 ^ 32) (asU32 k)).bind fun c : ℕ =>
      if (d.p = 0 ∧ asI32 k < 0) ∨ (1 - d.p = 0 ∧ wrapI32 (d.n - asU64 k) < 0) then none
      else some (c * d.p ^ asI32 k * (1 - d.p) ^ wrapI32 (d.n - asU64 k))
  else none

/-- `cdf` (binomial.rs 135-137): the subtraction of unsigned numbers may underflow. -/
noncomputable def cdf (d : Binomial) (k : ℝ) : Option ℝ :=
  if asU64 k ≤ d.n then betaReg ((d.n - asU64 k : ℕ) : ℝ) (1 + k) (1 - d.p) else none

/-- What `inv_cdf` can end with. See binomial.rs 148-158. -/
inductive Outcome where
  /-- the bound on the number of turns was too small -/
  | running
  | panic
  | value (x : ℝ)

open Classical in
/-- The loop of `inv_cdf` (binomial.rs 151-158) from the point where `cdf(k)` is to be evaluated, at
most `fuel` turns. -/
noncomputable def invLoop (d : Binomial) (p : ℝ) : ℕ → ℝ → Outcome
  | 0, _ => .running
  | fuel + 1, k =>
    match d.cdf k with
    | none => .panic
    | some c => if c < p then invLoop d p fuel (k + 1) else .value k

open Classical in
/-- `inv_cdf` (binomial.rs 148-159): asserts a level in `[0,1]`. -/
noncomputable def invCdf (d : Binomial) (p : ℝ) (fuel : ℕ) : Outcome :=
  if 0 ≤ p ∧ p ≤ 1 then invLoop d p fuel 0 else .panic

/-- `mean` (binomial.rs 169-171). -/
noncomputable def mean (d : Binomial) : ℝ := d.n * d.p

/-- `median` (binomial.rs 182-184). -/
noncomputable def median (d : Binomial) : ℝ := ⌊d.mean⌋

/-- `mode` (binomial.rs 195-197). -/
noncomputable def mode (d : Binomial) : ℝ := ⌊((d.n : ℝ) + 1) * d.p⌋

/-- `variance` (binomial.rs 208-210). -/
noncomputable def variance (d : Binomial) : ℝ := d.n * d.p * (1 - d.p)

/-- `skewness` (binomial.rs 222-224).  `none`: infinite or not a number. -/
noncomputable def skewness (d : Binomial) : Option ℝ := fdiv (1 - 2 * d.p) (√d.variance)

/-- `kurtosis` (binomial.rs 236-238).  `none`: infinite or not a number. -/
noncomputable def kurtosis (d : Binomial) : Option ℝ :=
  fdiv (1 - 6 * d.p * (1 - d.p)) d.variance

open Classical in
/-- `entropy` (binomial.rs 250-252).  `none`: the logarithm of zero. -/
noncomputable def entropy (d : Binomial) : Option ℝ :=
  if d.variance = 0 then none else some (0.5 * log (2 * π * exp 1 * d.variance))

/-- `mgf` (binomial.rs 264-266). -/
noncomputable def mgf (d : Binomial) (t : ℝ) : ℝ := (1 - d.p + d.p * exp t) ^ wrapI32 d.n

/-- `sample` (binomial.rs 280-299).  `gen trials p i` stands for the `i`-th number drawn from
`rand_distr::Binomial::new(trials, p)`. -/
noncomputable def sample (d : Binomial) (gen : ℕ → ℝ → ℕ → ℕ) (n : ℕ) : Option (List ℝ) :=
  if n = 0 then none else some ((List.range n).map fun i => (gen n d.p i : ℝ))

end Binomial

end Verif.Distributions
