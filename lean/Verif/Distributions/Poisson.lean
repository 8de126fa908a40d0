import Verif.Distributions.GammaFamily

/-!
# The Poisson distribution (crates/RustQuant_math/src/distributions/poisson.rs)

`f64` is modelled by `ℝ`, `Complex<f64>` by `ℂ`.  `none` stands for a panic; integer overflow is a
panic (as in a build with overflow checks).  The incomplete gamma functions of the crate `statrs` are
modelled by their integrals, with their refusal of a non-positive first argument.  `sample` is in
`Sampling`.
-/

namespace Verif.Distributions

open Real MeasureTheory

/-- `statrs::function::gamma::gamma_ui`, exact: the upper incomplete gamma function. Called at poisson.rs 112. -/
noncomputable def gammaUi (a x : ℝ) : ℝ := ∫ t in Set.Ioi x, t ^ (a - 1) * exp (-t)

/-- The cast `x as i32`: towards zero, saturating. Written at poisson.rs 96. -/
noncomputable def asI32 (x : ℝ) : ℤ :=
  max (-2 ^ 31) (min (2 ^ 31 - 1) (if 0 ≤ x then ⌊x⌋ else ⌈x⌉))

/-- The cast `x as usize`: towards zero, saturating (64 bits). Written at poisson.rs 97. -/
noncomputable def asU64 (x : ℝ) : ℕ := min (2 ^ 64 - 1) ⌊x⌋₊

/-- `(1..=m).product()` in an unsigned type of the given number of bits: `none` on overflow.
Written at poisson.rs 97 and binomial.rs 117. -/
def product (bits m : ℕ) : Option ℕ := if m.factorial < 2 ^ bits then some m.factorial else none

/-- `struct Poisson` (poisson.rs 20-23). -/
structure Poisson where
  lambda : ℝ

namespace Poisson

open Classical in
/-- `Poisson::new` (poisson.rs 46-50): asserts a positive rate. -/
noncomputable def new (lambda : ℝ) : Option Poisson :=
  if 0 < lambda then some ⟨lambda⟩ else none

/-- `cf` (poisson.rs 65-68). -/
noncomputable def cf (d : Poisson) (t : ℝ) : ℂ :=
  Complex.exp (d.lambda * (Complex.exp (Complex.I * t) - 1))

/-- `pmf`, `pdf` (poisson.rs 95-98, 81-83). -/
noncomputable def pmf (d : Poisson) (x : ℝ) : Option ℝ :=
  (product 64 (asU64 x)).map fun f : ℕ => d.lambda ^ asI32 x * exp (-d.lambda) / f

open Classical in
/-- `cdf` (poisson.rs 111-113). -/
noncomputable def cdf (d : Poisson) (x : ℝ) : Option ℝ :=
  if x + 1 ≤ 0 then none else some (1 - gammaLi (x + 1) d.lambda / gammaUi (x + 1) d.lambda)

/-- What `inv_cdf` can end with. See poisson.rs 129-143. -/
inductive Outcome where
  /-- the bound on the number of turns was too small -/
  | running
  | panic
  | nan
  | infinity
  | value (x : ℝ)

open Classical in
/-- The `while` loop of `inv_cdf` (poisson.rs 136-142), at most `fuel` turns. -/
noncomputable def invLoop (d : Poisson) (p : ℝ) : ℕ → ℝ → ℕ → Outcome
  | 0, _, _ => .running
  | fuel + 1, sum, k =>
    if sum < p then
      match d.pmf k with
      | none => .panic
      | some m => invLoop d p fuel (sum + m) (k + 1)
    else .value ((k : ℝ) - 1)

open Classical in
/-- `inv_cdf` (poisson.rs 129-143), at most `fuel` turns of the loop. -/
noncomputable def invCdf (d : Poisson) (p : ℝ) (fuel : ℕ) : Outcome :=
  if ¬ (0 ≤ p ∧ p ≤ 1) then .nan
  else if |p - 1| < 2⁻¹ ^ 52 then .infinity
  else invLoop d p fuel 0 0

/-- `mean` (poisson.rs 154-156). -/
noncomputable def mean (d : Poisson) : ℝ := d.lambda

/-- `median` (poisson.rs 167-169). -/
noncomputable def median (d : Poisson) : ℝ := ⌊d.lambda + 1 / 3 - 0.02 / d.lambda⌋

/-- `mode` (poisson.rs 180-182). -/
noncomputable def mode (d : Poisson) : ℝ := ⌊d.lambda⌋

/-- `variance` (poisson.rs 193-195). -/
noncomputable def variance (d : Poisson) : ℝ := d.lambda

/-- `skewness` (poisson.rs 206-208). -/
noncomputable def skewness (d : Poisson) : ℝ := (√d.lambda)⁻¹

/-- `kurtosis` (poisson.rs 220-222). -/
noncomputable def kurtosis (d : Poisson) : ℝ := d.lambda⁻¹

/-- `entropy` (poisson.rs 224-226): `todo!()`. -/
noncomputable def entropy (_ : Poisson) : Option ℝ := none

/-- `mgf` (poisson.rs 238-240). -/
noncomputable def mgf (d : Poisson) (t : ℝ) : ℝ := exp (d.lambda * (exp t - 1))

end Poisson

end Verif.Distributions
