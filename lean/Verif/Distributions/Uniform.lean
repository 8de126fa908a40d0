import Verif.Distributions.GammaFamily

/-!
# The uniform distribution (crates/RustQuant_math/src/distributions/uniform.rs)

`f64` is modelled by `ℝ`, `Complex<f64>` by `ℂ`.  `none` stands for a panic, or, where the comment
says so, for a result that is not a finite number (a division by zero).  Of `sample` only what is
done to the numbers drawn is modelled.
-/

namespace Verif.Distributions

open Real

/-- `enum DistributionClass` (distribution.rs 19-24). -/
inductive DistributionClass where
  | discrete
  | continuous

open Classical in
/-- `f64::round`: to the nearest integer, halves away from zero. Called at uniform.rs 54-55. -/
noncomputable def roundAway (x : ℝ) : ℤ := if 0 ≤ x then ⌊x + 1 / 2⌋ else ⌈x - 1 / 2⌉

open Classical in
/-- `x / y` in `f64`, `none` when the denominator is zero. Written at uniform.rs 164, 173, 292, 329 and 332. -/
noncomputable def fdiv (x y : ℝ) : Option ℝ := if y = 0 then none else some (x / y)

open Classical in
/-- `x / y` for complex numbers, `none` when the denominator is zero. Written at uniform.rs 82 and 85. -/
noncomputable def cdiv (x y : ℂ) : Option ℂ := if y = 0 then none else some (x / y)

/-- `struct Uniform` (uniform.rs 20-27). -/
structure Uniform where
  a : ℝ
  b : ℝ
  cls : DistributionClass

namespace Uniform

open Classical in
/-- `Uniform::new` (uniform.rs 49-60): asserts `a <= b`; the discrete class rounds both ends. -/
noncomputable def new (a b : ℝ) (cls : DistributionClass) : Option Uniform :=
  if a ≤ b then
    match cls with
    | .discrete => some ⟨roundAway a, roundAway b, .discrete⟩
    | .continuous => some ⟨a, b, .continuous⟩
  else none

/-- `cf` (uniform.rs 76-88).  `none`: not a number. -/
noncomputable def cf (d : Uniform) (t : ℝ) : Option ℂ :=
  match d.cls with
  | .discrete =>
    cdiv (Complex.exp (Complex.I * t * d.a) - Complex.exp (Complex.I * t * (d.b + 1)))
      ((1 - Complex.exp (Complex.I * t)) * (d.b - d.a + 1))
  | .continuous =>
    cdiv (Complex.exp (Complex.I * t * d.b) - Complex.exp (Complex.I * t * d.a))
      (Complex.I * t * (d.b - d.a))

open Classical in
/-- `pdf` (uniform.rs 100-117) and `pmf` (uniform.rs 129-146), the same text.  `none`: infinite. -/
noncomputable def pdf (d : Uniform) (x : ℝ) : Option ℝ :=
  match d.cls with
  | .discrete => if d.a ≤ x ∧ x ≤ d.b then fdiv 1 (d.b - d.a + 1) else some 0
  | .continuous => if d.a ≤ x ∧ x ≤ d.b then fdiv 1 (d.b - d.a) else some 0

open Classical in
/-- `cdf` (uniform.rs 158-179).  `none`: not a number. -/
noncomputable def cdf (d : Uniform) (x : ℝ) : Option ℝ :=
  match d.cls with
  | .discrete =>
    if x < d.a then some 0
    else if d.a ≤ x ∧ x ≤ d.b then fdiv (⌊x⌋ - d.a + 1) (d.b - d.a + 1)
    else some 1
  | .continuous =>
    if x < d.a then some 0
    else if d.a ≤ x ∧ x ≤ d.b then fdiv (x - d.a) (d.b - d.a)
    else some 1

open Classical in
/-- `inv_cdf` (uniform.rs 192-198): asserts a level in `[0,1]`; `todo!()` in the discrete class. -/
noncomputable def invCdf (d : Uniform) (p : ℝ) : Option ℝ :=
  if 0 ≤ p ∧ p ≤ 1 then
    match d.cls with
    | .discrete => none
    | .continuous => some (d.a + p * (d.b - d.a))
  else none

/-- `mean` (uniform.rs 211-213). -/
noncomputable def mean (d : Uniform) : ℝ := 0.5 * (d.a + d.b)

/-- `median` (uniform.rs 226-228). -/
noncomputable def median (d : Uniform) : ℝ := 0.5 * (d.a + d.b)

/-- `mode` (uniform.rs 240-245): `todo!()` in the discrete class. -/
noncomputable def mode (d : Uniform) : Option ℝ :=
  match d.cls with
  | .discrete => none
  | .continuous => some ((d.a + d.b) * 0.5)

/-- `variance` (uniform.rs 257-262). -/
noncomputable def variance (d : Uniform) : ℝ :=
  match d.cls with
  | .discrete => (d.b - d.a + 1) ^ 2 / 12
  | .continuous => (d.b - d.a) ^ 2 / 12

/-- `skewness` (uniform.rs 274-276). -/
noncomputable def skewness (_ : Uniform) : ℝ := 0

/-- `kurtosis` (uniform.rs 288-295).  `none`: infinite. -/
noncomputable def kurtosis (d : Uniform) : Option ℝ :=
  let n := d.b - d.a + 1
  match d.cls with
  | .discrete => fdiv (-(6 * (n * n + 1))) (5 * (n * n - 1))
  | .continuous => some (-6 / 5)

open Classical in
/-- `entropy` (uniform.rs 307-312).  `none`: the logarithm of zero. -/
noncomputable def entropy (d : Uniform) : Option ℝ :=
  match d.cls with
  | .discrete => if d.b - d.a + 1 = 0 then none else some (log (d.b - d.a + 1))
  | .continuous => if d.b - d.a = 0 then none else some (log (d.b - d.a))

/-- `mgf` (uniform.rs 324-335).  `none`: not a number. -/
noncomputable def mgf (d : Uniform) (t : ℝ) : Option ℝ :=
  let n := d.b - d.a + 1
  match d.cls with
  | .discrete => fdiv (exp (t * d.a) - exp (t * (d.b + 1))) (n * (1 - exp t))
  | .continuous => fdiv (exp (t * d.b) - exp (t * d.a)) (t * (d.b - d.a))

open Classical in
/-- `sample` (uniform.rs 349-376), given the draws of `rand_distr::Uniform::new(a, b)` - numbers of
the half-open interval from `a` to `b`; that constructor panics unless `a < b`. -/
noncomputable def sample (d : Uniform) (draws : List ℝ) : Option (List ℝ) :=
  if d.a < d.b ∧ draws ≠ [] then
    match d.cls with
    | .discrete => some (draws.map asUsize)
    | .continuous => some draws
  else none

end Uniform

end Verif.Distributions
