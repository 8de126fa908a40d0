import Verif.Distributions.Trials

/-!
# Discrete distributions in a build without overflow checks

`Cargo.toml` leaves `overflow-checks` at its default, so that in a release build the products and
differences of unsigned integers in poisson.rs and binomial.rs wrap instead of panicking.  These are
the same functions as in `Poisson` and `Trials`, with that arithmetic.  `f64` is modelled by `ℝ`, and a
quotient of a positive number by zero by `⊤`; `none` stands for a panic.
-/

namespace Verif.Distributions

open Real

/-- `(1..=m).product()` in an unsigned type of the given number of bits, each multiplication
wrapping. Written at poisson.rs 97 and binomial.rs 117. -/
def wrapProduct (bits : ℕ) : ℕ → ℕ
  | 0 => 1
  | m + 1 => wrapProduct bits m * (m + 1) % 2 ^ bits

/-- `a - b` in an unsigned type of the given number of bits, wrapping.  Simplified: both numbers are
taken to fit. Written at binomial.rs 117, 122 and 136. -/
def wrapSub (bits a b : ℕ) : ℕ := if b ≤ a then a - b else a + 2 ^ bits - b

namespace Poisson

/-- `pmf`, `pdf` (poisson.rs 95-98, 81-83) in a release build.  The numerator is positive. -/
noncomputable def pmfRelease (d : Poisson) (x : ℝ) : WithTop ℝ :=
  if wrapProduct 64 (asU64 x) = 0 then ⊤
  else ((d.lambda ^ asI32 x * exp (-d.lambda) / wrapProduct 64 (asU64 x) : ℝ) : WithTop ℝ)

open Classical in
/-- The `while` loop of `inv_cdf` (poisson.rs 136-142) in a release build, at most `fuel` turns. -/
noncomputable def invLoopRelease (d : Poisson) (p : ℝ) : ℕ → WithTop ℝ → ℕ → Outcome
  | 0, _, _ => .running
  | fuel + 1, sum, k =>
    if sum < (p : WithTop ℝ) then invLoopRelease d p fuel (sum + d.pmfRelease k) (k + 1)
    else .value ((k : ℝ) - 1)

open Classical in
/-- `inv_cdf` (poisson.rs 129-143) in a release build, at most `fuel` turns of the loop. -/
noncomputable def invCdfRelease (d : Poisson) (p : ℝ) (fuel : ℕ) : Outcome :=
  if ¬ (0 ≤ p ∧ p ≤ 1) then .nan
  else if |p - 1| < 2⁻¹ ^ 52 then .infinity
  else invLoopRelease d p fuel 0 0

end Poisson

namespace Binomial

/-- The closure `n_C_k` (binomial.rs 116-118) in a release build: division by zero panics. -/
def nCkRelease (n k : ℕ) : Option ℕ :=
  if wrapProduct 32 k * wrapProduct 32 (wrapSub 32 n k) % 2 ^ 32 = 0 then none
  else some (wrapProduct 32 n / (wrapProduct 32 k * wrapProduct 32 (wrapSub 32 n k) % 2 ^ 32))

open Classical in
/-- `pmf`, `pdf` (binomial.rs 112-123, 97-99) in a release build.  `none`: a panic, or a negative power
of zero.  The difference in line 122 cannot wrap, because of the assertion in line 113. -/
noncomputable def pmfRelease (d : Binomial) (k : ℝ) : Option ℝ :=
  if asU64 k ≤ d.n then
    (nCkRelease (d.n % 2 ^ 32) (asU32 k)).bind fun c : ℕ =>
      if (d.p = 0 ∧ asI32 k < 0) ∨ (1 - d.p = 0 ∧ wrapI32 (d.n - asU64 k) < 0) then none
      else some (c * d.p ^ asI32 k * (1 - d.p) ^ wrapI32 (d.n - asU64 k))
  else none

/-- `cdf` (binomial.rs 135-137) in a release build. -/
noncomputable def cdfRelease (d : Binomial) (k : ℝ) : Option ℝ :=
  betaReg ((wrapSub 64 d.n (asU64 k) : ℕ) : ℝ) (1 + k) (1 - d.p)

open Classical in
/-- The loop of `inv_cdf` (binomial.rs 151-158) in a release build, from the point where `cdf(k)` is
to be evaluated, at most `fuel` turns. -/
noncomputable def invLoopRelease (d : Binomial) (p : ℝ) : ℕ → ℝ → Outcome
  | 0, _ => .running
  | fuel + 1, k =>
    match d.cdfRelease k with
    | none => .panic
    | some c => if c < p then invLoopRelease d p fuel (k + 1) else .value k

open Classical in
/-- `inv_cdf` (binomial.rs 148-159) in a release build: asserts a level in `[0,1]`. -/
noncomputable def invCdfRelease (d : Binomial) (p : ℝ) (fuel : ℕ) : Outcome :=
  if 0 ≤ p ∧ p ≤ 1 then invLoopRelease d p fuel 0 else .panic

end Binomial

end Verif.Distributions
