import Verif.Float.NanPayoffs

/-!
# Probability distributions on `f64` values with infinities and NaN

Sources: `crates/RustQuant_math/src/distributions/*.rs`. `none` is a panic. The functions of the platform and of the `statrs` crate are
parameters.
-/

namespace Verif.Float.Laws

open X64 Nan

/-- `f64::exp`, `f64::ln`, `f64::sqrt`, `f64::powf` and the functions of `statrs` called in `crates/RustQuant_math/src/distributions/*.rs`.
`gammaLi` may panic. -/
structure Lib where
  exp : X64 → X64
  ln : X64 → X64
  sqrt : X64 → X64
  pow : X64 → X64 → X64
  erfc : X64 → X64
  gamma : X64 → X64
  digamma : X64 → X64
  gammaLi : X64 → X64 → Option X64

/-- `(0.0..=1.0).contains(&p)` (e.g. distributions/uniform.rs 193). -/
def isProbability (p : X64) : Bool := le zero p && le p (ofQ 1)

/-! ## Uniform -/

/-- `Uniform` of the continuous class (distributions/uniform.rs 20-27). -/
structure Uniform where
  a : X64
  b : X64

namespace Uniform

/-- `new` for the continuous class (uniform.rs 49-60). -/
def new (a b : X64) : Option Uniform := if le a b then some ⟨a, b⟩ else none

/-- `pdf` for the continuous class (uniform.rs 109-115). `recip` is taken to be `1 / x`. -/
def pdf (d : Uniform) (x : X64) : X64 := if le d.a x && le x d.b then (ofQ 1).div (d.b.sub d.a) else zero

/-- `cdf` for the continuous class (uniform.rs 169-177). -/
def cdf (d : Uniform) (x : X64) : X64 :=
  if x.lt d.a then zero else if le d.a x && le x d.b then (x.sub d.a).div (d.b.sub d.a) else ofQ 1

/-- `inv_cdf` for the continuous class (uniform.rs 192-198). -/
def invCdf (d : Uniform) (p : X64) : Option X64 := if isProbability p then some (d.a.add (p.mul (d.b.sub d.a))) else none

/-- `mean` (uniform.rs 211-213). -/
def mean (d : Uniform) : X64 := (ofQ (1 / 2)).mul (d.a.add d.b)

end Uniform

/-! ## Exponential -/

namespace Exponential

/-- `new`, which only keeps the rate (distributions/exponential.rs 35-39). -/
def new (rate : X64) : Option X64 := if zero.lt rate then some rate else none

/-- `pdf` (exponential.rs 64-68). -/
def pdf (l : Lib) (rate x : X64) : Option X64 := if le zero x then some (rate.mul (l.exp (rate.neg.mul x))) else none

/-- `cdf` (exponential.rs 90-94). -/
def cdf (l : Lib) (rate x : X64) : Option X64 := if le zero x then some ((ofQ 1).sub (l.exp (rate.neg.mul x))) else none

/-- `inv_cdf` (exponential.rs 104-106). -/
def invCdf (l : Lib) (rate p : X64) : X64 := (l.ln ((ofQ 1).sub p)).neg.div rate

end Exponential

/-! ## Gamma -/

/-- `Gamma` (distributions/gamma.rs 29-34). -/
structure Gamma where
  alpha : X64
  beta : X64

namespace Gamma

/-- `new` (gamma.rs 47-51). -/
def new (alpha beta : X64) : Option Gamma := if zero.lt alpha && zero.lt beta then some ⟨alpha, beta⟩ else none

/-- `pdf` (gamma.rs 63-70). -/
def pdf (l : Lib) (d : Gamma) (x : X64) : Option X64 :=
  if zero.lt x then
    some ((((l.pow d.beta d.alpha).mul (l.pow x (d.alpha.sub (ofQ 1)))).mul (l.exp (d.beta.neg.mul x))).div (l.gamma d.alpha))
  else none

/-- `cdf` (gamma.rs 76-83). -/
def cdf (l : Lib) (d : Gamma) (x : X64) : Option X64 :=
  if zero.lt x then (l.gammaLi d.alpha (d.beta.mul x)).map fun g => g.div (l.gamma d.alpha) else none

end Gamma

/-! ## Chi-squared -/

namespace ChiSquared

/-- `new`, which only keeps the degrees of freedom (distributions/chi_squared.rs 51-55). -/
def new (k : ℕ) : Option ℕ := if 0 < k then some k else none

/-- The assertion on the argument (chi_squared.rs 90, 125). -/
def admits (k : ℕ) (x : X64) : Bool := if k = 1 then zero.lt x else le zero x

/-- `k as f64 / 2.0` (chi_squared.rs 94, 95, 129). -/
def half (k : ℕ) : X64 := (X64.ofNat k).div (ofQ 2)

/-- `pdf` (chi_squared.rs 89-96). -/
def pdf (l : Lib) (k : ℕ) (x : X64) : Option X64 :=
  if admits k x then
    some (((l.pow x ((half k).sub (ofQ 1))).mul (l.exp (x.neg.div (ofQ 2)))).div ((l.pow (ofQ 2) (half k)).mul (l.gamma (half k))))
  else none

/-- `cdf` (chi_squared.rs 124-130). -/
def cdf (l : Lib) (k : ℕ) (x : X64) : Option X64 :=
  if admits k x then (l.gammaLi (half k) (x.div (ofQ 2))).map fun g => g.div (l.gamma (half k)) else none

/-- The loop of `inv_cdf` (chi_squared.rs 149-158), with a bound on the number of turns, which is not reached (`loop_turns`). -/
def loop (l : Lib) (k : ℕ) (p : X64) : ℕ → X64 → X64 → Option X64
  | 0, _, _ => none
  | n + 1, x, delta =>
    if (ofQ (1 / 10 ^ 10)).lt delta then
      match cdf l k x with
      | none => none
      | some c => loop l k p n (if c.lt p then x.add delta else x.sub delta) (delta.mul (ofQ (1 / 2)))
    else some x

/-- `inv_cdf` (chi_squared.rs 142-159). -/
def invCdf (l : Lib) (k : ℕ) (p : X64) : Option X64 :=
  if isProbability p then loop l k p 100 ((ofQ (1 / 2)).mul (X64.ofNat k)) ((ofQ (1 / 2)).mul (X64.ofNat k)) else none

/-- `entropy` (chi_squared.rs 250-254). -/
def entropy (l : Lib) (k : ℕ) : X64 :=
  ((half k).add (l.ln ((ofQ 2).mul (l.gamma (half k))))).add (((ofQ 1).sub (half k)).mul (l.digamma (half k)))

end ChiSquared

/-! ## Bernoulli -/

namespace Bernoulli

/-- `new`, which only keeps the probability (distributions/bernoulli.rs 51-55). -/
def new (p : X64) : Option X64 := if isProbability p then some p else none

/-- `pmf` at `0.0` and `1.0` (bernoulli.rs 100-105). `powi(0)` is one, `powi(1)` the number itself; other arguments panic and are left out. -/
def pmf (p : X64) (k : Bool) : Option X64 :=
  if isProbability p then some (if k then p.mul (ofQ 1) else (ofQ 1).mul ((ofQ 1).sub p)) else none

end Bernoulli

/-! ## Gaussian -/

/-- `Gaussian` (distributions/gaussian.rs 22-27). -/
structure Gaussian where
  mean : X64
  variance : X64

namespace Gaussian

/-- `new` (gaussian.rs 65-69). -/
def new (mean variance : X64) : Option Gaussian := if zero.lt variance then some ⟨mean, variance⟩ else none

/-- `cdf` (gaussian.rs 137-142). -/
def cdf (l : Lib) (d : Gaussian) (x : X64) : Option X64 :=
  if zero.lt d.variance then
    some ((ofQ (1 / 2)).mul (l.erfc ((x.sub d.mean).neg.div ((ofQ 1.41421356237309504880168872420969808).mul (l.sqrt d.variance)))))
  else none

end Gaussian

end Verif.Float.Laws
