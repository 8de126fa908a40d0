import Verif.Float.Model
import Verif.Options.Payoffs

/-!
# Black-Scholes-Merton prices on `f64` values

Source: `crates/RustQuant_instruments/src/options/black_scholes_merton.rs`. `none`: a step of the calculation has an infinite or NaN result. The
year fraction between evaluation and expiration date (lines 155-161) is the field `T`. The functions of the platform's mathematical library and of
the crate `errorfunctions` are parameters.
-/

namespace Verif.Float.Bsm

open Verif.Options (TypeFlag)

/-- `f64::exp`, `f64::ln`, `f64::sqrt` and `erfc`.
Called at crates/RustQuant_instruments/src/options/black_scholes_merton.rs 135-137, 171-172; `erfc` in crates/RustQuant_math/src/distributions/gaussian.rs 141. -/
structure Libm where
  exp : F64 → Option F64
  ln : F64 → Option F64
  sqrt : F64 → Option F64
  erfc : F64 → Option F64

/-- `-x`. Used at crates/RustQuant_math/src/distributions/gaussian.rs 141. -/
def neg (x : F64) : F64 := ⟨-x.val, rep_neg x.rep, by rw [abs_neg]; exact x.fin⟩

/-- `std::f64::consts::SQRT_2`, used in crates/RustQuant_math/src/distributions/gaussian.rs 141. -/
def sqrt2 : Option F64 := toF64 1.41421356237309504880168872420969808

/-- `cdf` of the standard normal distribution `Gaussian::default()` (gaussian.rs 137-142, mean 0 and variance 1 from 39-46). -/
def cdf (m : Libm) (x : F64) : Option F64 := do
  let d ← x.sub F64.zero
  let a ← (neg d).div (← (← sqrt2).mul (← m.sqrt (← toF64 1)))
  (← toF64 (1 / 2)).mul (← m.erfc a)

/-- `BlackScholesMerton` (black_scholes_merton.rs 39-71). -/
structure Contract where
  costOfCarry : F64
  underlyingPrice : F64
  strikePrice : F64
  volatility : F64
  riskFreeRate : F64
  T : F64
  optionType : TypeFlag

namespace Contract

variable (m : Libm) (o : Contract)

/-- `v * T.sqrt()` (black_scholes_merton.rs 171, 172). -/
def width : Option F64 := do o.volatility.mul (← m.sqrt o.T)

/-- `d1` of `d1_d2` (black_scholes_merton.rs 171). `v.powi(2)` is taken to be `v * v`, rounded. -/
def d1 : Option F64 := do
  let i ← (← toF64 1).div (← o.width m)
  let l ← m.ln (← o.underlyingPrice.div o.strikePrice)
  let g ← (← o.costOfCarry.add (← (← toF64 (1 / 2)).mul (← o.volatility.mul o.volatility))).mul o.T
  i.mul (← l.add g)

/-- `d2` of `d1_d2` (black_scholes_merton.rs 172). -/
def d2 : Option F64 := do (← o.d1 m).sub (← o.width m)

/-- `((b - r) * T).exp()` (black_scholes_merton.rs 135, 137, 198, 199). -/
def carry : Option F64 := do m.exp (← (← o.costOfCarry.sub o.riskFreeRate).mul o.T)

/-- `(-r * T).exp()` (black_scholes_merton.rs 135, 137). -/
def discount : Option F64 := do m.exp (← (neg o.riskFreeRate).mul o.T)

/-- `price` (black_scholes_merton.rs 128-140). -/
def price : Option F64 := do
  let d1 ← o.d1 m
  let d2 ← o.d2 m
  match o.optionType with
  | .call =>
    let x ← (← o.underlyingPrice.mul (← o.carry m)).mul (← cdf m d1)
    let y ← (← o.strikePrice.mul (← o.discount m)).mul (← cdf m d2)
    x.sub y
  | .put =>
    let x ← (← (neg o.underlyingPrice).mul (← o.carry m)).mul (← cdf m (neg d1))
    let y ← (← o.strikePrice.mul (← o.discount m)).mul (← cdf m (neg d2))
    x.add y

/-- `delta` (black_scholes_merton.rs 190-201). -/
def delta : Option F64 := do
  let d1 ← o.d1 m
  match o.optionType with
  | .call => (← o.carry m).mul (← cdf m d1)
  | .put => (← o.carry m).mul (← (← cdf m d1).sub (← toF64 1))

end Contract

end Verif.Float.Bsm
