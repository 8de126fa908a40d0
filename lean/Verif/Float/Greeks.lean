import Verif.Float.BlackScholesExtended

/-!
# Sensitivities of Black-Scholes-Merton prices on `f64` values

Source: `crates/RustQuant_instruments/src/options/black_scholes_merton.rs`. As in `Float/BlackScholes`, `none`: a step of the calculation has an
infinite or NaN result, and the functions with an `x` carry such results on.
-/

namespace Verif.Float.Bsm

open Verif.Options (TypeFlag)
open X64

/-- `std::f64::consts::PI`, used in crates/RustQuant_math/src/distributions/gaussian.rs 105. -/
def pi : Option F64 := toF64 3.14159265358979323846264338327950288

/-- `pdf` of the standard normal distribution `Gaussian::default()` (gaussian.rs 102-109, mean 0 and variance 1 from 39-46). `powi(2)` is taken
to be the rounded square, `recip` to be `1 / x`. -/
def pdf (m : Libm) (x : F64) : Option F64 := do
  let t1 ← (← toF64 1).div (← m.sqrt (← (← (← toF64 2).mul (← pi)).mul (← toF64 1)))
  let d ← x.sub F64.zero
  let t2 ← (← (← toF64 (-1 / 2)).mul (← d.mul d)).div (← toF64 1)
  t1.mul (← m.exp t2)

/-- `pdf` on all of `f64` (gaussian.rs 102-109). -/
def xpdf (m : XLibm) (x : X64) : X64 :=
  ((ofQ 1).div (m.sqrt (((ofQ 2).mul (ofQ 3.14159265358979323846264338327950288)).mul (ofQ 1)))).mul
    (m.exp (((ofQ (-1 / 2)).mul ((x.sub (fin F64.zero)).mul (x.sub (fin F64.zero)))).div (ofQ 1)))

namespace Contract

section

variable (m : Libm) (o : Contract)

/-- `gamma` (black_scholes_merton.rs 244-253). -/
def gamma : Option F64 := do
  let x ← (← o.carry m).mul (← pdf m (← o.d1 m))
  x.div (← (← o.underlyingPrice.mul o.volatility).mul (← m.sqrt o.T))

/-- `vega` (black_scholes_merton.rs 301-312). -/
def vega : Option F64 := do
  let x ← (← o.underlyingPrice.mul (← o.carry m)).mul (← pdf m (← o.d1 m))
  x.mul (← m.sqrt o.T)

/-- The first term of `theta`, `-S * ((b - r) * T).exp() * n.pdf(d1) * v / (2.0 * T.sqrt())` (black_scholes_merton.rs 355, 360). -/
def decay : Option F64 := do
  let x ← (← (neg o.underlyingPrice).mul (← o.carry m)).mul (← pdf m (← o.d1 m))
  (← x.mul o.volatility).div (← (← toF64 2).mul (← m.sqrt o.T))

/-- `theta` (black_scholes_merton.rs 343-365). -/
def theta : Option F64 := do
  let d1 ← o.d1 m
  let d2 ← o.d2 m
  let x ← o.decay m
  let y ← (← (← o.costOfCarry.sub o.riskFreeRate).mul o.underlyingPrice).mul (← o.carry m)
  let z ← (← o.riskFreeRate.mul o.strikePrice).mul (← o.discount m)
  match o.optionType with
  | .call => (← x.sub (← y.mul (← cdf m d1))).sub (← z.mul (← cdf m d2))
  | .put => (← x.add (← y.mul (← cdf m (neg d1)))).add (← z.mul (← cdf m (neg d2)))

/-- `rho` (black_scholes_merton.rs 367-386). -/
def rho : Option F64 := do
  let d2 ← o.d2 m
  match o.optionType with
  | .call => (← (← o.strikePrice.mul o.T).mul (← o.discount m)).mul (← cdf m d2)
  | .put => (← (← (neg o.strikePrice).mul o.T).mul (← o.discount m)).mul (← cdf m (neg d2))

/-- `phi` (black_scholes_merton.rs 388-401). -/
def phi : Option F64 := do
  let d1 ← o.d1 m
  match o.optionType with
  | .call => (← (← (neg o.T).mul o.underlyingPrice).mul (← o.carry m)).mul (← cdf m d1)
  | .put => (← (← o.T.mul o.underlyingPrice).mul (← o.carry m)).mul (← cdf m (neg d1))

/-- `zeta` (black_scholes_merton.rs 403-413). -/
def zeta : Option F64 := do
  let d2 ← o.d2 m
  match o.optionType with
  | .call => cdf m d2
  | .put => cdf m (neg d2)

/-- `strike_delta` (black_scholes_merton.rs 415-427). -/
def strikeDelta : Option F64 := do
  let d2 ← o.d2 m
  match o.optionType with
  | .call => (neg (← o.discount m)).mul (← cdf m d2)
  | .put => (← o.discount m).mul (← cdf m (neg d2))

/-- `strike_gamma` (black_scholes_merton.rs 429-437). -/
def strikeGamma : Option F64 := do
  let x ← (← pdf m (← o.d2 m)).mul (← o.discount m)
  x.div (← (← o.strikePrice.mul o.volatility).mul (← m.sqrt o.T))

end

section

variable (m : XLibm) (o : Contract)

/-- `gamma` on all of `f64` (black_scholes_merton.rs 244-253). -/
def xgamma : X64 :=
  ((o.xcarry m).mul (xpdf m (o.xd1 m))).div (((fin o.underlyingPrice).mul (fin o.volatility)).mul (m.sqrt (fin o.T)))

/-- `vega` on all of `f64` (black_scholes_merton.rs 301-312). -/
def xvega : X64 := (((fin o.underlyingPrice).mul (o.xcarry m)).mul (xpdf m (o.xd1 m))).mul (m.sqrt (fin o.T))

/-- The first term of `theta` on all of `f64` (black_scholes_merton.rs 355, 360). -/
def xdecay : X64 :=
  ((((fin o.underlyingPrice).neg.mul (o.xcarry m)).mul (xpdf m (o.xd1 m))).mul (fin o.volatility)).div ((ofQ 2).mul (m.sqrt (fin o.T)))

/-- `theta` on all of `f64` (black_scholes_merton.rs 343-365). -/
def xtheta : X64 :=
  let y := (((fin o.costOfCarry).sub (fin o.riskFreeRate)).mul (fin o.underlyingPrice)).mul (o.xcarry m)
  let z := ((fin o.riskFreeRate).mul (fin o.strikePrice)).mul (o.xdiscount m)
  match o.optionType with
  | .call => ((o.xdecay m).sub (y.mul (xcdf m (o.xd1 m)))).sub (z.mul (xcdf m (o.xd2 m)))
  | .put => ((o.xdecay m).add (y.mul (xcdf m (o.xd1 m).neg))).add (z.mul (xcdf m (o.xd2 m).neg))

/-- `rho` on all of `f64` (black_scholes_merton.rs 367-386). -/
def xrho : X64 :=
  match o.optionType with
  | .call => (((fin o.strikePrice).mul (fin o.T)).mul (o.xdiscount m)).mul (xcdf m (o.xd2 m))
  | .put => (((fin o.strikePrice).neg.mul (fin o.T)).mul (o.xdiscount m)).mul (xcdf m (o.xd2 m).neg)

/-- `phi` on all of `f64` (black_scholes_merton.rs 388-401). -/
def xphi : X64 :=
  match o.optionType with
  | .call => (((fin o.T).neg.mul (fin o.underlyingPrice)).mul (o.xcarry m)).mul (xcdf m (o.xd1 m))
  | .put => (((fin o.T).mul (fin o.underlyingPrice)).mul (o.xcarry m)).mul (xcdf m (o.xd1 m).neg)

/-- `zeta` on all of `f64` (black_scholes_merton.rs 403-413). -/
def xzeta : X64 :=
  match o.optionType with
  | .call => xcdf m (o.xd2 m)
  | .put => xcdf m (o.xd2 m).neg

/-- `strike_delta` on all of `f64` (black_scholes_merton.rs 415-427). -/
def xstrikeDelta : X64 :=
  match o.optionType with
  | .call => (o.xdiscount m).neg.mul (xcdf m (o.xd2 m))
  | .put => (o.xdiscount m).mul (xcdf m (o.xd2 m).neg)

/-- `strike_gamma` on all of `f64` (black_scholes_merton.rs 429-437). -/
def xstrikeGamma : X64 :=
  ((xpdf m (o.xd2 m)).mul (o.xdiscount m)).div (((fin o.strikePrice).mul (fin o.volatility)).mul (m.sqrt (fin o.T)))

end

end Contract

end Verif.Float.Bsm
