import Verif.Float.BlackScholes
import Verif.Float.Extended

/-!
# Black-Scholes-Merton prices on `f64` values with infinities and NaN

The same functions as in `Float/BlackScholes`, with the results that are not finite carried on.
-/

namespace Verif.Float.Bsm

open Verif.Options (TypeFlag)
open X64

/-- `f64::exp`, `f64::ln`, `f64::sqrt` and `erfc` on all of `f64`.
Called at crates/RustQuant_instruments/src/options/black_scholes_merton.rs 135-137, 171-172; `erfc` in crates/RustQuant_math/src/distributions/gaussian.rs 141. -/
structure XLibm where
  exp : X64 → X64
  ln : X64 → X64
  sqrt : X64 → X64
  erfc : X64 → X64

/-- `cdf` of the standard normal distribution (crates/RustQuant_math/src/distributions/gaussian.rs 137-142). -/
def xcdf (m : XLibm) (x : X64) : X64 :=
  (ofQ (1 / 2)).mul (m.erfc ((x.sub (fin F64.zero)).neg.div ((ofQ 1.41421356237309504880168872420969808).mul (m.sqrt (ofQ 1)))))

namespace Contract

variable (m : XLibm) (o : Contract)

/-- `v * T.sqrt()` (black_scholes_merton.rs 171, 172). -/
def xwidth : X64 := (fin o.volatility).mul (m.sqrt (fin o.T))

/-- `d1` of `d1_d2` (black_scholes_merton.rs 171). `v.powi(2)` is taken to be `v * v`, rounded. -/
def xd1 : X64 :=
  ((ofQ 1).div (o.xwidth m)).mul ((m.ln ((fin o.underlyingPrice).div (fin o.strikePrice))).add
    (((fin o.costOfCarry).add ((ofQ (1 / 2)).mul ((fin o.volatility).mul (fin o.volatility)))).mul (fin o.T)))

/-- `d2` of `d1_d2` (black_scholes_merton.rs 172). -/
def xd2 : X64 := (o.xd1 m).sub (o.xwidth m)

/-- `((b - r) * T).exp()` (black_scholes_merton.rs 135, 137, 198, 199). -/
def xcarry : X64 := m.exp (((fin o.costOfCarry).sub (fin o.riskFreeRate)).mul (fin o.T))

/-- `(-r * T).exp()` (black_scholes_merton.rs 135, 137). -/
def xdiscount : X64 := m.exp ((fin o.riskFreeRate).neg.mul (fin o.T))

/-- `price` (black_scholes_merton.rs 128-140). -/
def xprice : X64 :=
  match o.optionType with
  | .call => (((fin o.underlyingPrice).mul (o.xcarry m)).mul (xcdf m (o.xd1 m))).sub
      (((fin o.strikePrice).mul (o.xdiscount m)).mul (xcdf m (o.xd2 m)))
  | .put => (((fin o.underlyingPrice).neg.mul (o.xcarry m)).mul (xcdf m (o.xd1 m).neg)).add
      (((fin o.strikePrice).mul (o.xdiscount m)).mul (xcdf m (o.xd2 m).neg))

/-- `delta` (black_scholes_merton.rs 190-201). -/
def xdelta : X64 :=
  match o.optionType with
  | .call => (o.xcarry m).mul (xcdf m (o.xd1 m))
  | .put => (o.xcarry m).mul ((xcdf m (o.xd1 m)).sub (ofQ 1))

end Contract

end Verif.Float.Bsm
