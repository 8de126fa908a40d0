import Verif.Distributions.Gaussian
import Verif.Options.Payoffs

/-!
# The generalised Black-Scholes-Merton model

Models `mod bsm` and the model structs of
crates/RustQuant_instruments/src/options/option_models.rs and the methods of
`BlackScholesMerton` (crates/RustQuant_instruments/src/options/black_scholes_merton.rs).
`f64` is modelled by `ℝ`; `N` is the exact normal distribution of `Verif.Distributions.Gaussian`.
-/

namespace Verif.Options

open Real Verif.Distributions

namespace Bsm

/-- `N.cdf` of the standard normal constant `N` (distributions/gaussian.rs 33, 137-142). -/
noncomputable def N (x : ℝ) : ℝ := Gaussian.std.cdf x

/-- `N.pdf` (distributions/gaussian.rs 102-109). -/
noncomputable def n (x : ℝ) : ℝ := Gaussian.std.pdf x

/-- `d1` (option_models.rs 308-311). -/
noncomputable def d1 (s k t b v : ℝ) : ℝ := (log (s / k) + (b + 0.5 * v ^ 2) * t) / (v * √t)

/-- `d2` (option_models.rs 313-316). -/
noncomputable def d2 (s k t b v : ℝ) : ℝ := d1 s k t b v - v * √t

/-- `call_price` (option_models.rs 318-324). -/
noncomputable def callPrice (s k t r b v : ℝ) : ℝ :=
  s * exp ((b - r) * t) * N (d1 s k t b v) - k * exp (-r * t) * N (d2 s k t b v)

/-- `put_price` (option_models.rs 326-332). -/
noncomputable def putPrice (s k t r b v : ℝ) : ℝ :=
  -s * exp ((b - r) * t) * N (-d1 s k t b v) + k * exp (-r * t) * N (-d2 s k t b v)

/-- `call_delta` (option_models.rs 334-339). -/
noncomputable def callDelta (s k t r b v : ℝ) : ℝ := exp ((b - r) * t) * N (d1 s k t b v)

/-- `put_delta` (option_models.rs 341-346). -/
noncomputable def putDelta (s k t r b v : ℝ) : ℝ := exp ((b - r) * t) * (N (d1 s k t b v) - 1)

/-- `call_gamma`, `put_gamma` (option_models.rs 348-358). -/
noncomputable def gamma (s k t r b v : ℝ) : ℝ :=
  exp ((b - r) * t) * n (d1 s k t b v) / (s * v * √t)

/-- `call_theta` (option_models.rs 360-368). -/
noncomputable def callTheta (s k t r b v : ℝ) : ℝ :=
  -s * exp ((b - r) * t) * n (d1 s k t b v) * v / (2 * √t)
    - (b - r) * s * exp ((b - r) * t) * N (d1 s k t b v)
    - r * k * exp (-r * t) * N (d2 s k t b v)

/-- `put_theta` (option_models.rs 370-378). -/
noncomputable def putTheta (s k t r b v : ℝ) : ℝ :=
  -s * exp ((b - r) * t) * n (d1 s k t b v) * v / (2 * √t)
    + (b - r) * s * exp ((b - r) * t) * N (-d1 s k t b v)
    + r * k * exp (-r * t) * N (-d2 s k t b v)

/-- `call_vega`, `put_vega` (option_models.rs 380-390). -/
noncomputable def vega (s k t r b v : ℝ) : ℝ := s * exp ((b - r) * t) * n (d1 s k t b v) * √t

/-- `call_rho` (option_models.rs 392-397). -/
noncomputable def callRho (s k t r b v : ℝ) : ℝ := k * t * exp (-r * t) * N (d2 s k t b v)

/-- `put_rho` (option_models.rs 399-404). -/
noncomputable def putRho (s k t r b v : ℝ) : ℝ := -k * t * exp (-r * t) * N (-d2 s k t b v)

/-- `call_vanna`, `put_vanna` (option_models.rs 406-417). -/
noncomputable def vanna (s k t r b v : ℝ) : ℝ :=
  -exp ((b - r) * t) * n (d1 s k t b v) * d2 s k t b v / v

/-- `call_charm` (option_models.rs 419-426). -/
noncomputable def callCharm (s k t r b v : ℝ) : ℝ :=
  exp ((b - r) * t) *
    (n (d1 s k t b v) * (b / (v * √t) - d2 s k t b v / (2 * t)) + (b - r) * N (d1 s k t b v))

/-- `put_charm` (option_models.rs 428-435). -/
noncomputable def putCharm (s k t r b v : ℝ) : ℝ :=
  exp ((b - r) * t) *
    (n (d1 s k t b v) * (b / (v * √t) - d2 s k t b v / (2 * t)) - (b - r) * N (-d1 s k t b v))

/-- `call_lambda` (option_models.rs 437-440). -/
noncomputable def callLambda (s k t r b v : ℝ) : ℝ :=
  callDelta s k t r b v * s / callPrice s k t r b v

/-- `put_lambda` (option_models.rs 442-445). -/
noncomputable def putLambda (s k t r b v : ℝ) : ℝ :=
  putDelta s k t r b v * s / putPrice s k t r b v

/-- `call_zomma`, `put_zomma` (option_models.rs 447-461). -/
noncomputable def zomma (s k t r b v : ℝ) : ℝ :=
  gamma s k t r b v * ((d1 s k t b v * d2 s k t b v - 1) / v)

/-- `call_speed`, `put_speed` (option_models.rs 463-475). -/
noncomputable def speed (s k t r b v : ℝ) : ℝ :=
  -gamma s k t r b v * (1 + d1 s k t b v / (v * √t)) / s

/-- `call_color`, `put_color` (option_models.rs 477-493). -/
noncomputable def color (s k t r b v : ℝ) : ℝ :=
  gamma s k t r b v *
    (r - b + b * d1 s k t b v / (v * √t) + (1 - d1 s k t b v * d2 s k t b v) / (2 * t))

/-- `call_vomma`, `put_vomma` (option_models.rs 495-509). -/
noncomputable def vomma (s k t r b v : ℝ) : ℝ :=
  vega s k t r b v * d1 s k t b v * d2 s k t b v / v

/-- `call_ultima`, `put_ultima` (option_models.rs 511-524). -/
noncomputable def ultima (s k t r b v : ℝ) : ℝ :=
  vomma s k t r b v / v *
    (d1 s k t b v * d2 s k t b v - d1 s k t b v / d2 s k t b v + d2 s k t b v / d1 s k t b v - 1)

end Bsm

/-! ### The model structs -/

/-- The five structs that implement `GeneralisedBlackScholesMerton` (option_models.rs 20-57). -/
inductive GbsmModel
  | blackScholes73 (s r v : ℝ)
  | merton73 (s r q v : ℝ)
  | black76 (f r v : ℝ)
  | asay82 (f v : ℝ)
  | garmanKohlhagen83 (s rd rf v : ℝ)

namespace GbsmModel

/-- The methods `s()` of the five structs (option_models.rs 145-253). -/
def s : GbsmModel → ℝ
  | blackScholes73 s _ _ => s
  | merton73 s _ _ _ => s
  | black76 f _ _ => f
  | asay82 f _ => f
  | garmanKohlhagen83 s _ _ _ => s

/-- The methods `r()` (option_models.rs 145-253). -/
def r : GbsmModel → ℝ
  | blackScholes73 _ r _ => r
  | merton73 _ r _ _ => r
  | black76 _ r _ => r
  | asay82 _ _ => 0
  | garmanKohlhagen83 _ rd _ _ => rd

/-- The methods `b()` (option_models.rs 145-253). -/
def b : GbsmModel → ℝ
  | blackScholes73 _ r _ => r
  | merton73 _ r q _ => r - q
  | black76 _ _ _ => 0
  | asay82 _ _ => 0
  | garmanKohlhagen83 _ rd rf _ => rd - rf

/-- The field `v` (option_models.rs 20-57). -/
def v : GbsmModel → ℝ
  | blackScholes73 _ _ v => v
  | merton73 _ _ _ v => v
  | black76 _ _ v => v
  | asay82 _ v => v
  | garmanKohlhagen83 _ _ _ v => v

/-- `price` (option_models.rs 530-536, macro `impl_gbsm`). -/
noncomputable def price (m : GbsmModel) (k t : ℝ) : TypeFlag → ℝ
  | .call => Bsm.callPrice m.s k t m.r m.b m.v
  | .put => Bsm.putPrice m.s k t m.r m.b m.v

/-- `delta` (option_models.rs 546-551). -/
noncomputable def delta (m : GbsmModel) (k t : ℝ) : TypeFlag → ℝ
  | .call => Bsm.callDelta m.s k t m.r m.b m.v
  | .put => Bsm.putDelta m.s k t m.r m.b m.v

/-- `gamma` (option_models.rs 553-558); call and put use the same formula. -/
noncomputable def gamma (m : GbsmModel) (k t : ℝ) (_ : TypeFlag) : ℝ :=
  Bsm.gamma m.s k t m.r m.b m.v

/-- `theta` (option_models.rs 560-565). -/
noncomputable def theta (m : GbsmModel) (k t : ℝ) : TypeFlag → ℝ
  | .call => Bsm.callTheta m.s k t m.r m.b m.v
  | .put => Bsm.putTheta m.s k t m.r m.b m.v

/-- `vega` (option_models.rs 567-572). -/
noncomputable def vega (m : GbsmModel) (k t : ℝ) (_ : TypeFlag) : ℝ :=
  Bsm.vega m.s k t m.r m.b m.v

/-- `rho` (option_models.rs 574-579). -/
noncomputable def rho (m : GbsmModel) (k t : ℝ) : TypeFlag → ℝ
  | .call => Bsm.callRho m.s k t m.r m.b m.v
  | .put => Bsm.putRho m.s k t m.r m.b m.v

end GbsmModel

/-! ### The instrument -/

/-- `BlackScholesMerton` (black_scholes_merton.rs 39-71).  The two dates enter all methods only
through `year_fraction()` (lines 155-161, the `Actual_365_25` day count, modelled in
`Verif.Time`), so the struct carries the year fraction `T` instead. -/
structure BlackScholesMerton where
  costOfCarry : ℝ
  underlyingPrice : ℝ
  strikePrice : ℝ
  volatility : ℝ
  riskFreeRate : ℝ
  T : ℝ
  optionType : TypeFlag

namespace BlackScholesMerton

open Bsm (N n)

/-- `d1_d2` (black_scholes_merton.rs 165-175). -/
noncomputable def d1d2 (o : BlackScholesMerton) : ℝ × ℝ :=
  let d1 := (1 / (o.volatility * √o.T)) * (log (o.underlyingPrice / o.strikePrice)
    + (o.costOfCarry + 0.5 * o.volatility ^ 2) * o.T)
  (d1, d1 - o.volatility * √o.T)

/-- `price` (black_scholes_merton.rs 128-140). -/
noncomputable def price (o : BlackScholesMerton) : ℝ :=
  match o.optionType with
  | .call => o.underlyingPrice * exp ((o.costOfCarry - o.riskFreeRate) * o.T) * N o.d1d2.1
      - o.strikePrice * exp (-o.riskFreeRate * o.T) * N o.d1d2.2
  | .put => -o.underlyingPrice * exp ((o.costOfCarry - o.riskFreeRate) * o.T) * N (-o.d1d2.1)
      + o.strikePrice * exp (-o.riskFreeRate * o.T) * N (-o.d1d2.2)

/-- `delta` (black_scholes_merton.rs 190-201). -/
noncomputable def delta (o : BlackScholesMerton) : ℝ :=
  match o.optionType with
  | .call => exp ((o.costOfCarry - o.riskFreeRate) * o.T) * N o.d1d2.1
  | .put => exp ((o.costOfCarry - o.riskFreeRate) * o.T) * (N o.d1d2.1 - 1)

/-- `vanna` (black_scholes_merton.rs 205-213). -/
noncomputable def vanna (o : BlackScholesMerton) : ℝ :=
  -exp ((o.costOfCarry - o.riskFreeRate) * o.T) * n o.d1d2.1 * o.d1d2.2 / o.volatility

/-- `charm` (black_scholes_merton.rs 217-234). -/
noncomputable def charm (o : BlackScholesMerton) : ℝ :=
  match o.optionType with
  | .call => exp ((o.costOfCarry - o.riskFreeRate) * o.T) *
      (n o.d1d2.1 * (o.costOfCarry / (o.volatility * √o.T) - o.d1d2.2 / (2 * o.T))
        + (o.costOfCarry - o.riskFreeRate) * N o.d1d2.1)
  | .put => exp ((o.costOfCarry - o.riskFreeRate) * o.T) *
      (n o.d1d2.1 * (o.costOfCarry / (o.volatility * √o.T) - o.d1d2.2 / (2 * o.T))
        - (o.costOfCarry - o.riskFreeRate) * N (-o.d1d2.1))

/-- `lambda` (black_scholes_merton.rs 238-241). -/
noncomputable def lambda (o : BlackScholesMerton) : ℝ := o.delta * o.underlyingPrice / o.price

/-- `gamma` (black_scholes_merton.rs 245-253). -/
noncomputable def gamma (o : BlackScholesMerton) : ℝ :=
  exp ((o.costOfCarry - o.riskFreeRate) * o.T) * n o.d1d2.1
    / (o.underlyingPrice * o.volatility * √o.T)

/-- `gamma_percent` (black_scholes_merton.rs 256-259). -/
noncomputable def gammaPercent (o : BlackScholesMerton) : ℝ := o.gamma * o.underlyingPrice / 100

/-- `zomma` (black_scholes_merton.rs 263-267). -/
noncomputable def zomma (o : BlackScholesMerton) : ℝ :=
  o.gamma * ((o.d1d2.1 * o.d1d2.2 - 1) / o.volatility)

/-- `zomma_percent` (black_scholes_merton.rs 270-273). -/
noncomputable def zommaPercent (o : BlackScholesMerton) : ℝ := o.zomma * o.underlyingPrice / 100

/-- `speed` (black_scholes_merton.rs 277-286). -/
noncomputable def speed (o : BlackScholesMerton) : ℝ :=
  -o.gamma * (1 + o.d1d2.1 / (o.volatility * √o.T)) / o.underlyingPrice

/-- `colour` (black_scholes_merton.rs 290-299). -/
noncomputable def colour (o : BlackScholesMerton) : ℝ :=
  o.gamma * (o.riskFreeRate - o.costOfCarry + o.costOfCarry * o.d1d2.1 / (o.volatility * √o.T)
    + (1 - o.d1d2.1 * o.d1d2.2) / (2 * o.T))

/-- `vega` (black_scholes_merton.rs 303-312). -/
noncomputable def vega (o : BlackScholesMerton) : ℝ :=
  o.underlyingPrice * exp ((o.costOfCarry - o.riskFreeRate) * o.T) * n o.d1d2.1 * √o.T

/-- `vomma` (black_scholes_merton.rs 316-321). -/
noncomputable def vomma (o : BlackScholesMerton) : ℝ :=
  o.vega * o.d1d2.1 * o.d1d2.2 / o.volatility

/-- `ultima` (black_scholes_merton.rs 325-330). -/
noncomputable def ultima (o : BlackScholesMerton) : ℝ :=
  o.vomma / o.volatility *
    (o.d1d2.1 * o.d1d2.2 - o.d1d2.1 / o.d1d2.2 + o.d1d2.2 / o.d1d2.1 - 1)

/-- `vega_bleed` (black_scholes_merton.rs 331-341). -/
noncomputable def vegaBleed (o : BlackScholesMerton) : ℝ :=
  o.vega * (o.riskFreeRate - o.costOfCarry + o.costOfCarry * o.d1d2.1 / (o.volatility * √o.T)
    - (o.d1d2.1 * o.d1d2.2 + 1) / (2 * o.T))

/-- `theta` (black_scholes_merton.rs 343-366). -/
noncomputable def theta (o : BlackScholesMerton) : ℝ :=
  match o.optionType with
  | .call => -o.underlyingPrice * exp ((o.costOfCarry - o.riskFreeRate) * o.T) * n o.d1d2.1
        * o.volatility / (2 * √o.T)
      - (o.costOfCarry - o.riskFreeRate) * o.underlyingPrice
        * exp ((o.costOfCarry - o.riskFreeRate) * o.T) * N o.d1d2.1
      - o.riskFreeRate * o.strikePrice * exp (-o.riskFreeRate * o.T) * N o.d1d2.2
  | .put => -o.underlyingPrice * exp ((o.costOfCarry - o.riskFreeRate) * o.T) * n o.d1d2.1
        * o.volatility / (2 * √o.T)
      + (o.costOfCarry - o.riskFreeRate) * o.underlyingPrice
        * exp ((o.costOfCarry - o.riskFreeRate) * o.T) * N (-o.d1d2.1)
      + o.riskFreeRate * o.strikePrice * exp (-o.riskFreeRate * o.T) * N (-o.d1d2.2)

/-- `rho` (black_scholes_merton.rs 368-387). -/
noncomputable def rho (o : BlackScholesMerton) : ℝ :=
  match o.optionType with
  | .call => o.strikePrice * o.T * exp (-o.riskFreeRate * o.T) * N o.d1d2.2
  | .put => -o.strikePrice * o.T * exp (-o.riskFreeRate * o.T) * N (-o.d1d2.2)

/-- `phi` (black_scholes_merton.rs 389-402). -/
noncomputable def phi (o : BlackScholesMerton) : ℝ :=
  match o.optionType with
  | .call => -o.T * o.underlyingPrice * exp ((o.costOfCarry - o.riskFreeRate) * o.T) * N o.d1d2.1
  | .put => o.T * o.underlyingPrice * exp ((o.costOfCarry - o.riskFreeRate) * o.T) * N (-o.d1d2.1)

/-- `zeta` (black_scholes_merton.rs 404-414). -/
noncomputable def zeta (o : BlackScholesMerton) : ℝ :=
  match o.optionType with
  | .call => N o.d1d2.2
  | .put => N (-o.d1d2.2)

/-- `strike_delta` (black_scholes_merton.rs 416-427). -/
noncomputable def strikeDelta (o : BlackScholesMerton) : ℝ :=
  match o.optionType with
  | .call => -exp (-o.riskFreeRate * o.T) * N o.d1d2.2
  | .put => exp (-o.riskFreeRate * o.T) * N (-o.d1d2.2)

/-- `strike_gamma` (black_scholes_merton.rs 429-437). -/
noncomputable def strikeGamma (o : BlackScholesMerton) : ℝ :=
  n o.d1d2.2 * exp (-o.riskFreeRate * o.T) / (o.strikePrice * o.volatility * √o.T)

/-- `implied_volatility` (implied_volatility.rs 91-113): the price is undiscounted, the forward is
`S e^{rT}`. Simplified: the rational-approximation inverter it then calls (implied_volatility.rs
113-1000, Jäckel's "Let's be rational") is the parameter `inv` taking the undiscounted price, the
forward, the strike, the time and the type flag. -/
noncomputable def impliedVolatilityFn (inv : ℝ → ℝ → ℝ → ℝ → TypeFlag → ℝ)
    (price S K T r : ℝ) (flag : TypeFlag) : ℝ :=
  inv (price * exp (r * T)) (S * exp (r * T)) K T flag

/-- `BlackScholesMerton::implied_volatility` (black_scholes_merton.rs 142-152). -/
noncomputable def impliedVolatility (inv : ℝ → ℝ → ℝ → ℝ → TypeFlag → ℝ) (o : BlackScholesMerton)
    (price : ℝ) : ℝ :=
  impliedVolatilityFn inv price o.underlyingPrice o.strikePrice o.T o.riskFreeRate o.optionType

end BlackScholesMerton

end Verif.Options
