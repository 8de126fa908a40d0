import Verif.Options.Bsm
import Verif.Options.Bachelier
import Verif.Options.Heston
import Verif.Time.Utilities

/-!
# Model of the analytic option pricer

Source: `crates/RustQuant_instruments/src/analytic_option_pricer.rs` and
`crates/RustQuant_instruments/src/options/vanilla.rs`. The date of the machine clock, `today()`, is a parameter. `report`
prints the values below and is not modelled.
-/

namespace Verif.Options

open Real Classical Verif.Time

namespace GbsmModel

/-- `vanna` (option_models.rs 581-586); call and put use the same formula. -/
noncomputable def vanna (m : GbsmModel) (k t : ℝ) (_ : TypeFlag) : ℝ := Bsm.vanna m.s k t m.r m.b m.v

/-- `charm` (option_models.rs 588-593). -/
noncomputable def charm (m : GbsmModel) (k t : ℝ) : TypeFlag → ℝ
  | .call => Bsm.callCharm m.s k t m.r m.b m.v
  | .put => Bsm.putCharm m.s k t m.r m.b m.v

/-- `lambda` (option_models.rs 595-600). -/
noncomputable def lambda (m : GbsmModel) (k t : ℝ) : TypeFlag → ℝ
  | .call => Bsm.callLambda m.s k t m.r m.b m.v
  | .put => Bsm.putLambda m.s k t m.r m.b m.v

/-- `zomma` (option_models.rs 602-607); call and put use the same formula. -/
noncomputable def zomma (m : GbsmModel) (k t : ℝ) (_ : TypeFlag) : ℝ := Bsm.zomma m.s k t m.r m.b m.v

/-- `speed` (option_models.rs 609-614); call and put use the same formula. -/
noncomputable def speed (m : GbsmModel) (k t : ℝ) (_ : TypeFlag) : ℝ := Bsm.speed m.s k t m.r m.b m.v

/-- `color` (option_models.rs 616-621); call and put use the same formula. -/
noncomputable def color (m : GbsmModel) (k t : ℝ) (_ : TypeFlag) : ℝ := Bsm.color m.s k t m.r m.b m.v

/-- `vomma` (option_models.rs 623-628); call and put use the same formula. -/
noncomputable def vomma (m : GbsmModel) (k t : ℝ) (_ : TypeFlag) : ℝ := Bsm.vomma m.s k t m.r m.b m.v

/-- `ultima` (option_models.rs 630-635); call and put use the same formula. -/
noncomputable def ultima (m : GbsmModel) (k t : ℝ) (_ : TypeFlag) : ℝ := Bsm.ultima m.s k t m.r m.b m.v

/-- `price` (option_models.rs 531-536) as `f64` computes it when `d1` divides by `v√t = 0`: the quotient is infinite, and
the normal distribution function is 0 or 1, or it is NaN (`none`). Simplified: underlying and strike are positive. -/
noncomputable def priceF (m : GbsmModel) (k t : ℝ) (flag : TypeFlag) : Option ℝ :=
  if m.v * √t = 0 then
    let x := log (m.s / k) + (m.b + 0.5 * m.v ^ 2) * t
    let asset := m.s * exp ((m.b - m.r) * t)
    let cash := k * exp (-m.r * t)
    if 0 < x then match flag with
      | .call => some (asset - cash)
      | .put => some 0
    else if x < 0 then match flag with
      | .call => some 0
      | .put => some (cash - asset)
    else none
  else some (m.price k t flag)

end GbsmModel

/-- `Bachelier::price` (option_models.rs 1150-1155) as `f64` computes it when `d` divides by `v√t = 0`. -/
noncomputable def Bachelier.priceF (m : Bachelier) (k t : ℝ) (flag : TypeFlag) : Option ℝ :=
  if m.v * √t = 0 then
    if 0 < m.f - k then match flag with
      | .call => some (exp (-m.r * t) * (m.f - k))
      | .put => some 0
    else if m.f - k < 0 then match flag with
      | .call => some 0
      | .put => some (exp (-m.r * t) * (k - m.f))
    else none
  else some (m.price k t flag)

/-- `EuropeanVanillaOption` (vanilla.rs 31-40). -/
structure VanillaOption where
  strike : ℝ
  expiry : Date
  typeFlag : TypeFlag

/-- `EuropeanVanillaOption::payoff` (vanilla.rs 49-54). -/
noncomputable def VanillaOption.payoff (o : VanillaOption) (underlying : ℝ) : ℝ :=
  vanillaPayoff o.strike o.typeFlag underlying

/-- `AnalyticOptionPricer` (analytic_option_pricer.rs 16-22); the constructor is `new` (26-28). -/
structure AnalyticPricer (O M : Type) where
  option : O
  model : M

namespace AnalyticPricer

/-- `set_option` (analytic_option_pricer.rs 41-43). -/
def setOption {O M : Type} (p : AnalyticPricer O M) (o : O) : AnalyticPricer O M := { p with option := o }

/-- `set_model` (analytic_option_pricer.rs 46-48). -/
def setModel {O M : Type} (p : AnalyticPricer O M) (m : M) : AnalyticPricer O M := { p with model := m }

/-- The first statements of every method (vanilla.rs 100-102 and the same lines in the other methods). -/
def timeLeft {M : Type} (p : AnalyticPricer VanillaOption M) (today : Date) : ℝ := (yearFraction today p.option.expiry : ℚ)

/-- `price` with one of the five generalised models (vanilla.rs 99-105). -/
noncomputable def price (p : AnalyticPricer VanillaOption GbsmModel) (today : Date) : Option ℝ :=
  p.model.priceF p.option.strike (p.timeLeft today) p.option.typeFlag

/-- The greeks a pricer with one of the five generalised models offers. The methods at vanilla.rs 108-222. -/
inductive Greek
  | delta | gamma | theta | vega | rho | vanna | charm | lambda | zomma | speed | color | vomma | ultima

/-- The thirteen greek methods (vanilla.rs 108-114 `delta`, 117-123 `gamma`, 126-132 `theta`, 135-141 `vega`, 144-150 `rho`,
153-159 `vanna`, 162-168 `charm`, 171-177 `lambda`, 180-186 `zomma`, 189-195 `speed`, 198-204 `color`, 207-213 `vomma`,
216-222 `ultima`). Simplified: the values on the expiry day, where the formulas divide by zero, are not modelled. -/
noncomputable def greek (p : AnalyticPricer VanillaOption GbsmModel) (today : Date) (g : Greek) : ℝ :=
  let k := p.option.strike
  let t := p.timeLeft today
  let f := p.option.typeFlag
  match g with
  | .delta => p.model.delta k t f
  | .gamma => p.model.gamma k t f
  | .theta => p.model.theta k t f
  | .vega => p.model.vega k t f
  | .rho => p.model.rho k t f
  | .vanna => p.model.vanna k t f
  | .charm => p.model.charm k t f
  | .lambda => p.model.lambda k t f
  | .zomma => p.model.zomma k t f
  | .speed => p.model.speed k t f
  | .color => p.model.color k t f
  | .vomma => p.model.vomma k t f
  | .ultima => p.model.ultima k t f

/-- `price` with the Bachelier model (vanilla.rs 290-296). -/
noncomputable def bachelierPrice (p : AnalyticPricer VanillaOption Bachelier) (today : Date) : Option ℝ :=
  p.model.priceF p.option.strike (p.timeLeft today) p.option.typeFlag

/-- `atm_price` with the Bachelier model (vanilla.rs 299-303). -/
noncomputable def bachelierAtmPrice (p : AnalyticPricer VanillaOption Bachelier) (today : Date) : ℝ :=
  p.model.atmPrice (p.timeLeft today)

/-- `atm_vol` with the Bachelier model (vanilla.rs 306-310). -/
noncomputable def bachelierAtmVol (p : AnalyticPricer VanillaOption Bachelier) (price : ℝ) (today : Date) : ℝ :=
  Bachelier.atmVol price (p.timeLeft today)

/-- `iv` with the Bachelier model (vanilla.rs 313-319). -/
noncomputable def bachelierIv (p : AnalyticPricer VanillaOption Bachelier) (price : ℝ) (today : Date) : Option ℝ :=
  p.model.iv price p.option.strike (p.timeLeft today) p.option.typeFlag

/-- `delta` with the Bachelier model (vanilla.rs 322-328). -/
noncomputable def bachelierDelta (p : AnalyticPricer VanillaOption Bachelier) (today : Date) : ℝ :=
  p.model.delta p.option.strike (p.timeLeft today) p.option.typeFlag

/-- `gamma` with the Bachelier model (vanilla.rs 331-337). -/
noncomputable def bachelierGamma (p : AnalyticPricer VanillaOption Bachelier) (today : Date) : ℝ :=
  p.model.gamma p.option.strike (p.timeLeft today) p.option.typeFlag

/-- `theta` with the Bachelier model (vanilla.rs 340-346). -/
noncomputable def bachelierTheta (p : AnalyticPricer VanillaOption Bachelier) (today : Date) : ℝ :=
  p.model.theta p.option.strike (p.timeLeft today) p.option.typeFlag

/-- `vega` with the Bachelier model (vanilla.rs 349-355). -/
noncomputable def bachelierVega (p : AnalyticPricer VanillaOption Bachelier) (today : Date) : ℝ :=
  p.model.vega p.option.strike (p.timeLeft today) p.option.typeFlag

/-- `price` with the Heston model (vanilla.rs 235-241). -/
noncomputable def hestonPrice (p : AnalyticPricer VanillaOption Heston93) (today : Date) : ℝ :=
  p.model.price p.option.strike (p.timeLeft today) p.option.typeFlag

/-- `delta` with the Heston model (vanilla.rs 244-250). -/
noncomputable def hestonDelta (p : AnalyticPricer VanillaOption Heston93) (today : Date) : ℝ :=
  p.model.delta p.option.strike (p.timeLeft today) p.option.typeFlag

/-- `gamma` with the Heston model (vanilla.rs 253-259). -/
noncomputable def hestonGamma (p : AnalyticPricer VanillaOption Heston93) (today : Date) : ℝ :=
  p.model.gamma p.option.strike (p.timeLeft today) p.option.typeFlag

/-- `rho` with the Heston model (vanilla.rs 262-268). -/
noncomputable def hestonRho (p : AnalyticPricer VanillaOption Heston93) (today : Date) : ℝ :=
  p.model.rhoGreek p.option.strike (p.timeLeft today) p.option.typeFlag

end AnalyticPricer

end Verif.Options
