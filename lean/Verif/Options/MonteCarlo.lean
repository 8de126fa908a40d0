import Verif.Options.Payoffs
import Verif.Stochastics.Simulation

/-!
# Model of the Monte-Carlo pricer

Source: `crates/RustQuant_instruments/src/monte_carlo_pricer.rs`. `none` is a panic or a value that is not a finite
number. The payoffs are those of `Payoffs.lean`, here with the special values of `f64::powf` and of a division by zero.
-/

namespace Verif.Options

open Real Classical Stochastics

/-- The outcome of `f64::powf` on finite arguments. Called at power.rs 73, 82 and 110, asian.rs 55. -/
inductive FloatPow
  | finite (y : ℝ)
  | infinite
  | nan

/-- `f64::powf` (IEEE 754). Simplified: zero is positive. Called at power.rs 73, 82 and 110, asian.rs 55. -/
noncomputable def powf (x p : ℝ) : FloatPow :=
  if 0 < x then .finite (x ^ p)
  else if x = 0 then (if 0 ≤ p then .finite (x ^ p) else .infinite)
  else if ∃ n : ℤ, p = n then .finite (x ^ p) else .nan

/-- `(powf - strike).max(0.0)` and `(strike - powf).max(0.0)` (power.rs 81-84, 92-95): `f64::max` drops a NaN. `none` is
infinity. -/
noncomputable def powGain (flag : TypeFlag) (strike : ℝ) : FloatPow → Option ℝ
  | .finite y => some (vanillaPayoff strike flag y)
  | .infinite => match flag with
    | .call => none
    | .put => some 0
  | .nan => some 0

/-- `PowerContract::payoff` (power.rs 72-74). Simplified: a zero strike is `none`. -/
noncomputable def powerContractPayoffF (strike power s : ℝ) : Option ℝ :=
  if strike = 0 then none else
    match powf (s / strike) power with
    | .finite y => some y
    | _ => none

/-- `PowerOption::payoff` (power.rs 80-85). -/
noncomputable def powerPayoffF (strike power : ℝ) (flag : TypeFlag) (s : ℝ) : Option ℝ := powGain flag strike (powf s power)

/-- `CappedPowerOption::payoff` (power.rs 91-98); an infinite payoff is capped too. -/
noncomputable def cappedPowerPayoffF (strike power cap : ℝ) (flag : TypeFlag) (s : ℝ) : Option ℝ :=
  match powGain flag strike (powf s power) with
  | some y => some (min y cap)
  | none => some cap

/-- `PoweredOption::payoff` (power.rs 104-111). -/
noncomputable def poweredPayoffF (strike power : ℝ) (flag : TypeFlag) (s : ℝ) : Option ℝ :=
  match powf (vanillaPayoff strike flag s) power with
  | .finite y => some y
  | _ => none

/-- `AsianOption::payoff` (asian.rs 48-72), where the geometric average of a negative product is NaN and dropped by
`f64::max` (63-68). -/
noncomputable def asianPayoffF (o : AsianOption) (path : List ℝ) : Option ℝ :=
  if o.averagingMethod = .geometricDiscrete ∧ path ≠ [] ∧ o.strikeFlag ≠ none ∧
      powf path.prod (1 / path.length) = .nan then some 0
  else asianPayoff o path

/-- `SupershareOption::payoff` (supershare.rs 29-34) with the division by zero. -/
noncomputable def supersharePayoffF (strike1 strike2 s : ℝ) : Option ℝ :=
  if strike1 = 0 ∧ strike1 ≤ s ∧ s ≤ strike2 then none else some (supersharePayoff strike1 strike2 s)

/-- `LogOption::payoff` (log.rs 62-64). Simplified: a zero strike is `none`. -/
noncomputable def logOptionPayoffF (strike s : ℝ) : Option ℝ := if strike = 0 then none else some (logOptionPayoff strike s)

/-- `path_independent` (monte_carlo_pricer.rs 63-65). -/
noncomputable def pathIndependent (path : List ℝ) : ℝ := path.getLast?.getD 0

/-- `path_dependent` (monte_carlo_pricer.rs 67-69). -/
def pathDependent (path : List ℝ) : List ℝ := path

/-- The body of `price_monte_carlo` (monte_carlo_pricer.rs 38-58), for the payoff method and the choice of underlying
of an instrument and the outcome of `process.generate(config)`. With no path `0 / 0` is NaN. -/
noncomputable def priceMonteCarlo {U : Type} (payoff : U → Option ℝ) (underlying : List ℝ → U)
    (out : Option Trajectories) (c : Config) (rate : ℝ) : Option ℝ :=
  out.bind fun T =>
    let n := T.paths.length
    let df := exp (-rate * (c.tn - c.t0))
    (T.paths.foldl (fun acc path => acc.bind fun a => (payoff (underlying path)).map fun p => a + p) (some 0)).bind
      fun payoffs => if n = 0 then none else some (df * payoffs / n)

/-- The instruments with a Monte-Carlo price (monte_carlo_pricer.rs 71-82), with the fields their payoffs use. -/
inductive McInstrument
  | asian (o : AsianOption)
  | binary (strike : ℝ) (kind : BinaryType) (flag : TypeFlag)
  | vanilla (strike : ℝ) (flag : TypeFlag)
  | powerContract (strike power : ℝ)
  | power (strike power : ℝ) (flag : TypeFlag)
  | supershare (strike1 strike2 : ℝ)
  | barrier (o : BarrierOption)
  | cappedPower (strike power cap : ℝ) (flag : TypeFlag)
  | powered (strike power : ℝ) (flag : TypeFlag)
  | logMoneyness (strike : ℝ)
  | logUnderlying (strike : ℝ)
  | logOption (strike : ℝ)

/-- `price_monte_carlo` of each instrument (monte_carlo_pricer.rs 71-82). -/
noncomputable def McInstrument.price (ins : McInstrument) (out : Option Trajectories) (c : Config) (rate : ℝ) :
    Option ℝ :=
  match ins with
  | .asian o => priceMonteCarlo (asianPayoffF o) pathDependent out c rate
  | .binary k b f => priceMonteCarlo (fun s => some (binaryPayoff k b f s)) pathIndependent out c rate
  | .vanilla k f => priceMonteCarlo (fun s => some (vanillaPayoff k f s)) pathIndependent out c rate
  | .powerContract k p => priceMonteCarlo (powerContractPayoffF k p) pathIndependent out c rate
  | .power k p f => priceMonteCarlo (powerPayoffF k p f) pathIndependent out c rate
  | .supershare a b => priceMonteCarlo (supersharePayoffF a b) pathIndependent out c rate
  | .barrier o => priceMonteCarlo (barrierPayoff o) pathDependent out c rate
  | .cappedPower k p cap f => priceMonteCarlo (cappedPowerPayoffF k p cap f) pathIndependent out c rate
  | .powered k p f => priceMonteCarlo (poweredPayoffF k p f) pathIndependent out c rate
  | .logMoneyness k => priceMonteCarlo (logMoneynessPayoff k) pathIndependent out c rate
  | .logUnderlying k => priceMonteCarlo (logUnderlyingPayoff k) pathIndependent out c rate
  | .logOption k => priceMonteCarlo (logOptionPayoffF k) pathIndependent out c rate

end Verif.Options
