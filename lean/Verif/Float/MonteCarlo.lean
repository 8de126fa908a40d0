import Verif.Float.Simulation
import Verif.Float.BlackScholes
import Verif.Float.Means

/-!
# Monte-Carlo prices on `f64` values

Source: `crates/RustQuant_instruments/src/monte_carlo_pricer.rs`, with the payoffs of European, barrier and binary options. `none` is a panic or a
step whose result is not finite. The platform's `exp` is a parameter, and so is the noise of each path.
-/

namespace Verif.Float.Mc

open Verif.Float.Sim
open Verif.Options (TypeFlag BarrierType BinaryType)

/-- `(-rate * (config.t_n - config.t_0)).exp()` (monte_carlo_pricer.rs 48). -/
def discount (exp : F64 → Option F64) (rate t0 tn : F64) : Option F64 := do exp (← (Bsm.neg rate).mul (← tn.sub t0))

/-- `df * payoffs / n as f64`, where the payoffs are added up from the left (monte_carlo_pricer.rs 46-57). -/
def estimate (exp : F64 → Option F64) (rate t0 tn : F64) (payoffs : List F64) : Option F64 := do
  let n ← ofNat payoffs.length
  let df ← discount exp rate t0 tn
  let total ← payoffs.foldlM F64.add F64.zero
  (← df.mul total).div n

/-- `price_monte_carlo` (monte_carlo_pricer.rs 46-57) on the simulated paths. -/
def price (exp : F64 → Option F64) (payoff : List F64 → Option F64) (rate t0 tn : F64) (paths : List (List F64)) : Option F64 := do
  estimate exp rate t0 tn (← paths.mapM payoff)

/-- The paths of `process.generate(config)` (crates/RustQuant_stochastics/src/simulation.rs 140-159), one for each sequence of noise. -/
def generate (P : Process) (sqrt : F64 → Option F64) (c : Config) (noise : List (ℕ → F64)) : Option (List (List F64)) :=
  noise.mapM fun z => do return (← simulate P sqrt c z).2

/-- `price_monte_carlo` (monte_carlo_pricer.rs 38-58) from the configuration and the noise. -/
def priceMonteCarlo (exp sqrt : F64 → Option F64) (payoff : List F64 → Option F64) (rate : F64) (P : Process) (c : Config)
    (noise : List (ℕ → F64)) : Option F64 := do
  price exp payoff rate c.t0 c.tn (← generate P sqrt c noise)

/-- `path_independent` (monte_carlo_pricer.rs 63-65). -/
def lastPoint (path : List F64) : F64 := path.getLast?.getD F64.zero

/-- `EuropeanVanillaOption::payoff` (crates/RustQuant_instruments/src/options/vanilla.rs 49-54). -/
def vanilla (strike : F64) : TypeFlag → F64 → Option F64
  | .call, s => callPayoff strike s
  | .put, s => putPayoff strike s

/-- European options (monte_carlo_pricer.rs 73). -/
def european (strike : F64) (flag : TypeFlag) (path : List F64) : Option F64 := vanilla strike flag (lastPoint path)

/-- `BarrierOption::payoff` (crates/RustQuant_instruments/src/options/barrier.rs 36-92, monte_carlo_pricer.rs 77): the vanilla payoff is computed
before the barrier is looked at; an empty path panics. -/
def barrier (kind : BarrierType) (level strike : F64) (flag : TypeFlag) (path : List F64) : Option F64 := do
  let terminal ← path.getLast?
  let above := path.any fun x => level.val ≤ x.val
  let below := path.any fun x => x.val ≤ level.val
  let payoff ← vanilla strike flag terminal
  match kind with
  | .upAndOut => return if above then F64.zero else payoff
  | .downAndOut => return if below then F64.zero else payoff
  | .upAndIn => return if above then payoff else F64.zero
  | .downAndIn => return if below then payoff else F64.zero

/-- `BinaryOption::payoff` (crates/RustQuant_instruments/src/options/binary.rs 30-53, monte_carlo_pricer.rs 72). -/
def binary (kind : BinaryType) (strike : F64) (flag : TypeFlag) (path : List F64) : Option F64 :=
  let s := lastPoint path
  let paid := match flag with
    | .call => decide (strike.val < s.val)
    | .put => decide (s.val < strike.val)
  some (if paid then match kind with
    | .cashOrNothing => strike
    | .assetOrNothing => s
  else F64.zero)

/-- Asian options (monte_carlo_pricer.rs 71), whose payoff (crates/RustQuant_instruments/src/options/asian.rs 48-72) is modelled in `Means`. -/
def asian (pow : X64 → X64 → X64) (o : Mean.Asian) (path : List F64) : Option F64 := do
  match ← o.payoff pow path with
  | .fin v => some v
  | _ => none

end Verif.Float.Mc
