import Verif.Float.MonteCarlo

/-!
# Payoffs, simulated paths and Monte-Carlo prices with infinities and NaN

Sources: `crates/RustQuant_instruments/src/monte_carlo_pricer.rs` and `options/*.rs` beside it, `crates/RustQuant_stochastics/src/simulation.rs`.
`none` is a panic. The platform's `exp`, `ln` and `powf` are parameters.
-/

namespace Verif.Float.Nan

open X64
open Verif.Options (TypeFlag BarrierType BinaryType StrikeFlag AveragingMethod)

/-- The zero `0.0` of the payoffs. Used at crates/RustQuant_instruments/src/options/vanilla.rs 51. -/
def zero : X64 := fin F64.zero

/-- `x <= y`: false when either is NaN. Used at crates/RustQuant_instruments/src/options/barrier.rs 44. -/
def le : X64 → X64 → Bool
  | fin a, fin b => decide (a.val ≤ b.val)
  | nan, _ => false
  | _, nan => false
  | inf s, inf t => s || !t
  | inf s, fin _ => s
  | fin _, inf t => !t

/-- `x.min(y)` (`f64::min`): NaN only when both are. Used at crates/RustQuant_instruments/src/options/power.rs 97. -/
def min (x y : X64) : X64 :=
  match x, y with
  | nan, y => y
  | x, nan => x
  | x, y => if y.lt x then y else x

/-- `EuropeanVanillaOption::payoff` (crates/RustQuant_instruments/src/options/vanilla.rs 49-54). -/
def vanilla (strike : X64) : TypeFlag → X64 → X64
  | .call, s => (s.sub strike).max zero
  | .put, s => (strike.sub s).max zero

/-- `BinaryOption::payoff` (crates/RustQuant_instruments/src/options/binary.rs 30-53). -/
def binary (strike : X64) (kind : BinaryType) (flag : TypeFlag) (s : X64) : X64 :=
  let paid := match flag with
    | .call => strike.lt s
    | .put => s.lt strike
  if paid then match kind with
    | .cashOrNothing => strike
    | .assetOrNothing => s
  else zero

/-- `PowerContract::payoff` (crates/RustQuant_instruments/src/options/power.rs 72-74). -/
def powerContract (pow : X64 → X64 → X64) (strike power s : X64) : X64 := pow (s.div strike) power

/-- `PowerOption::payoff` (power.rs 80-85). -/
def power (pow : X64 → X64 → X64) (strike power : X64) (flag : TypeFlag) (s : X64) : X64 := vanilla strike flag (pow s power)

/-- `CappedPowerOption::payoff` (power.rs 91-98). -/
def cappedPower (pow : X64 → X64 → X64) (strike p cap : X64) (flag : TypeFlag) (s : X64) : X64 := min (power pow strike p flag s) cap

/-- `PoweredOption::payoff` (power.rs 104-111). -/
def powered (pow : X64 → X64 → X64) (strike p : X64) (flag : TypeFlag) (s : X64) : X64 := pow (vanilla strike flag s) p

/-- `SupershareOption::payoff` (crates/RustQuant_instruments/src/options/supershare.rs 29-34). -/
def supershare (strike1 strike2 s : X64) : X64 := if le strike1 s && le s strike2 then s.div strike1 else zero

/-- `LogMoneynessContract::payoff` (crates/RustQuant_instruments/src/options/log.rs 46-48). -/
def logMoneyness (ln : X64 → X64) (strike s : X64) : X64 := ln (s.div strike)

/-- `LogUnderlyingContract::payoff` (log.rs 54-56). -/
def logUnderlying (ln : X64 → X64) (s : X64) : X64 := ln s

/-- `LogOption::payoff` (log.rs 62-64). -/
def logOption (ln : X64 → X64) (strike s : X64) : X64 := (ln (s.div strike)).max zero

/-- `BarrierOption::payoff` (crates/RustQuant_instruments/src/options/barrier.rs 36-92); an empty path panics. -/
def barrier (kind : BarrierType) (level strike : X64) (flag : TypeFlag) (path : List X64) : Option X64 := do
  let terminal ← path.getLast?
  let above := path.any fun x => le level x
  let below := path.any fun x => le x level
  let payoff := vanilla strike flag terminal
  match kind with
  | .upAndOut => return if above then zero else payoff
  | .downAndOut => return if below then zero else payoff
  | .upAndIn => return if above then payoff else zero
  | .downAndIn => return if below then payoff else zero

/-- `iter().sum::<f64>()`. Called at crates/RustQuant_instruments/src/options/asian.rs 54. -/
def sum (xs : List X64) : X64 := xs.foldl X64.add zero

/-- The average of a path (asian.rs 53-59). Continuous averaging panics. -/
def average (pow : X64 → X64 → X64) : AveragingMethod → List X64 → Option X64
  | .arithmeticDiscrete, path => some ((sum path).div (X64.ofNat path.length))
  | .geometricDiscrete, path => some (pow (path.foldl X64.mul (ofQ 1)) ((ofQ 1).div (X64.ofNat path.length)))
  | _, _ => none

/-- `AsianOption::payoff` (asian.rs 48-72); it panics on an empty path and without a strike flag. -/
def asian (pow : X64 → X64 → X64) (method : AveragingMethod) (strike : Option X64) (strikeFlag : Option StrikeFlag) (flag : TypeFlag)
    (path : List X64) : Option X64 := do
  let terminal ← path.getLast?
  let average ← average pow method path
  match strikeFlag with
  | some .fixed => return vanilla (strike.getD zero) flag average
  | some .floating => match flag with
    | .call => return (terminal.sub average).max zero
    | .put => return (average.sub terminal).max zero
  | none => none

/-- `path_independent` (monte_carlo_pricer.rs 63-65). -/
def lastPoint (path : List X64) : X64 := path.getLast?.getD zero

/-- The end of `price_monte_carlo` (monte_carlo_pricer.rs 46-57). -/
def estimate (exp : X64 → X64) (rate t0 tn : X64) (payoffs : List X64) : X64 :=
  ((exp (rate.neg.mul (tn.sub t0))).mul (sum payoffs)).div (X64.ofNat payoffs.length)

/-- `price_monte_carlo` (monte_carlo_pricer.rs 44-57) on the simulated paths. -/
def price (exp : X64 → X64) (payoff : List X64 → Option X64) (rate t0 tn : X64) (paths : List (List X64)) : Option X64 := do
  return estimate exp rate t0 tn (← paths.mapM payoff)

/-- European options (monte_carlo_pricer.rs 73). -/
def european (strike : X64) (flag : TypeFlag) (path : List X64) : Option X64 := some (vanilla strike flag (lastPoint path))

/-- A process on values that may be infinite or NaN (crates/RustQuant_stochastics/src/process.rs 209-214); times are finite. -/
structure Process where
  drift : X64 → F64 → Option X64
  diffusion : X64 → F64 → Option X64

/-- One Euler-Maruyama step without jumps (crates/RustQuant_stochastics/src/simulation.rs 59-69). -/
def emStep (P : Process) (dt scale time z : F64) (x : X64) : Option X64 := do
  let q := x.add ((← P.drift x time).mul (fin dt))
  return (q.add (((← P.diffusion x time).mul (fin scale)).mul (fin z))).add zero

/-- `for t in 0..n_steps { path.push(..) }` (simulation.rs 58-70). -/
def runPath (P : Process) (dt scale : F64) (times : List F64) (noise : ℕ → F64) (x0 : X64) : ℕ → Option (List X64)
  | 0 => some [x0]
  | n + 1 => do
    let p ← runPath P dt scale times noise x0 n
    let y ← emStep P dt scale (← times[n]?) (noise n) (← p[n]?)
    return p ++ [y]

/-- `GeometricBrownianMotion` (crates/RustQuant_stochastics/src/geometric_brownian_motion.rs 45-54); panics for a negative `sigma`. -/
def gbm (mu sigma : F64 → F64) : Process :=
  ⟨fun x t => some ((fin (mu t)).mul x), fun x t => if (sigma t).val < 0 then none else some ((fin (sigma t)).mul x)⟩

end Verif.Float.Nan
