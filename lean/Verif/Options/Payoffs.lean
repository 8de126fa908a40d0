import Mathlib.Analysis.SpecialFunctions.Pow.Real
import Mathlib.Analysis.SpecialFunctions.Log.Basic

/-!
# Model of the option payoffs

Source: `crates/RustQuant_instruments/src/options/{vanilla,binary,barrier,asian,lookback,log,power,supershare,
option_flags}.rs`. `f64` is an exact real. A panic is `none`. Payoffs ignore expiry, settlement and exercise style, so
those fields are left out.
-/

namespace Verif.Options

open Classical

/-- option_flags.rs 13-20. -/
inductive TypeFlag | call | put
  deriving DecidableEq

/-- option_flags.rs 66-73. -/
inductive StrikeFlag | fixed | floating
  deriving DecidableEq

/-- option_flags.rs 87-100. -/
inductive AveragingMethod | arithmeticDiscrete | arithmeticContinuous | geometricDiscrete | geometricContinuous
  deriving DecidableEq

/-- option_flags.rs 103-115. -/
inductive BarrierType | upAndOut | downAndOut | upAndIn | downAndIn
  deriving DecidableEq

/-- option_flags.rs 119-125. -/
inductive BinaryType | assetOrNothing | cashOrNothing
  deriving DecidableEq

/-- vanilla.rs 49-54: `EuropeanVanillaOption::payoff`. -/
noncomputable def vanillaPayoff (strike : ℝ) (flag : TypeFlag) (underlying : ℝ) : ℝ :=
  match flag with
  | .call => max (underlying - strike) 0
  | .put => max (strike - underlying) 0

/-- binary.rs 30-53: `BinaryOption::payoff`. -/
noncomputable def binaryPayoff (strike : ℝ) (kind : BinaryType) (flag : TypeFlag) (underlying : ℝ) : ℝ :=
  match kind with
  | .cashOrNothing => match flag with
    | .call => if underlying > strike then strike else 0
    | .put => if underlying < strike then strike else 0
  | .assetOrNothing => match flag with
    | .call => if underlying > strike then underlying else 0
    | .put => if underlying < strike then underlying else 0

/-- barrier.rs 14-31. -/
structure BarrierOption where
  typeFlag : TypeFlag
  barrierType : BarrierType
  barrier : ℝ
  strike : ℝ
  rebate : Option ℝ

/-- barrier.rs 36-92: `BarrierOption::payoff`; `s.last().unwrap()` panics on an empty path. -/
noncomputable def barrierPayoff (o : BarrierOption) (s : List ℝ) : Option ℝ := do
  let terminal ← s.getLast?
  let above := s.any fun x => decide (x ≥ o.barrier)
  let below := s.any fun x => decide (x ≤ o.barrier)
  match o.typeFlag with
  | .call =>
    let payoff := max (terminal - o.strike) 0
    match o.barrierType with
    | .upAndOut => some (if above then 0 else payoff)
    | .downAndOut => some (if below then 0 else payoff)
    | .upAndIn => some (if above then payoff else 0)
    | .downAndIn => some (if below then payoff else 0)
  | .put =>
    let payoff := max (o.strike - terminal) 0
    match o.barrierType with
    | .upAndOut => some (if above then 0 else payoff)
    | .downAndOut => some (if below then 0 else payoff)
    | .upAndIn => some (if above then payoff else 0)
    | .downAndIn => some (if below then payoff else 0)

/-- asian.rs 17-28, and the `strike_flag` of the contract. -/
structure AsianOption where
  typeFlag : TypeFlag
  strikeFlag : Option StrikeFlag
  averagingMethod : AveragingMethod
  strike : Option ℝ

/-- asian.rs 53-59: the average; continuous averaging panics. -/
noncomputable def asianAverage (m : AveragingMethod) (path : List ℝ) : Option ℝ :=
  match m with
  | .arithmeticDiscrete => some (path.sum / path.length)
  | .geometricDiscrete => some (path.prod ^ (1 / (path.length : ℝ)))
  | _ => none

/-- asian.rs 48-72: `AsianOption::payoff`. `underlying[n - 1]` (51) panics on an empty path; continuous averaging and a
missing strike flag panic; a missing fixed strike is `0`. -/
noncomputable def asianPayoff (o : AsianOption) (path : List ℝ) : Option ℝ :=
  match (if path.length = 0 then none else path[path.length - 1]?), asianAverage o.averagingMethod path with
  | some terminal, some average =>
    match o.strikeFlag with
    | some .fixed => match o.typeFlag with
      | .call => some (max (average - o.strike.getD 0) 0)
      | .put => some (max (o.strike.getD 0 - average) 0)
    | some .floating => match o.typeFlag with
      | .call => some (max (terminal - average) 0)
      | .put => some (max (average - terminal) 0)
    | none => none
  | _, _ => none

/-- `Iterator::max_by`: the last of the largest elements. Called at lookback.rs 36. -/
noncomputable def maxBy : List ℝ → Option ℝ
  | [] => none
  | x :: l => some (l.foldl (fun m y => if m ≤ y then y else m) x)

/-- `Iterator::min_by`: the first of the smallest elements. Called at lookback.rs 37. -/
noncomputable def minBy : List ℝ → Option ℝ
  | [] => none
  | x :: l => some (l.foldl (fun m y => if y < m then y else m) x)

/-- lookback.rs 15-25, and the `strike_flag` of the contract. -/
structure LookbackOption where
  typeFlag : TypeFlag
  strikeFlag : Option StrikeFlag
  strike : Option ℝ

/-- lookback.rs 30-53: `LookbackOption::payoff`. An empty path panics, and so does a fixed strike that is not given. -/
noncomputable def lookbackPayoff (o : LookbackOption) (s : List ℝ) : Option ℝ := do
  let terminal ← s.getLast?
  let sMax := (maxBy s).getD terminal
  let sMin := (minBy s).getD terminal
  match o.strikeFlag with
  | some .fixed => match o.typeFlag with
    | .call => do let k ← o.strike; some (max (sMax - k) 0)
    | .put => do let k ← o.strike; some (max (k - sMin) 0)
  | some .floating => match o.typeFlag with
    | .call => some (max (terminal - sMin) 0)
    | .put => some (max (sMax - terminal) 0)
  | none => match o.typeFlag with
    | .call => some (max (terminal - sMin) 0)
    | .put => some (max (sMax - terminal) 0)

/-- log.rs 46-48: `LogMoneynessContract::payoff`; `none` when the logarithm is not finite. -/
noncomputable def logMoneynessPayoff (strike underlying : ℝ) : Option ℝ :=
  if underlying / strike ≤ 0 then none else some (Real.log (underlying / strike))

/-- log.rs 54-56: `LogUnderlyingContract::payoff`; `none` when the logarithm is not finite. -/
noncomputable def logUnderlyingPayoff (_strike underlying : ℝ) : Option ℝ :=
  if underlying ≤ 0 then none else some (Real.log underlying)

/-- log.rs 62-64: `LogOption::payoff`. `f64::max` drops a NaN, so a nonpositive ratio pays `0`. -/
noncomputable def logOptionPayoff (strike underlying : ℝ) : ℝ :=
  if underlying / strike ≤ 0 then 0 else max (Real.log (underlying / strike)) 0

/-- power.rs 72-74: `PowerContract::payoff` (for a positive ratio). -/
noncomputable def powerContractPayoff (strike power underlying : ℝ) : ℝ := (underlying / strike) ^ power

/-- power.rs 80-85: `PowerOption::payoff` (for a positive underlying). -/
noncomputable def powerPayoff (strike power : ℝ) (flag : TypeFlag) (underlying : ℝ) : ℝ :=
  match flag with
  | .call => max (underlying ^ power - strike) 0
  | .put => max (strike - underlying ^ power) 0

/-- power.rs 91-98: `CappedPowerOption::payoff` (for a positive underlying). -/
noncomputable def cappedPowerPayoff (strike power cap : ℝ) (flag : TypeFlag) (underlying : ℝ) : ℝ :=
  let payoff := match flag with
    | .call => max (underlying ^ power - strike) 0
    | .put => max (strike - underlying ^ power) 0
  min payoff cap

/-- power.rs 104-111: `PoweredOption::payoff` (for a positive power). -/
noncomputable def poweredPayoff (strike power : ℝ) (flag : TypeFlag) (underlying : ℝ) : ℝ :=
  let payoff := match flag with
    | .call => max (underlying - strike) 0
    | .put => max (strike - underlying) 0
  payoff ^ power

/-- supershare.rs 29-34: `SupershareOption::payoff`. -/
noncomputable def supersharePayoff (strike1 strike2 underlying : ℝ) : ℝ :=
  if strike1 ≤ underlying ∧ underlying ≤ strike2 then underlying / strike1 else 0

/-- option_flags.rs 24-49. Dates are day numbers. -/
inductive ExerciseFlag
  | european (expiry : ℤ)
  | american (start stop : ℤ)
  | bermudan (dates : List ℤ)
  deriving DecidableEq

/-- option_flags.rs 53-59: `ExerciseFlag::expiry`; a Bermudan flag without dates panics. -/
def ExerciseFlag.expiry : ExerciseFlag → Option ℤ
  | .european e => some e
  | .american _ e => some e
  | .bermudan ds => if ds.length = 0 then none else ds[ds.length - 1]?

end Verif.Options
