import Verif.Float.Extended
import Verif.Options.Payoffs

/-!
# Geometric and harmonic means and Asian options on `f64` values

Sources: `crates/RustQuant_math/src/statistic.rs`, `crates/RustQuant_instruments/src/options/asian.rs`. Infinities and NaN are carried on.
`none` is a panic. The platform's `powf` is a parameter.
-/

namespace Verif.Float.Mean

open X64
open Verif.Options (TypeFlag StrikeFlag AveragingMethod)

/-- `iter().product::<f64>()`: from the left, starting from one. Called at statistic.rs 93, asian.rs 55. -/
def product (xs : List F64) : X64 := xs.foldl (fun acc x => acc.mul (fin x)) (ofQ 1)

/-- `iter().sum::<f64>()`, with infinities. Called at statistic.rs 99, asian.rs 54. -/
def sum (xs : List X64) : X64 := xs.foldl X64.add (fin F64.zero)

/-- `product().powf(1.0 / n as f64)` (statistic.rs 93, asian.rs 55). -/
def root (pow : X64 → X64 → X64) (xs : List F64) : X64 := pow (product xs) ((ofQ 1).div (X64.ofNat xs.length))

/-- `geometric_mean` (statistic.rs 90-94). -/
def geometricMean (pow : X64 → X64 → X64) (xs : List F64) : Option X64 := if xs = [] then none else some (root pow xs)

/-- `harmonic_mean` (statistic.rs 96-100). -/
def harmonicMean (xs : List F64) : Option X64 :=
  if xs = [] then none else some ((X64.ofNat xs.length).div (sum (xs.map fun x => (ofQ 1).div (fin x))))

/-- `AsianOption` (asian.rs 18-28), and the flags of its contract. -/
structure Asian where
  typeFlag : TypeFlag
  strikeFlag : Option StrikeFlag
  averagingMethod : AveragingMethod
  strike : Option F64

/-- The average of a path (asian.rs 53-59). Continuous averaging panics. -/
def average (pow : X64 → X64 → X64) : AveragingMethod → List F64 → Option X64
  | .arithmeticDiscrete, path => some ((sum (path.map fin)).div (X64.ofNat path.length))
  | .geometricDiscrete, path => some (root pow path)
  | _, _ => none

/-- `AsianOption::payoff` (asian.rs 48-72). It panics on an empty path (51), for continuous averaging (58) and without a strike flag (70). -/
def Asian.payoff (o : Asian) (pow : X64 → X64 → X64) (path : List F64) : Option X64 := do
  let terminal ← path.getLast?
  let average ← average pow o.averagingMethod path
  match o.strikeFlag with
  | some .fixed => match o.typeFlag with
    | .call => some ((average.sub (fin (o.strike.getD F64.zero))).max (fin F64.zero))
    | .put => some (((fin (o.strike.getD F64.zero)).sub average).max (fin F64.zero))
  | some .floating => match o.typeFlag with
    | .call => some (((fin terminal).sub average).max (fin F64.zero))
    | .put => some ((average.sub (fin terminal)).max (fin F64.zero))
  | none => none

end Verif.Float.Mean
