import Verif.Float.Binary32
import Verif.Float.Model

/-!
# Portfolios on `f64` and `f32` values with their rounding

`none` is an infinite or NaN result. The hash map of positions is the list of its positions in the order in which it happens to be
iterated; names, instruments and currencies play no role in these functions.
-/

namespace Verif.Float

open Single (F32 toF32)

/-- `Position<I>` (crates/RustQuant_portfolios/src/lib.rs 93-108). -/
structure Position where
  quantity : ℕ
  purchasePrice : F64
  currentPrice : F64

/-- `Position::value` (lib.rs 136-138). -/
def Position.value (p : Position) : Option F64 := do (← ofNat p.quantity).mul p.currentPrice

/-- The cost of a position (lib.rs 142, 177). -/
def Position.cost (p : Position) : Option F64 := do (← ofNat p.quantity).mul p.purchasePrice

/-- `Position::profit` (lib.rs 141-143). -/
def Position.profit (p : Position) : Option F64 := do (← p.value).sub (← p.cost)

/-- `Portfolio::value` (lib.rs 168-170). -/
def portfolioValue (ps : List Position) : Option F64 := do sum (← ps.mapM Position.value)

/-- `Portfolio::cost` (lib.rs 174-179). -/
def portfolioCost (ps : List Position) : Option F64 := do sum (← ps.mapM Position.cost)

/-- `Portfolio::profit` (lib.rs 183-185). -/
def portfolioProfit (ps : List Position) : Option F64 := do sum (← ps.mapM Position.profit)

/-- `position.value() as f32 / current_value as f32` (lib.rs 220). An `f64` out of the range of `f32` becomes infinite, and a finite
number divided by an infinite one is zero. -/
def positionWeight (value total : F64) : Option F32 :=
  match toF32 value.val, toF32 total.val with
  | some v, some t => v.div t
  | some _, none => some F32.zero
  | none, _ => none

/-- `Portfolio::position_weights` (lib.rs 212-224), in the order of the positions, when the value of the portfolio is finite. An
entry is `none` when it is infinite or NaN. -/
def positionWeights (ps : List Position) : Option (List (Option F32)) := do
  let total ← portfolioValue ps
  ps.mapM fun p => do return positionWeight (← p.value) total

end Verif.Float
