import Mathlib.Data.Real.Basic

/-!
# Model of `RustQuant_portfolios`

`f64` is `ℝ` (and so is `f32`, used for the weights); `none` is a panic. The instrument and the currency of a position
play no role in any of the modelled functions and are kept abstract.
-/

namespace Verif.Portfolios

/-- `Position<I>` (crates/RustQuant_portfolios/src/lib.rs 92-108), without the optional `currency` label, which no function reads. -/
structure Position (I : Type) where
  instrument : I
  quantity : ℕ
  purchasePrice : ℝ
  currentPrice : ℝ

/-- `Position::value` (lib.rs 136-138). -/
noncomputable def Position.value {I} (p : Position I) : ℝ := (p.quantity : ℝ) * p.currentPrice

/-- `Position::profit` (lib.rs 141-143). -/
noncomputable def Position.profit {I} (p : Position I) : ℝ := p.value - (p.quantity : ℝ) * p.purchasePrice

/-- `Position::update_price` (lib.rs 146-148). -/
def Position.updatePrice {I} (p : Position I) (x : ℝ) : Position I := { p with currentPrice := x }

/-- `Position::update_quantity` (lib.rs 151-153). -/
def Position.updateQuantity {I} (p : Position I) (q : ℕ) : Position I := { p with quantity := q }

/-- `Portfolio<I>` (lib.rs 86-90): the hash map's entries in some iteration order; keys are distinct (`WF`). -/
abbrev Portfolio (I : Type) := List (String × Position I)

/-- A hash map has at most one entry per key.
The invariant of the library type at crates/RustQuant_portfolios/src/lib.rs 89. -/
def Portfolio.WF {I} (p : Portfolio I) : Prop := (p.map (·.1)).Nodup

/-- `HashMap::get`. Of the map at crates/RustQuant_portfolios/src/lib.rs 89. -/
def Portfolio.get? {I} (p : Portfolio I) (name : String) : Option (Position I) :=
  (p.find? fun e => e.1 = name).map (·.2)

/-- `get_mut(name)` followed by an update in place; `none` when the key is absent.
See crates/RustQuant_portfolios/src/lib.rs 194 and 206. -/
def Portfolio.modify {I} (p : Portfolio I) (name : String) (f : Position I → Position I) : Option (Portfolio I) :=
  if name ∈ p.map (·.1) then some (p.map fun e => if e.1 = name then (e.1, f e.2) else e) else none

/-- `Portfolio::value` (lib.rs 168-170). -/
noncomputable def Portfolio.value {I} (p : Portfolio I) : ℝ := (p.map fun e => e.2.value).sum

/-- `Portfolio::cost` (lib.rs 174-179). -/
noncomputable def Portfolio.cost {I} (p : Portfolio I) : ℝ :=
  (p.map fun e => (e.2.quantity : ℝ) * e.2.purchasePrice).sum

/-- `Portfolio::profit` (lib.rs 183-185). -/
noncomputable def Portfolio.profit {I} (p : Portfolio I) : ℝ := (p.map fun e => e.2.profit).sum

/-- `Portfolio::update_price` (lib.rs 192-197). -/
def Portfolio.updatePrice {I} (p : Portfolio I) (name : String) (x : ℝ) : Option (Portfolio I) :=
  p.modify name fun q => q.updatePrice x

/-- `Portfolio::update_quantity` (lib.rs 204-209). -/
def Portfolio.updateQuantity {I} (p : Portfolio I) (name : String) (q : ℕ) : Option (Portfolio I) :=
  p.modify name fun r => r.updateQuantity q

/-- `Portfolio::position_weights` (lib.rs 212-224). -/
noncomputable def Portfolio.weights {I} (p : Portfolio I) : List (String × ℝ) :=
  p.map fun e => (e.1, e.2.value / p.value)

end Verif.Portfolios
