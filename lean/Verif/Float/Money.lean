import Verif.Float.Ops
import Verif.Fx.Model

/-!
# Money and exchange rates on `f64` values with their rounding

Amounts and rates are finite. An operation panics, or gives an amount that is infinite or NaN (`notFinite`), or gives money.
-/

namespace Verif.Float

open Verif.Fx (Currency)

/-- `Money` (crates/RustQuant_instruments/src/fx/money.rs 24-30). -/
structure Money where
  currency : Currency
  amount : F64

/-- `ExchangeRate` (crates/RustQuant_instruments/src/fx/exchange.rs 32-43). -/
structure Rate where
  from_ : Currency
  to_ : Currency
  rate : F64

/-- The outcomes of operations on money. See money.rs 84-143. -/
inductive Paid where
  | panic
  | notFinite
  | ok (m : Money)

/-- An amount of a currency that may not be finite. The results of money.rs 84-143. -/
def Paid.of (c : Currency) : Option F64 → Paid
  | some x => .ok ⟨c, x⟩
  | none => .notFinite

/-- `Add for Money` (money.rs 84-97). -/
def Money.add (a b : Money) : Paid := if a.currency = b.currency then .of a.currency (a.amount.add b.amount) else .panic

/-- `Sub for Money` (money.rs 99-112). -/
def Money.sub (a b : Money) : Paid := if a.currency = b.currency then .of a.currency (a.amount.sub b.amount) else .panic

/-- `ExchangeRate::convert` (exchange.rs 199-208). -/
def Rate.convert (r : Rate) (m : Money) : Paid := if m.currency = r.from_ then .of r.to_ (m.amount.mul r.rate) else .panic

/-- Converting along a chain of rates, one `convert` (exchange.rs 199-208) after the other. -/
def convertAll : List Rate → Money → Paid
  | [], m => .ok m
  | r :: rs, m => match r.convert m with
    | .ok m' => convertAll rs m'
    | p => p

end Verif.Float
