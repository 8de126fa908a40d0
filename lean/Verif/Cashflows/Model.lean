import Mathlib.Data.Real.Basic
import Verif.Time.Order

/-!
# Model of `RustQuant_cashflows`: `Cashflow`, `Leg`, `SimpleQuote`

`f64` is `ℝ` (no rounding, no NaN). `none` is a panic.
-/

namespace Verif.Cashflows

open Verif.Time

/-- `Cashflow` (crates/RustQuant_cashflows/src/cashflow.rs 18-26). -/
structure Cashflow where
  amount : ℝ
  date : Date

/-- `Cashflow::npv` (cashflow.rs 49-51): the argument is the discount factor, named `discount_rate` in the code. -/
noncomputable def Cashflow.npv (c : Cashflow) (df : ℝ) : ℝ := c.amount * df

/-- `Add for Cashflow` (cashflow.rs 54-65), also `AddAssign` (67-73); the assertion that the dates match. -/
noncomputable def Cashflow.add (a b : Cashflow) : Option Cashflow :=
  if a.date = b.date then some ⟨a.amount + b.amount, a.date⟩ else none

/-- `Sub for Cashflow` (cashflow.rs 75-86), also `SubAssign` (88-93). -/
noncomputable def Cashflow.sub (a b : Cashflow) : Option Cashflow :=
  if a.date = b.date then some ⟨a.amount - b.amount, a.date⟩ else none

/-- `Mul<f64>` (cashflow.rs 95-104), also `MulAssign` (106-110). -/
noncomputable def Cashflow.mul (a : Cashflow) (k : ℝ) : Cashflow := ⟨a.amount * k, a.date⟩

/-- `Div<f64>` (cashflow.rs 112-121), also `DivAssign` (123-127); division by zero is not meaningful in the model. -/
noncomputable def Cashflow.div (a : Cashflow) (k : ℝ) : Cashflow := ⟨a.amount / k, a.date⟩

/-- `Neg` for values and references (cashflow.rs 129-160). -/
noncomputable def Cashflow.neg (a : Cashflow) : Cashflow := ⟨-a.amount, a.date⟩

/-- `Leg` (crates/RustQuant_cashflows/src/legs.rs 21-24): a vector of cashflows, created by `new` (32-34). -/
abbrev Leg := List Cashflow

/-- `Leg::npv` (legs.rs 42-44). -/
noncomputable def Leg.npv (l : Leg) (df : ℝ) : ℝ := (l.map fun c => c.npv df).sum

/-- `Leg::add_cashflow` (legs.rs 47-49): push at the end. -/
def Leg.addCashflow (l : Leg) (c : Cashflow) : Leg := l ++ [c]

/-- `Leg::start_date` (legs.rs 57-59): minimum of the dates. -/
def Leg.startDate : Leg → Option Date
  | [] => none
  | c :: l => some (l.foldl (fun m c => if c.date < m then c.date else m) c.date)

/-- `Leg::end_date` (legs.rs 62-64): maximum of the dates. -/
def Leg.endDate : Leg → Option Date
  | [] => none
  | c :: l => some (l.foldl (fun m c => if m ≤ c.date then c.date else m) c.date)

/-- `Leg::is_active` (legs.rs 67-72). -/
def Leg.isActive (l : Leg) (d : Date) : Bool :=
  match Leg.startDate l, Leg.endDate l with
  | some s, some e => decide (s ≤ d) && decide (d ≤ e)
  | _, _ => false

/-! ## `SimpleQuote` -/

/-- `SimpleQuote` (crates/RustQuant_cashflows/src/quotes.rs 19-21). -/
abbrev Quote := Option ℝ

/-- `SimpleQuote::set_value` (quotes.rs 50-64): new state and returned difference. -/
noncomputable def Quote.setValue (q : Quote) (value : Option ℝ) : Quote × ℝ :=
  let diff := match q, value with
    | some old, some new => new - old
    | none, some new => new
    | _, _ => 0
  (if diff ≠ 0 then value else q, diff)

/-- `SimpleQuote::reset` (quotes.rs 82-84). -/
def Quote.reset (_ : Quote) : Quote := none

/-- `Quote::is_valid` (quotes.rs 92-94). -/
def Quote.isValid (q : Quote) : Bool := q.isSome

/-- Calls on a quote. The mutating methods of quotes.rs 50-84. -/
inductive QuoteOp
  | set (v : Option ℝ)
  | reset

/-- One call: new state and returned difference (`reset` returns nothing; 0 here). See quotes.rs 50-84. -/
noncomputable def QuoteOp.apply (q : Quote) : QuoteOp → Quote × ℝ
  | .set v => q.setValue v
  | .reset => (q.reset, 0)

/-- A history of calls: final state and the list of returned differences.
The client of quotes.rs 50-84; not itself part of the code. -/
noncomputable def runQuote (q : Quote) : List QuoteOp → Quote × List ℝ
  | [] => (q, [])
  | op :: ops =>
    let (q', d) := op.apply q
    let (q'', ds) := runQuote q' ops
    (q'', d :: ds)

end Verif.Cashflows
