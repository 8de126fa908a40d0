import Mathlib.Data.Real.Basic

/-!
# Model of `RustQuant_instruments::fx` and of `ISO_4217`

`f64` is `ℝ`; `none` is a panic unless stated otherwise.
-/

namespace Verif.Fx

/-- `ISO_4217` (crates/RustQuant_iso/src/iso_4217.rs 27-34); derived equality. -/
structure ISO4217 where
  alphabetic : String
  numeric : String
deriving DecidableEq

/-- `Currency` (crates/RustQuant_instruments/src/fx/currency.rs 26-38); derived equality and hash over all fields. -/
structure Currency where
  name : String
  symbol : String
  code : ISO4217
  minor : ℕ
  fractions : ℕ
deriving DecidableEq

/-- `CurrencyPair` (currency.rs 41-48). -/
structure CurrencyPair where
  base : Currency
  quote : Currency
deriving DecidableEq

/-- `Money` (crates/RustQuant_instruments/src/fx/money.rs 24-30). -/
structure Money where
  currency : Currency
  amount : ℝ

namespace Money

open Classical in
/-- `PartialEq for Money` (money.rs 38-42): ISO code and amount only. -/
noncomputable def eq (a b : Money) : Bool := decide (a.currency.code = b.currency.code) && decide (a.amount = b.amount)

open Classical in
/-- `PartialOrd for Money` (money.rs 44-52): `none` is "not comparable". -/
noncomputable def partialCmp (a b : Money) : Option Ordering :=
  if a.currency = b.currency then
    some (if a.amount < b.amount then .lt else if a.amount = b.amount then .eq else .gt)
  else none

/-- `Add for Money` (money.rs 84-97). -/
noncomputable def add (a b : Money) : Option Money :=
  if a.currency = b.currency then some ⟨a.currency, a.amount + b.amount⟩ else none

/-- `Sub for Money` (money.rs 99-112). -/
noncomputable def sub (a b : Money) : Option Money :=
  if a.currency = b.currency then some ⟨a.currency, a.amount - b.amount⟩ else none

/-- `Mul for Money` (money.rs 114-127). -/
noncomputable def mul (a b : Money) : Option Money :=
  if a.currency = b.currency then some ⟨a.currency, a.amount * b.amount⟩ else none

/-- `Div for Money` (money.rs 129-142). -/
noncomputable def div (a b : Money) : Option Money :=
  if a.currency = b.currency then some ⟨a.currency, a.amount / b.amount⟩ else none

end Money

/-- `ExchangeRate` (crates/RustQuant_instruments/src/fx/exchange.rs 32-43). -/
structure ExchangeRate where
  from_ : Currency
  to_ : Currency
  rate : ℝ

/-- `ExchangeRate::convert` (exchange.rs 199-208). -/
noncomputable def ExchangeRate.convert (r : ExchangeRate) (m : Money) : Option Money :=
  if m.currency = r.from_ then some ⟨r.to_, m.amount * r.rate⟩ else none

/-- `Exchange` (exchange.rs 22-29): the hash map of rates, as a finite list of entries without duplicate keys. -/
abbrev Exchange := List (CurrencyPair × ExchangeRate)

/-- `HashMap::get`. Called at exchange.rs 123. -/
def Exchange.lookup (e : Exchange) (k : CurrencyPair) : Option ExchangeRate := (e.find? (fun x => x.1 = k)).map (·.2)

/-- `HashMap::insert`: replaces the entry with an equal key. Called at exchange.rs 88. -/
def Exchange.insert (e : Exchange) (k : CurrencyPair) (r : ExchangeRate) : Exchange :=
  (k, r) :: e.filter (fun x => x.1 ≠ k)

/-- `Exchange::new` (exchange.rs 59-64). -/
def Exchange.new : Exchange := []

/-- `Exchange::add_rate` (exchange.rs 82-89). -/
def Exchange.addRate (e : Exchange) (r : ExchangeRate) : Exchange := e.insert ⟨r.from_, r.to_⟩ r

/-- `Exchange::get_rate` (exchange.rs 113-124). -/
def Exchange.getRate (e : Exchange) (a b : Currency) : Option ExchangeRate := e.lookup ⟨a, b⟩

/-- `Exchange::convert` (exchange.rs 148-158). -/
noncomputable def Exchange.convert (e : Exchange) (m : Money) (to_ : Currency) : Option Money :=
  match e.getRate m.currency to_ with
  | none => none
  | some r => r.convert m

end Verif.Fx
