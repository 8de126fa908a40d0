import Verif.Fx.CurrencyTable
import Mathlib.Data.List.Nodup
import Mathlib.Tactic.Linarith
import Mathlib.Tactic.Ring

/-!
# C36, C37: money, exchange rates, the currency table
-/

namespace Verif.Fx

/-! ## C36 -/

/-- C36: arithmetic on two amounts of different currencies panics; on the same currency it acts on the amounts and keeps
the currency (also for the product and the quotient). -/
theorem C36_arithmetic (a b : Money) :
    (a.currency ≠ b.currency → a.add b = none ∧ a.sub b = none ∧ a.mul b = none ∧ a.div b = none) ∧
    (a.currency = b.currency →
      a.add b = some ⟨a.currency, a.amount + b.amount⟩ ∧ a.sub b = some ⟨a.currency, a.amount - b.amount⟩ ∧
      a.mul b = some ⟨a.currency, a.amount * b.amount⟩ ∧ a.div b = some ⟨a.currency, a.amount / b.amount⟩) := by
  constructor <;> intro h <;> simp [Money.add, Money.sub, Money.mul, Money.div, h]

/-- C36: addition is commutative and associative with the same panics, and subtraction undoes addition. -/
theorem C36_add_laws (a b c : Money) :
    a.add b = b.add a ∧ ((a.add b).bind fun s => s.add c) = ((b.add c).bind fun s => a.add s) ∧
    (∀ s, a.add b = some s → s.sub b = some a) := by
  refine ⟨?_, ?_, ?_⟩
  · by_cases h : a.currency = b.currency
    · simp [Money.add, h, add_comm]
    · simp [Money.add, h, Ne.symm h]
  · by_cases h : a.currency = b.currency <;> by_cases h' : b.currency = c.currency <;>
      simp_all [Money.add, add_assoc]
  · intro s hs
    by_cases h : a.currency = b.currency
    · simp only [Money.add, h, if_true, Option.some.injEq] at hs
      subst hs
      cases a
      simp_all [Money.sub]
    · simp [Money.add, h] at hs

/-- C36: comparison is total exactly within one currency, and agrees with the amounts; equality looks only at the ISO
code and the amount. -/
theorem C36_comparison (a b : Money) :
    ((a.partialCmp b).isSome = true ↔ a.currency = b.currency) ∧
    (a.partialCmp b = some .lt ↔ a.currency = b.currency ∧ a.amount < b.amount) ∧
    (a.partialCmp b = some .gt ↔ a.currency = b.currency ∧ b.amount < a.amount) ∧
    (a.partialCmp b = some .eq ↔ a.currency = b.currency ∧ a.amount = b.amount) ∧
    (a.eq b = true ↔ a.currency.code = b.currency.code ∧ a.amount = b.amount) := by
  refine ⟨?_, ?_, ?_, ?_, ?_⟩
  · unfold Money.partialCmp; split_ifs <;> simp_all
  · unfold Money.partialCmp; split_ifs <;> simp_all
  · unfold Money.partialCmp
    split_ifs with h1 h2 h3
    · simp [h1, h2.le]
    · simp [h1, h3]
    · simp only [h1, true_and, true_iff]; exact lt_of_le_of_ne (not_lt.1 h2) (Ne.symm h3)
    · simp [h1]
  · unfold Money.partialCmp
    split_ifs with h1 h2 h3
    · simp [h1, h2.ne]
    · simp [h1, h3]
    · simp [h1, h3]
    · simp [h1]
  · simp [Money.eq]

/-- C36 (defect): two amounts can be equal (`==`) and yet not comparable by `partial_cmp` (which Rust requires to be
`Some(Equal)` for equal values), when the currencies share their ISO code but differ in another field. -/
theorem C36_eq_not_comparable :
    ∃ a b : Money, a.eq b = true ∧ a.partialCmp b = none := by
  refine ⟨⟨⟨"US Dollar", "$", ⟨"USD", "840"⟩, 2, 100⟩, 5⟩, ⟨⟨"United States Dollar", "$", ⟨"USD", "840"⟩, 2, 100⟩, 5⟩, ?_, ?_⟩
  · simp [Money.eq]
  · simp [Money.partialCmp]

theorem lookup_insert (e : Exchange) (k k' : CurrencyPair) (r : ExchangeRate) :
    (e.insert k r).lookup k' = if k = k' then some r else e.lookup k' := by
  unfold Exchange.insert Exchange.lookup
  by_cases h : k = k'
  · simp [h]
  · simp only [List.find?_cons, h, decide_false, if_false, List.find?_filter]
    congr 2
    funext x
    by_cases hx : x.1 = k'
    · simp [hx, Ne.symm h]
    · simp [hx]

/-- C36: after any sequence of `add_rate` calls on a new exchange, `get_rate` returns the last rate added for exactly
this ordered pair of currencies, and nothing if there was none. In particular a rate for the opposite direction is never
used. -/
theorem C36_last_rate (rs : List ExchangeRate) (a b : Currency) :
    (rs.foldl Exchange.addRate Exchange.new).getRate a b =
      (rs.reverse.find? fun r => decide (r.from_ = a ∧ r.to_ = b)) := by
  rw [← List.foldr_reverse]
  induction rs.reverse with
  | nil => rfl
  | cons r l ih =>
    simp only [List.foldr_cons, List.find?_cons]
    unfold Exchange.getRate at ih ⊢
    rw [Exchange.addRate, lookup_insert, ih]
    simp only [CurrencyPair.mk.injEq]
    by_cases h : r.from_ = a ∧ r.to_ = b <;> simp [h]

/-- C36: `convert` panics exactly when no rate was added for the pair; otherwise it multiplies the amount by the last rate
added and the result is in the requested currency. So conversion is linear in the amount. -/
theorem C36_convert (rs : List ExchangeRate) (m : Money) (b : Currency) :
    let e := rs.foldl Exchange.addRate Exchange.new
    (e.convert m b = none ↔ ∀ r ∈ rs, ¬ (r.from_ = m.currency ∧ r.to_ = b)) ∧
    (∀ r, (rs.reverse.find? fun r => decide (r.from_ = m.currency ∧ r.to_ = b)) = some r →
      e.convert m b = some ⟨b, m.amount * r.rate⟩) := by
  intro e
  have h := C36_last_rate rs m.currency b
  constructor
  · simp only [e, Exchange.convert, h]
    cases hf : (rs.reverse.find? fun r => decide (r.from_ = m.currency ∧ r.to_ = b)) with
    | none =>
      rw [List.find?_eq_none] at hf
      simp only [true_iff]
      intro r hr
      simpa using hf r (by simpa using hr)
    | some r =>
      have h1 := List.find?_some hf
      have h2 := List.mem_of_find?_eq_some hf
      simp only [decide_eq_true_eq] at h1
      simp only [ExchangeRate.convert, h1.1, if_true, reduceCtorEq, false_iff, not_forall, not_not]
      exact ⟨r, by simpa using h2, h1.1, h1.2⟩
  · intro r hf
    have h1 := List.find?_some hf
    simp only [decide_eq_true_eq] at h1
    simp only [e, Exchange.convert, h, hf, ExchangeRate.convert, h1.1, if_true, h1.2]

/-- C36: a single exchange rate converts money of its source currency into its target currency, multiplying the amount by
the rate, and panics on money of any other currency. -/
theorem C36_rate_convert (r : ExchangeRate) (m : Money) :
    (r.convert m = none ↔ m.currency ≠ r.from_) ∧
    (m.currency = r.from_ → r.convert m = some ⟨r.to_, m.amount * r.rate⟩) := by
  by_cases h : m.currency = r.from_ <;> simp [ExchangeRate.convert, h]

/-- C36: converting there and back with reciprocal rates returns the original amount. -/
theorem C36_round_trip (e : Exchange) (m : Money) (b : Currency) (r s : ExchangeRate)
    (h1 : e.getRate m.currency b = some r) (h2 : e.getRate b m.currency = some s)
    (hr : r.from_ = m.currency ∧ r.to_ = b) (hs : s.from_ = b ∧ s.to_ = m.currency) (hrs : r.rate * s.rate = 1) :
    ((e.convert m b).bind fun m' => e.convert m' m.currency) = some m := by
  have : m.amount * r.rate * s.rate = m.amount := by rw [mul_assoc, hrs, mul_one]
  simp [Exchange.convert, h1, ExchangeRate.convert, hr.1, hr.2, h2, hs.1, hs.2, this]

example (usd eur : Currency) (h : usd ≠ eur) :
    let e := [⟨usd, eur, 2⟩, ⟨eur, usd, 1/2⟩].foldl Exchange.addRate Exchange.new
    e.getRate usd eur = some ⟨usd, eur, 2⟩ ∧ e.getRate eur usd = some ⟨eur, usd, 1/2⟩ ∧
      e.getRate usd usd = none := by
  simp only [C36_last_rate]
  simp [h, Ne.symm h]

/-! ## C37 -/

theorem table_checks :
    (currencyTable.all fun e => decide (e.1 = e.2.code.alphabetic) && decide (e.2.fractions = 10 ^ e.2.minor) &&
      decide (e.2.code.alphabetic.toList.length = 3) &&
      e.2.code.alphabetic.toList.all (fun c => decide ('A'.val ≤ c.val) && decide (c.val ≤ 'Z'.val)) &&
      decide (e.2.code.numeric.toList.length = 3) &&
      e.2.code.numeric.toList.all (fun c => decide ('0'.val ≤ c.val) && decide (c.val ≤ '9'.val))) = true := by
  decide +kernel

theorem alpha_nodup : (currencyTable.map fun e => e.2.code.alphabetic).Nodup := by decide +kernel
theorem numeric_nodup : (currencyTable.map fun e => e.2.code.numeric).Nodup := by decide +kernel
theorem name_nodup : (currencyTable.map fun e => e.2.name).Nodup := by decide +kernel

/-- C37: every currency constant is named by its alphabetic code, which is three capital letters; its numeric code is
three digits; and its fractions per unit are ten to the power of its minor digits. There is no exception. -/
theorem C37_rows (ident : String) (c : Currency) (h : (ident, c) ∈ currencyTable) :
    ident = c.code.alphabetic ∧ c.fractions = 10 ^ c.minor ∧
    c.code.alphabetic.toList.length = 3 ∧ (∀ x ∈ c.code.alphabetic.toList, 'A'.val ≤ x.val ∧ x.val ≤ 'Z'.val) ∧
    c.code.numeric.toList.length = 3 ∧ (∀ x ∈ c.code.numeric.toList, '0'.val ≤ x.val ∧ x.val ≤ '9'.val) := by
  have := List.all_eq_true.1 table_checks _ h
  simpa only [Bool.and_eq_true, decide_eq_true_eq, List.all_eq_true, and_assoc] using this

example := C37_rows "USD" ⟨"United States Dollar", "$", ⟨"USD", "840"⟩, 2, 100⟩ (by decide +kernel)

theorem inj_of_nodup {α β : Type*} (f : α → β) (l : List α) (h : (l.map f).Nodup) {a b : α} (ha : a ∈ l) (hb : b ∈ l)
    (hab : f a = f b) : a = b :=
  List.inj_on_of_nodup_map h ha hb hab

/-- C37: two entries of the table with the same alphabetic code, the same numeric code or the same name are the same
entry: all three identify a currency. -/
theorem C37_distinct (e f : String × Currency) (he : e ∈ currencyTable) (hf : f ∈ currencyTable) :
    (e.2.code.alphabetic = f.2.code.alphabetic → e = f) ∧ (e.2.code.numeric = f.2.code.numeric → e = f) ∧
      (e.2.name = f.2.name → e = f) ∧ (e.1 = f.1 → e = f) := by
  refine ⟨inj_of_nodup _ _ alpha_nodup he hf, inj_of_nodup _ _ numeric_nodup he hf,
    inj_of_nodup _ _ name_nodup he hf, fun h => ?_⟩
  apply inj_of_nodup _ _ alpha_nodup he hf
  rw [← (C37_rows e.1 e.2 he).1, ← (C37_rows f.1 f.2 hf).1, h]

/-- C37: symbols do not identify a currency. -/
theorem C37_symbols_shared :
    ∃ e ∈ currencyTable, ∃ f ∈ currencyTable, e.2.symbol = f.2.symbol ∧ e.2.code ≠ f.2.code := by
  refine ⟨("USD", ⟨"United States Dollar", "$", ⟨"USD", "840"⟩, 2, 100⟩), by decide +kernel,
    ("CUC", ⟨"Cuban Convertible Peso", "$", ⟨"CUC", "931"⟩, 2, 100⟩), by decide +kernel, rfl, by decide⟩

/-- C37: among the library's own constants the two notions of sameness agree: money in two library currencies compares
(`partial_cmp`) as equal exactly when it is equal (`==`). -/
theorem C37_eq_consistent (e f : String × Currency) (he : e ∈ currencyTable) (hf : f ∈ currencyTable) (x y : ℝ) :
    (Money.eq ⟨e.2, x⟩ ⟨f.2, y⟩ = true ↔ Money.partialCmp ⟨e.2, x⟩ ⟨f.2, y⟩ = some .eq) := by
  rw [(C36_comparison _ _).2.2.2.2, (C36_comparison _ _).2.2.2.1]
  constructor
  · rintro ⟨h, h'⟩
    refine ⟨?_, h'⟩
    have := (C37_distinct e f he hf).1 (by simpa using congrArg ISO4217.alphabetic h)
    simp [this]
  · rintro ⟨h, h'⟩
    exact ⟨by simpa using congrArg Currency.code h, h'⟩

example : currencyTable.length = 158 := by decide +kernel

end Verif.Fx
