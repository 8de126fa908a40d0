import Verif.Cashflows.Model
import Verif.Time.Civil
import Mathlib.Algebra.BigOperators.Group.List.Lemmas
import Mathlib.Algebra.BigOperators.Ring.List
import Mathlib.Tactic.Linarith
import Mathlib.Tactic.Ring
import Mathlib.Tactic.FieldSimp

/-!
# C32, C33: cashflows, legs, quotes
-/

namespace Verif.Cashflows

open Verif.Time

/-! ## C32 -/

/-- C32: adding or subtracting cashflows on different dates panics; on the same date the amounts are added or subtracted
and the date is kept; so the present value of the result is the sum or difference of the present values. -/
theorem C32_add_sub (a b : Cashflow) (df : ℝ) :
    (a.date ≠ b.date → a.add b = none ∧ a.sub b = none) ∧
    (a.date = b.date → ∃ s d, a.add b = some s ∧ a.sub b = some d ∧ s.date = a.date ∧ d.date = a.date ∧
      s.amount = a.amount + b.amount ∧ d.amount = a.amount - b.amount ∧
      s.npv df = a.npv df + b.npv df ∧ d.npv df = a.npv df - b.npv df) := by
  constructor
  · intro h; simp [Cashflow.add, Cashflow.sub, h]
  · intro h
    refine ⟨⟨a.amount + b.amount, a.date⟩, ⟨a.amount - b.amount, a.date⟩, by simp [Cashflow.add, h],
      by simp [Cashflow.sub, h], rfl, rfl, rfl, rfl, ?_, ?_⟩ <;> simp only [Cashflow.npv] <;> ring

/-- C32: scaling, dividing and negating act on the amount, keep the date, and the present value is linear in the amount
and in the discount factor. -/
theorem C32_scale (a : Cashflow) (k x y : ℝ) :
    (a.mul k).date = a.date ∧ (a.div k).date = a.date ∧ a.neg.date = a.date ∧
    (a.mul k).npv x = k * a.npv x ∧ (a.div k).npv x = a.npv x / k ∧ a.neg.npv x = -(a.npv x) ∧
    a.npv (x + y) = a.npv x + a.npv y ∧ a.npv (k * x) = k * a.npv x ∧ (k ≠ 0 → ((a.mul k).div k) = a) := by
  refine ⟨rfl, rfl, rfl, ?_, ?_, ?_, ?_, ?_, ?_⟩ <;>
    simp only [Cashflow.npv, Cashflow.mul, Cashflow.div, Cashflow.neg] <;> try (first | done | ring1)
  intro h
  cases a
  simp [h]

theorem npv_eq (l : Leg) (df : ℝ) : Leg.npv l df = (l.map Cashflow.amount).sum * df := by
  unfold Leg.npv
  induction l with
  | nil => simp
  | cons c l ih => simp only [List.map_cons, List.sum_cons]; rw [ih]; simp only [Cashflow.npv]; ring

/-- C32: a leg's present value is the sum of its amounts times the discount factor; it does not depend on the order of
the cashflows, is additive under concatenation and under `add_cashflow`, and is linear in the discount factor. -/
theorem C32_leg_npv (l m : Leg) (c : Cashflow) (x y k : ℝ) :
    Leg.npv l x = (l.map Cashflow.amount).sum * x ∧
    (l.Perm m → Leg.npv l x = Leg.npv m x) ∧
    Leg.npv (l ++ m) x = Leg.npv l x + Leg.npv m x ∧
    Leg.npv (Leg.addCashflow l c) x = Leg.npv l x + c.npv x ∧
    Leg.npv l (x + y) = Leg.npv l x + Leg.npv l y ∧ Leg.npv l (k * x) = k * Leg.npv l x := by
  refine ⟨npv_eq l x, fun h => ?_, ?_, ?_, ?_, ?_⟩
  · exact (h.map _).sum_eq
  · simp [Leg.npv]
  · simp [Leg.npv, Leg.addCashflow]
  · simp only [npv_eq]; ring
  · simp only [npv_eq]; ring

theorem foldl_min_spec (l : Leg) (m : Date) :
    let r := l.foldl (fun m c => if c.date < m then c.date else m) m
    (r = m ∨ ∃ c ∈ l, c.date = r) ∧ r ≤ m ∧ ∀ c ∈ l, r ≤ c.date := by
  induction l generalizing m with
  | nil => simp
  | cons c l ih =>
    have := ih (if c.date < m then c.date else m)
    simp only [List.foldl_cons] at this ⊢
    obtain ⟨h1, h2, h3⟩ := this
    refine ⟨?_, ?_, ?_⟩
    · rcases h1 with h1 | ⟨c', hc', h1⟩
      · by_cases h : c.date < m
        · rw [if_pos h] at h1 ⊢; exact Or.inr ⟨c, by simp, h1.symm⟩
        · rw [if_neg h] at h1 ⊢; exact Or.inl h1
      · exact Or.inr ⟨c', by simp [hc'], h1⟩
    · refine le_trans h2 ?_
      split_ifs with h
      · exact h.le
      · exact le_rfl
    · intro c' hc'
      rcases List.mem_cons.1 hc' with rfl | hc'
      · refine le_trans h2 ?_
        split_ifs with h
        · exact le_rfl
        · exact not_lt.1 h
      · exact h3 c' hc'

theorem foldl_max_spec (l : Leg) (m : Date) :
    let r := l.foldl (fun m c => if m ≤ c.date then c.date else m) m
    (r = m ∨ ∃ c ∈ l, c.date = r) ∧ m ≤ r ∧ ∀ c ∈ l, c.date ≤ r := by
  induction l generalizing m with
  | nil => simp
  | cons c l ih =>
    have := ih (if m ≤ c.date then c.date else m)
    simp only [List.foldl_cons] at this ⊢
    obtain ⟨h1, h2, h3⟩ := this
    refine ⟨?_, ?_, ?_⟩
    · rcases h1 with h1 | ⟨c', hc', h1⟩
      · by_cases h : m ≤ c.date
        · rw [if_pos h] at h1 ⊢; exact Or.inr ⟨c, by simp, h1.symm⟩
        · rw [if_neg h] at h1 ⊢; exact Or.inl h1
      · exact Or.inr ⟨c', by simp [hc'], h1⟩
    · refine le_trans ?_ h2
      split_ifs with h
      · exact h
      · exact le_rfl
    · intro c' hc'
      rcases List.mem_cons.1 hc' with rfl | hc'
      · refine le_trans ?_ h2
        split_ifs with h
        · exact le_rfl
        · exact (not_le.1 h).le
      · exact h3 c' hc'

/-- C32: `start_date` and `end_date` are the least and the greatest date of the leg (nothing for an empty leg), and
`is_active(d)` holds exactly for the dates between them, both included. -/
theorem C32_dates (l : Leg) :
    (Leg.startDate l = none ↔ l = []) ∧ (Leg.endDate l = none ↔ l = []) ∧
    (∀ s, Leg.startDate l = some s → (∃ c ∈ l, c.date = s) ∧ ∀ c ∈ l, s ≤ c.date) ∧
    (∀ e, Leg.endDate l = some e → (∃ c ∈ l, c.date = e) ∧ ∀ c ∈ l, c.date ≤ e) ∧
    (∀ d, Leg.isActive l d = true ↔ (∃ c ∈ l, c.date ≤ d) ∧ ∃ c ∈ l, d ≤ c.date) := by
  cases l with
  | nil => simp [Leg.startDate, Leg.endDate, Leg.isActive]
  | cons c l =>
    have hs := foldl_min_spec l c.date
    have he := foldl_max_spec l c.date
    simp only at hs he
    obtain ⟨s1, s2, s3⟩ := hs
    obtain ⟨e1, e2, e3⟩ := he
    have S1 : ∃ c' ∈ c :: l, c'.date = l.foldl (fun m c => if c.date < m then c.date else m) c.date := by
      rcases s1 with h | ⟨c', hc', h⟩
      · exact ⟨c, by simp, h.symm⟩
      · exact ⟨c', by simp [hc'], h⟩
    have S2 : ∀ c' ∈ c :: l, l.foldl (fun m c => if c.date < m then c.date else m) c.date ≤ c'.date := by
      intro c' hc'
      rcases List.mem_cons.1 hc' with rfl | hc'
      · exact s2
      · exact s3 c' hc'
    have E1 : ∃ c' ∈ c :: l, c'.date = l.foldl (fun m c => if m ≤ c.date then c.date else m) c.date := by
      rcases e1 with h | ⟨c', hc', h⟩
      · exact ⟨c, by simp, h.symm⟩
      · exact ⟨c', by simp [hc'], h⟩
    have E2 : ∀ c' ∈ c :: l, c'.date ≤ l.foldl (fun m c => if m ≤ c.date then c.date else m) c.date := by
      intro c' hc'
      rcases List.mem_cons.1 hc' with rfl | hc'
      · exact e2
      · exact e3 c' hc'
    refine ⟨by simp [Leg.startDate], by simp [Leg.endDate], ?_, ?_, ?_⟩
    · intro s h; simp only [Leg.startDate, Option.some.injEq] at h; subst h; exact ⟨S1, S2⟩
    · intro e h; simp only [Leg.endDate, Option.some.injEq] at h; subst h; exact ⟨E1, E2⟩
    · intro d
      simp only [Leg.isActive, Leg.startDate, Leg.endDate, Bool.and_eq_true, decide_eq_true_eq]
      constructor
      · rintro ⟨h1, h2⟩
        obtain ⟨a, ha, ha'⟩ := S1
        obtain ⟨b, hb, hb'⟩ := E1
        exact ⟨⟨a, ha, ha' ▸ h1⟩, ⟨b, hb, hb' ▸ h2⟩⟩
      · rintro ⟨⟨a, ha, h1⟩, ⟨b, hb, h2⟩⟩
        exact ⟨le_trans (S2 a ha) h1, le_trans h2 (E2 b hb)⟩

example (a b : Date) (h : a < b) :
    Leg.startDate [⟨1, b⟩, ⟨2, a⟩] = some a ∧ Leg.endDate [⟨1, b⟩, ⟨2, a⟩] = some b ∧
      Leg.isActive [⟨1, b⟩, ⟨2, a⟩] a = true := by
  refine ⟨by simp [Leg.startDate, h], by simp [Leg.endDate, not_le.2 h], ?_⟩
  rw [(C32_dates _).2.2.2.2]
  exact ⟨⟨⟨2, a⟩, by simp, le_rfl⟩, ⟨⟨1, b⟩, by simp, h.le⟩⟩

example : ∃ a b : Date, a < b :=
  ⟨⟨2024, 7, 1, by decide⟩, ⟨2024, 7, 3, by decide⟩, by decide⟩

/-! ## C33 -/

/-- C33: setting a non-zero value on any quote, or any value on a quote that holds one, stores it and returns the change
(the new value itself for an empty quote). -/
theorem C33_set_some (q : Quote) (v : ℝ) (h : v ≠ 0 ∨ q.isValid = true) :
    (q.setValue (some v)).1 = some v ∧ (q.setValue (some v)).2 = v - q.getD 0 := by
  cases q with
  | none =>
    have hv : v ≠ 0 := by rcases h with h | h; exact h; simp [Quote.isValid] at h
    simp [Quote.setValue, hv]
  | some old =>
    simp only [Quote.setValue, Option.getD_some, and_true]
    by_cases h' : v - old = 0
    · rw [if_neg (by simpa using h')]; congr 1; linarith
    · rw [if_pos h']

example := C33_set_some (some 2) 0 (.inr rfl)

/-- C33 (defects): `set_value(None)` never clears a quote, and `set_value(Some(0))` on an empty quote leaves it empty;
both return 0. -/
theorem C33_not_stored (q : Quote) :
    q.setValue none = (q, 0) ∧ Quote.setValue none (some 0) = (none, 0) := by
  constructor
  · cases q <;> simp [Quote.setValue]
  · simp [Quote.setValue]

/-- C33: `reset` always empties the quote, and a quote is valid exactly when it holds a value. -/
theorem C33_reset (q : Quote) : q.reset = none ∧ (q.isValid = true ↔ ∃ v, q = some v) := by
  refine ⟨rfl, ?_⟩
  simp [Quote.isValid, Option.isSome_iff_exists]

/-- C33: over any history of `set_value` calls without `reset` the returned differences add up to the total change of
the quote (an empty quote counting as 0), and a valid quote never becomes invalid. -/
theorem C33_history (q : Quote) (ops : List QuoteOp) (h : ∀ op ∈ ops, ∃ v, op = .set v) :
    (runQuote q ops).2.sum = (runQuote q ops).1.getD 0 - q.getD 0 ∧
      (q.isValid = true → (runQuote q ops).1.isValid = true) := by
  induction ops generalizing q with
  | nil => simp [runQuote]
  | cons op ops ih =>
    obtain ⟨v, rfl⟩ := h op (by simp)
    have hstep : (q.setValue v).2 = (q.setValue v).1.getD 0 - q.getD 0 ∧
        (q.isValid = true → (q.setValue v).1.isValid = true) := by
      cases v with
      | none => rw [(C33_not_stored q).1]; simp
      | some v =>
        by_cases hc : v ≠ 0 ∨ q.isValid = true
        · obtain ⟨e1, e2⟩ := C33_set_some q v hc
          rw [e1, e2]; simp [Quote.isValid]
        · push Not at hc
          obtain ⟨rfl, hq⟩ := hc
          cases q with
          | none => rw [(C33_not_stored none).2]; simp
          | some x => simp [Quote.isValid] at hq
    obtain ⟨i1, i2⟩ := ih (q.setValue v).1 (fun op hop => h op (by simp [hop]))
    simp only [runQuote, QuoteOp.apply, List.sum_cons]
    exact ⟨by rw [i1, hstep.1]; ring, fun hq => i2 (hstep.2 hq)⟩

example := C33_history none [.set (some 3), .set none, .set (some 5)] (by simp)

/-- The specification of a quote's history: the value is the one of the last `set_value(Some(v))` since the last `reset`,
where leading zeros set on an empty quote do not count. -/
noncomputable def lastSet : List QuoteOp → Option ℝ → Option ℝ
  | [], acc => acc
  | .reset :: ops, _ => lastSet ops none
  | .set none :: ops, acc => lastSet ops acc
  | .set (some v) :: ops, acc => lastSet ops (if acc = none ∧ v = 0 then none else some v)

/-- C33: the state after any history. -/
theorem C33_state (q : Quote) (ops : List QuoteOp) : (runQuote q ops).1 = lastSet ops q := by
  induction ops generalizing q with
  | nil => rfl
  | cons op ops ih =>
    cases op with
    | reset => simp only [runQuote, QuoteOp.apply, lastSet]; exact ih _
    | set v =>
      simp only [runQuote, QuoteOp.apply]
      rw [ih]
      cases v with
      | none => rw [(C33_not_stored q).1]; rfl
      | some v =>
        simp only [lastSet]
        congr 1
        by_cases hc : v ≠ 0 ∨ q.isValid = true
        · rw [(C33_set_some q v hc).1, if_neg]
          rintro ⟨rfl, rfl⟩
          simp [Quote.isValid] at hc
        · push Not at hc
          obtain ⟨rfl, hq⟩ := hc
          cases q with
          | none => rw [(C33_not_stored none).2]; simp
          | some x => simp [Quote.isValid] at hq

example : (runQuote none [.set (some 0), .set (some 3), .set none]).1 = some 3 := by
  rw [C33_state]; simp [lastSet]

end Verif.Cashflows
