import Verif.Portfolios.Model
import Mathlib.Algebra.BigOperators.Group.List.Lemmas
import Mathlib.Algebra.BigOperators.Ring.List
import Mathlib.Algebra.Order.BigOperators.Group.List
import Mathlib.Data.List.Nodup
import Mathlib.Tactic.Linarith
import Mathlib.Tactic.Ring
import Mathlib.Tactic.FieldSimp

/-!
# C35: portfolio accounting
-/

namespace Verif.Portfolios

variable {I : Type}

/-- C35: a portfolio's profit is its value minus its cost, and every position's profit is quantity times the price
change. -/
theorem C35_profit (p : Portfolio I) :
    p.profit = p.value - p.cost ∧
    ∀ e ∈ p, e.2.profit = (e.2.quantity : ℝ) * (e.2.currentPrice - e.2.purchasePrice) := by
  constructor
  · unfold Portfolio.profit Portfolio.value Portfolio.cost
    induction p with
    | nil => simp
    | cons e p ih => rw [List.map_cons, List.sum_cons, ih]; simp only [List.map_cons, List.sum_cons, Position.profit]; ring
  · intro e _
    simp only [Position.profit, Position.value]; ring

/-- C35: value, cost and profit do not depend on the hash map's iteration order, and each position keeps its weight. -/
theorem C35_order (p q : Portfolio I) (h : p.Perm q) :
    p.value = q.value ∧ p.cost = q.cost ∧ p.profit = q.profit ∧ p.weights.Perm q.weights := by
  have hv : p.value = q.value := (h.map _).sum_eq
  refine ⟨hv, (h.map _).sum_eq, (h.map _).sum_eq, ?_⟩
  unfold Portfolio.weights
  rw [hv]
  exact h.map _

theorem get?_eq_some (p : Portfolio I) (hp : p.WF) (name : String) (x : Position I) :
    p.get? name = some x ↔ (name, x) ∈ p := by
  induction p with
  | nil => simp [Portfolio.get?]
  | cons e p ih =>
    simp only [Portfolio.WF, List.map_cons, List.nodup_cons] at hp
    have ih := ih hp.2
    simp only [Portfolio.get?] at ih ⊢
    rw [List.find?_cons]
    by_cases h : e.1 = name
    · simp only [h, decide_true, Option.map_some, Option.some.injEq, List.mem_cons]
      constructor
      · intro hx; left; rw [← h, ← hx]
      · rintro (hx | hx)
        · rw [← hx]
        · exact absurd (List.mem_map_of_mem (f := (·.1)) hx) (by simpa [h] using hp.1)
    · simp only [h, decide_false, ih, List.mem_cons]
      constructor
      · exact Or.inr
      · rintro (hx | hx)
        · exact absurd (by rw [← hx]) h
        · exact hx

theorem modify_none (p : Portfolio I) (name : String) (f) : p.modify name f = none ↔ p.get? name = none := by
  simp only [Portfolio.modify, Portfolio.get?, Option.map_eq_none_iff, List.find?_eq_none, decide_eq_true_eq]
  split_ifs with h
  · obtain ⟨e, he, hn⟩ := List.mem_map.1 h
    simp only [false_iff, not_forall, not_not]
    exact ⟨e, he, hn⟩
  · simp only [true_iff]
    intro e he hn
    exact h (hn ▸ List.mem_map_of_mem he)

theorem wf_modify (p p' : Portfolio I) (name : String) (f) (hp : p.WF) (h : p.modify name f = some p') : p'.WF := by
  unfold Portfolio.modify at h
  split_ifs at h with hn
  simp only [Option.some.injEq] at h
  subst h
  unfold Portfolio.WF at *
  rw [List.map_map]
  convert hp using 2
  funext e
  simp only [Function.comp]
  split_ifs <;> rfl

theorem get?_modify (p p' : Portfolio I) (name other : String) (f) (h : p.modify name f = some p') :
    p'.get? other = if other = name then (p.get? name).map f else p.get? other := by
  unfold Portfolio.modify at h
  split_ifs at h with hn
  simp only [Option.some.injEq] at h
  subst h
  clear hn
  unfold Portfolio.get?
  induction p with
  | nil => simp
  | cons e p ih =>
    simp only [List.map_cons, List.find?_cons]
    by_cases he : e.1 = name
    · by_cases ho : other = name
      · subst ho; simp [he]
      · have : ¬ name = other := fun h => ho h.symm
        simp only [he, if_true, this, decide_false, ih, ho, if_false]
    · simp only [he, if_false, decide_false]
      by_cases ho : e.1 = other
      · have : ¬ other = name := fun h => he (ho.trans h)
        simp [ho, this]
      · simp only [ho, decide_false, ih]

theorem sum_modify (p p' : Portfolio I) (name : String) (f) (g : Position I → ℝ) (x : Position I) (hp : p.WF)
    (h : p.modify name f = some p') (hx : p.get? name = some x) :
    (p'.map fun e => g e.2).sum = (p.map fun e => g e.2).sum + (g (f x) - g x) := by
  rw [get?_eq_some p hp] at hx
  unfold Portfolio.modify at h
  split_ifs at h with hn
  simp only [Option.some.injEq] at h
  subst h
  clear hn
  induction p with
  | nil => simp at hx
  | cons e p ih =>
    simp only [Portfolio.WF, List.map_cons, List.nodup_cons] at hp
    simp only [List.map_cons, List.sum_cons]
    by_cases he : e.1 = name
    · have hx' : e = (name, x) := by
        rcases List.mem_cons.1 hx with hx | hx
        · exact hx.symm
        · exact absurd (List.mem_map_of_mem (f := (·.1)) hx) (by simpa [he] using hp.1)
      have hrest : (p.map fun e => if e.1 = name then (e.1, f e.2) else e) = p := by
        conv_rhs => rw [← List.map_id p]
        apply List.map_congr_left
        intro e' he'
        rw [if_neg]
        · rfl
        · intro h
          exact hp.1 (by rw [he, ← h]; exact List.mem_map_of_mem (f := (·.1)) he')
      rw [hrest, hx']
      simp only [if_true]
      ring
    · have hx' : (name, x) ∈ p := by
        rcases List.mem_cons.1 hx with hx | hx
        · exact absurd (by rw [← hx]) he
        · exact hx
      rw [ih hp.2 hx']
      simp only [he, if_false]
      ring

/-- C35: `update_price` panics exactly for an unknown name; otherwise it changes only this position's current price,
leaves the cost alone and changes value and profit by quantity times the price change. -/
theorem C35_update_price (p : Portfolio I) (hp : p.WF) (name : String) (price : ℝ) :
    (p.updatePrice name price = none ↔ p.get? name = none) ∧
    ∀ p', p.updatePrice name price = some p' → p'.WF ∧
      ∃ x, p.get? name = some x ∧ p'.get? name = some { x with currentPrice := price } ∧
        (∀ other, other ≠ name → p'.get? other = p.get? other) ∧
        p'.cost = p.cost ∧ p'.value = p.value + x.quantity * (price - x.currentPrice) ∧
        p'.profit = p.profit + x.quantity * (price - x.currentPrice) := by
  constructor
  · exact modify_none p name _
  · intro p' h
    have hwf := wf_modify _ _ _ _ hp h
    have hg : ∃ x, p.get? name = some x := by
      rw [← Option.isSome_iff_exists, Option.isSome_iff_ne_none]
      intro hc
      exact absurd (h.symm.trans ((modify_none p name _).2 hc)) (by simp)
    obtain ⟨x, hx⟩ := hg
    refine ⟨hwf, x, hx, ?_, ?_, ?_, ?_, ?_⟩
    · rw [get?_modify _ _ _ _ _ h, if_pos rfl, hx]; rfl
    · intro o ho; rw [get?_modify _ _ _ _ _ h, if_neg ho]
    · have := sum_modify p p' name _ (fun e => (e.quantity : ℝ) * e.purchasePrice) x hp h hx
      simpa [Portfolio.cost, Position.updatePrice] using this
    · have := sum_modify p p' name _ Position.value x hp h hx
      simp only [Portfolio.value, Position.updatePrice, Position.value] at this ⊢
      rw [this]; ring
    · have := sum_modify p p' name _ Position.profit x hp h hx
      simp only [Portfolio.profit, Position.updatePrice, Position.profit, Position.value] at this ⊢
      rw [this]; ring

/-- C35: `update_quantity` panics exactly for an unknown name; otherwise it changes only this position's quantity; value
and cost change by the quantity change times the current and the purchase price. -/
theorem C35_update_quantity (p : Portfolio I) (hp : p.WF) (name : String) (n : ℕ) :
    (p.updateQuantity name n = none ↔ p.get? name = none) ∧
    ∀ p', p.updateQuantity name n = some p' → p'.WF ∧
      ∃ x, p.get? name = some x ∧ p'.get? name = some { x with quantity := n } ∧
        (∀ other, other ≠ name → p'.get? other = p.get? other) ∧
        p'.cost = p.cost + ((n : ℝ) - x.quantity) * x.purchasePrice ∧
        p'.value = p.value + ((n : ℝ) - x.quantity) * x.currentPrice := by
  constructor
  · exact modify_none p name _
  · intro p' h
    have hwf := wf_modify _ _ _ _ hp h
    have hg : ∃ x, p.get? name = some x := by
      rw [← Option.isSome_iff_exists, Option.isSome_iff_ne_none]
      intro hc
      exact absurd (h.symm.trans ((modify_none p name _).2 hc)) (by simp)
    obtain ⟨x, hx⟩ := hg
    refine ⟨hwf, x, hx, ?_, ?_, ?_, ?_⟩
    · rw [get?_modify _ _ _ _ _ h, if_pos rfl, hx]; rfl
    · intro o ho; rw [get?_modify _ _ _ _ _ h, if_neg ho]
    · have := sum_modify p p' name _ (fun e => (e.quantity : ℝ) * e.purchasePrice) x hp h hx
      simp only [Portfolio.cost, Position.updateQuantity] at this ⊢
      rw [this]; ring
    · have := sum_modify p p' name _ Position.value x hp h hx
      simp only [Portfolio.value, Position.updateQuantity, Position.value] at this ⊢
      rw [this]; ring

/-- C35: the weights have one entry per position; they sum to one whenever the portfolio's value is not zero; with
non-negative prices and positive value each lies between 0 and 1; weight times portfolio value is the position's value. -/
theorem C35_weights (p : Portfolio I) (hv : p.value ≠ 0) :
    p.weights.map (·.1) = p.map (·.1) ∧ (p.weights.map (·.2)).sum = 1 ∧
    p.weights.map (fun w => w.2 * p.value) = p.map (fun e => e.2.value) ∧
    ((∀ e ∈ p, 0 ≤ e.2.currentPrice) → ∀ w ∈ p.weights, 0 ≤ w.2 ∧ w.2 ≤ 1) := by
  refine ⟨?_, ?_, ?_, ?_⟩
  · simp [Portfolio.weights, Function.comp_def]
  · have : (p.weights.map (·.2)).sum = p.value / p.value := by
      simp only [Portfolio.weights, List.map_map, Function.comp_def]
      simp only [div_eq_mul_inv]
      rw [List.sum_map_mul_right]
      rfl
    rw [this, div_self hv]
  · simp only [Portfolio.weights, List.map_map, Function.comp_def]
    apply List.map_congr_left
    intro e _
    exact div_mul_cancel₀ _ hv
  · intro hn w hw
    simp only [Portfolio.weights, List.mem_map] at hw
    obtain ⟨e, he, rfl⟩ := hw
    have hpos : ∀ e ∈ p, 0 ≤ e.2.value := fun e he =>
      mul_nonneg (Nat.cast_nonneg _) (hn e he)
    have hle : e.2.value ≤ p.value := by
      unfold Portfolio.value
      apply List.single_le_sum
      · intro x hx
        obtain ⟨e', he', rfl⟩ := List.mem_map.1 hx
        exact hpos e' he'
      · exact List.mem_map_of_mem (f := fun e : String × Position I => e.2.value) he
    have h0 : 0 < p.value := lt_of_le_of_ne (le_trans (hpos e he) hle) (Ne.symm hv)
    exact ⟨div_nonneg (hpos e he) h0.le, (div_le_one h0).2 hle⟩

example : Portfolio.value [("A", ⟨(), 2, 3, 5⟩), ("B", ⟨(), 1, 4, 4⟩)] =
    Portfolio.value [("B", (⟨(), 1, 4, 4⟩ : Position Unit)), ("A", ⟨(), 2, 3, 5⟩)] :=
  (C35_order _ _ (List.Perm.swap _ _ _)).1

example : ∃ p : Portfolio Unit, p.WF ∧ p.length = 2 ∧ p.value ≠ 0 ∧
    (p.updatePrice "A" 7).isSome = true ∧ p.updatePrice "C" 7 = none := by
  refine ⟨[("A", ⟨(), 2, 3, 5⟩), ("B", ⟨(), 1, 4, 4⟩)], ?_, rfl, ?_, ?_, ?_⟩
  · simp [Portfolio.WF]
  · simp [Portfolio.value, Position.value]; norm_num
  · simp [Portfolio.updatePrice, Portfolio.modify]
  · simp [Portfolio.updatePrice, Portfolio.modify]

end Verif.Portfolios
