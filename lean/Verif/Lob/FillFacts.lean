import Verif.Lob.Obs

/-! Helper lemmas: facts about order-by-order matching. -/

namespace Verif.Lob
open Spec

/-- FIFO consumption of `k` shares from queue `q` leaving `q'`: the orders that disappear are a prefix, and at most
the first remaining one is reduced. -/
def FifoTake (k : Nat) (q q' : List Order) : Prop :=
  ∃ gone kept, q = gone ++ kept ∧
    ((q' = kept ∧ sharesOf gone = k) ∨
     ∃ o rest r, kept = o :: rest ∧ 0 < r ∧ r < o.shares ∧ q' = { o with shares := o.shares - r } :: rest ∧
       sharesOf gone + r = k)

theorem FifoTake.refl (q : List Order) : FifoTake 0 q q := ⟨[], q, rfl, Or.inl ⟨rfl, rfl⟩⟩

theorem FifoTake.cons {k : Nat} {q q' : List Order} (o : Order) (h : FifoTake k q q') :
    FifoTake (o.shares + k) (o :: q) q' := by
  obtain ⟨gone, kept, h1, h2⟩ := h
  refine ⟨o :: gone, kept, by rw [h1]; rfl, ?_⟩
  rcases h2 with ⟨h2, h3⟩ | ⟨x, rest, r, h2, h3, h4, h5, h6⟩
  · left
    exact ⟨h2, by simp only [sharesOf, List.map_cons, List.sum_cons] at *; omega⟩
  · right
    exact ⟨x, rest, r, h2, h3, h4, h5, by simp only [sharesOf, List.map_cons, List.sum_cons] at *; omega⟩

theorem fill_induct {s : Bool} {P : Nat → List Order → Bool × List (Nat × Nat) × List Order → Prop}
    (zero : ∀ L, P 0 L (true, [], L))
    (none : ∀ n L, n ≠ 0 → best s L = none → P n L (false, [], L))
    (part : ∀ n L o, n ≠ 0 → best s L = some o → n < o.shares → P n L (true, [(o.limit, n)], reduce L o.order_id n))
    (whole : ∀ n L o, n ≠ 0 → best s L = some o → o.shares ≤ n →
      P (n - o.shares) (delete L o.order_id) (fill s (n - o.shares) (delete L o.order_id)) →
      P n L ((fill s (n - o.shares) (delete L o.order_id)).1,
        (o.limit, o.shares) :: (fill s (n - o.shares) (delete L o.order_id)).2.1,
        (fill s (n - o.shares) (delete L o.order_id)).2.2)) :
    ∀ n L, P n L (fill s n L) := by
  intro n L
  induction h : L.length using Nat.strong_induction_on generalizing n L with
  | _ k ih =>
    by_cases hn : n = 0
    · subst hn; rw [fill_zero]; exact zero L
    · cases hb : best s L with
      | none => rw [fill_none hn hb]; exact none n L hn hb
      | some o =>
        by_cases hlt : n < o.shares
        · rw [fill_partial hn hb hlt]; exact part n L o hn hb hlt
        · rw [fill_whole hn hb (by omega)]
          exact whole n L o hn hb (by omega) (ih _ (by rw [← h]; exact length_delete_lt (best_spec hb).1) _ _ rfl)

theorem not_self_ne (s : Bool) : ¬ ((!s) = s) := by cases s <;> simp

theorem fill_own {s : Bool} (n : Nat) (L : List Order) : NodupIds L →
    ∀ p, at_ s p (fill s n L).2.2 = at_ s p L := by
  refine fill_induct (s := s) (P := fun n L r => NodupIds L → ∀ p, at_ s p r.2.2 = at_ s p L) ?_ ?_ ?_ ?_ n L
  · intro L _ p; rfl
  · intro n L _ _ _ p; rfl
  · intro n L o _ hb _ hn p
    obtain ⟨h1, h2, _, _⟩ := best_spec hb
    exact at_reduce_other hn h1 (by rintro ⟨h, _⟩; rw [h2] at h; exact not_self_ne s h)
  · intro n L o _ hb _ ih hn p
    obtain ⟨h1, h2, _, _⟩ := best_spec hb
    rw [ih (hn.delete _) p]
    exact at_delete_other hn h1 (by rintro ⟨h, _⟩; rw [h2] at h; exact not_self_ne s h)

theorem filledAt_cons (p : Nat) (f : Nat × Nat) (fs : List (Nat × Nat)) :
    filledAt p (f :: fs) = (if f.1 = p then f.2 else 0) + filledAt p fs := by
  unfold filledAt filledShares
  by_cases h : f.1 = p <;> simp [h]

theorem fill_fifo {s : Bool} (n : Nat) (L : List Order) : NodupIds L →
    ∀ p, FifoTake (filledAt p (fill s n L).2.1) (at_ (!s) p L) (at_ (!s) p (fill s n L).2.2) := by
  refine fill_induct (s := s) (P := fun n L r => NodupIds L →
    ∀ p, FifoTake (filledAt p r.2.1) (at_ (!s) p L) (at_ (!s) p r.2.2)) ?_ ?_ ?_ ?_ n L
  · intro L _ p; exact FifoTake.refl _
  · intro n L _ _ _ p; exact FifoTake.refl _
  · intro n L o hn0 hb hlt hn p
    obtain ⟨h1, h2, _, rest, h3⟩ := best_spec hb
    by_cases hp : o.limit = p
    · subst hp
      rw [filledAt_cons, at_reduce, h3]
      refine ⟨[], o :: rest, rfl, Or.inr ⟨o, rest, n, rfl, by omega, hlt, ?_, ?_⟩⟩
      · have hnd := hn.ids (!s) o.limit
        unfold ids at hnd
        rw [h3] at hnd
        simp only [List.map_cons, List.nodup_cons] at hnd
        unfold reduce
        simp only [List.map_cons, if_true]
        congr 1
        conv_rhs => rw [← List.map_id rest]
        apply List.map_congr_left
        intro x hx
        rw [if_neg]
        · rfl
        · intro heq; exact hnd.1 (List.mem_map.2 ⟨x, hx, heq⟩)
      · simp [filledAt, filledShares, sharesOf]
    · rw [filledAt_cons]
      simp only [hp, if_false]
      rw [at_reduce_other hn h1 (by rintro ⟨_, h⟩; exact hp h)]
      exact FifoTake.refl _
  · intro n L o hn0 hb hle ih hn p
    obtain ⟨h1, h2, _, rest, h3⟩ := best_spec hb
    have ih := ih (hn.delete _) p
    by_cases hp : o.limit = p
    · subst hp
      rw [filledAt_cons, if_pos rfl, h3]
      rw [at_delete_head hn h3] at ih
      exact ih.cons o
    · rw [filledAt_cons]
      simp only [hp, if_false, Nat.zero_add]
      rw [at_delete_other hn h1 (by rintro ⟨_, h⟩; exact hp h)] at ih
      exact ih

theorem fill_untouched {s : Bool} (n : Nat) (L : List Order) : NodupIds L →
    ∀ p, (∀ f ∈ (fill s n L).2.1, f.1 ≠ p) → at_ (!s) p (fill s n L).2.2 = at_ (!s) p L := by
  refine fill_induct (s := s) (P := fun n L r => NodupIds L →
    ∀ p, (∀ f ∈ r.2.1, f.1 ≠ p) → at_ (!s) p r.2.2 = at_ (!s) p L) ?_ ?_ ?_ ?_ n L
  · intro L _ p _; rfl
  · intro n L _ _ _ p _; rfl
  · intro n L o _ hb _ hn p hp
    obtain ⟨h1, _⟩ := best_spec hb
    exact at_reduce_other hn h1 (by rintro ⟨_, h⟩; exact hp (o.limit, n) (by simp) h)
  · intro n L o _ hb _ ih hn p hp
    obtain ⟨h1, _⟩ := best_spec hb
    rw [ih (hn.delete _) p (fun f hf => hp f (by simp [hf]))]
    exact at_delete_other hn h1 (by rintro ⟨_, h⟩; exact hp (o.limit, o.shares) (by simp) h)

theorem fill_stays_empty {s : Bool} (n : Nat) (L : List Order) (hn : NodupIds L) (q : Nat)
    (h : at_ (!s) q L = []) : at_ (!s) q (fill s n L).2.2 = [] := by
  obtain ⟨gone, kept, h1, h2⟩ := fill_fifo (s := s) n L hn q
  rw [h] at h1
  have := List.append_eq_nil_iff.1 h1.symm
  rcases h2 with ⟨h2, _⟩ | ⟨o, rest, r, h2, _⟩
  · rw [h2, this.2]
  · rw [this.2] at h2; cases h2

theorem Unbeaten.at_nil {s : Bool} {p q : Nat} {L : List Order} (h : Unbeaten s p L) (hq : betterPrice s q p) :
    at_ (!s) q L = [] := by
  rw [List.eq_nil_iff_forall_not_mem]
  intro x hx
  obtain ⟨h1, h2, h3⟩ := mem_at.1 hx
  exact h x (mem_opposite.2 ⟨h1, h2⟩) (by rw [h3]; exact hq)

theorem fill_priority {s : Bool} (n : Nat) (L : List Order) : NodupIds L →
    ∀ f ∈ (fill s n L).2.1, ∀ q, betterPrice s q f.1 → at_ (!s) q (fill s n L).2.2 = [] := by
  refine fill_induct (s := s) (P := fun n L r => NodupIds L →
    ∀ f ∈ r.2.1, ∀ q, betterPrice s q f.1 → at_ (!s) q r.2.2 = []) ?_ ?_ ?_ ?_ n L
  · intro L _ f hf; simp at hf
  · intro n L _ _ _ f hf; simp at hf
  · intro n L o hn0 hb hlt hn f hf q hq
    obtain ⟨h1, h2, hu, _⟩ := best_spec hb
    simp at hf
    subst hf
    simp only at hq ⊢
    rw [at_reduce, hu.at_nil hq]
    rfl
  · intro n L o hn0 hb hle ih hn f hf q hq
    obtain ⟨h1, h2, hu, _⟩ := best_spec hb
    simp only [List.mem_cons] at hf
    rcases hf with rfl | hf
    · simp only at hq ⊢
      exact fill_stays_empty _ _ (hn.delete _) q ((hu.delete _).at_nil hq)
    · exact ih (hn.delete _) f hf q hq

theorem fill_sorted {s : Bool} (n : Nat) (L : List Order) :
    (fill s n L).2.1.Pairwise (fun a c => ¬ betterPrice s c.1 a.1) := by
  refine fill_induct (s := s) (P := fun n L r => r.2.1.Pairwise (fun a c => ¬ betterPrice s c.1 a.1)) ?_ ?_ ?_ ?_ n L
  · intro L; simp
  · intro n L _ _; simp
  · intro n L o _ _ _; simp
  · intro n L o hn0 hb hle ih
    obtain ⟨h1, h2, hu, _⟩ := best_spec hb
    refine List.pairwise_cons.2 ⟨?_, ih⟩
    intro f hf
    obtain ⟨x, hx, hxe⟩ := fill_prices _ _ f hf
    rw [← hxe]
    exact hu.delete _ x hx

/-- Shares resting on the other side. -/
def oppShares (s : Bool) (L : List Order) : Nat := sharesOf (L.filter (fun o => o.is_buy = !s))

theorem oppShares_delete {s : Bool} {L : List Order} {o : Order} (hn : NodupIds L) (ho : o ∈ L)
    (hs : o.is_buy = !s) : oppShares s (delete L o.order_id) + o.shares = oppShares s L := by
  unfold oppShares
  induction L with
  | nil => simp at ho
  | cons x L ih =>
    have hn' : NodupIds L := by unfold NodupIds at *; simp at hn; exact hn.2
    by_cases hx : x.order_id = o.order_id
    · have hxo : x = o := hn.inj (by simp) ho hx
      subst hxo
      have hdel : delete (x :: L) x.order_id = L := by
        unfold delete
        simp only [List.filter_cons, ne_eq, not_true_eq_false, decide_false, Bool.false_eq_true, if_false]
        rw [List.filter_eq_self]
        intro y hy
        simp only [decide_eq_true_eq]
        intro h
        unfold NodupIds at hn
        simp only [List.map_cons, List.nodup_cons] at hn
        exact hn.1 (List.mem_map.2 ⟨y, hy, h⟩)
      rw [hdel]
      simp [hs, sharesOf]
      omega
    · have hoL : o ∈ L := by
        rcases List.mem_cons.1 ho with h | h
        · exact absurd (by rw [h]) hx
        · exact h
      have := ih hn' hoL
      have hdel : delete (x :: L) o.order_id = x :: delete L o.order_id := by
        unfold delete; simp [hx]
      rw [hdel]
      simp only [List.filter_cons]
      split <;> simp only [sharesOf, List.map_cons, List.sum_cons] at * <;> omega

theorem oppShares_reduce {s : Bool} {L : List Order} {o : Order} {n : Nat} (hn : NodupIds L) (ho : o ∈ L)
    (hs : o.is_buy = !s) (hle : n ≤ o.shares) : oppShares s (reduce L o.order_id n) + n = oppShares s L := by
  unfold oppShares
  induction L with
  | nil => simp at ho
  | cons x L ih =>
    have hn' : NodupIds L := by unfold NodupIds at *; simp at hn; exact hn.2
    by_cases hx : x.order_id = o.order_id
    · have hxo : x = o := hn.inj (by simp) ho hx
      subst hxo
      have hred : reduce L x.order_id n = L := by
        unfold reduce
        conv_rhs => rw [← List.map_id L]
        apply List.map_congr_left
        intro y hy
        rw [if_neg]
        · rfl
        · intro h
          unfold NodupIds at hn
          simp only [List.map_cons, List.nodup_cons] at hn
          exact hn.1 (List.mem_map.2 ⟨y, hy, h⟩)
      have : reduce (x :: L) x.order_id n = { x with shares := x.shares - n } :: L := by
        conv_rhs => rw [← hred]
        simp [reduce]
      rw [this]
      simp [hs, sharesOf]
      omega
    · have hoL : o ∈ L := by
        rcases List.mem_cons.1 ho with h | h
        · exact absurd (by rw [h]) hx
        · exact h
      have := ih hn' hoL
      have hred : reduce (x :: L) o.order_id n = x :: reduce L o.order_id n := by
        simp [reduce, hx]
      rw [hred]
      simp only [List.filter_cons]
      split <;> simp only [sharesOf, List.map_cons, List.sum_cons] at * <;> omega

theorem best_none_opp {s : Bool} {L : List Order} (h : best s L = none) : opposite s L = [] := by
  by_contra hne
  -- a best-priced order exists
  have : ∃ o ∈ opposite s L, ∀ x ∈ opposite s L, ¬ betterPrice s x.limit o.limit := by
    clear h
    generalize opposite s L = l0 at hne
    induction l0 with
    | nil => exact absurd rfl hne
    | cons y l ih =>
      by_cases hl : l = []
      · subst hl
        exact ⟨y, by simp, by intro x hx; simp at hx; subst hx; exact better_irrefl _ _⟩
      · obtain ⟨o, ho, hall⟩ := ih hl
        by_cases hb : betterPrice s y.limit o.limit
        · refine ⟨y, by simp, ?_⟩
          intro x hx
          rcases List.mem_cons.1 hx with rfl | hx
          · exact better_irrefl _ _
          · exact better_trans_not (hall x hx) (better_asymm hb)
        · refine ⟨o, by simp [ho], ?_⟩
          intro x hx
          rcases List.mem_cons.1 hx with rfl | hx
          · exact hb
          · exact hall x hx
  obtain ⟨o, ho, hall⟩ := this
  unfold best at h
  rw [List.find?_eq_none] at h
  apply h o ho
  rw [List.all_eq_true]
  intro x hx
  simpa using hall x hx

theorem fill_volume {s : Bool} (n : Nat) (L : List Order) : NodupIds L →
    filledShares (fill s n L).2.1 = min n (oppShares s L) ∧
    ((fill s n L).1 = true ↔ n ≤ oppShares s L) ∧
    oppShares s (fill s n L).2.2 + filledShares (fill s n L).2.1 = oppShares s L := by
  refine fill_induct (s := s) (P := fun n L r => NodupIds L → filledShares r.2.1 = min n (oppShares s L) ∧
    (r.1 = true ↔ n ≤ oppShares s L) ∧ oppShares s r.2.2 + filledShares r.2.1 = oppShares s L) ?_ ?_ ?_ ?_ n L
  · intro L _; simp [filledShares]
  · intro n L hn0 hb _
    have := best_none_opp hb
    have h0 : oppShares s L = 0 := by unfold oppShares; unfold opposite at this; rw [this]; rfl
    simp [filledShares, h0, hn0]
  · intro n L o hn0 hb hlt hn
    obtain ⟨h1, h2, _, _⟩ := best_spec hb
    have h3 := oppShares_reduce hn h1 h2 (Nat.le_of_lt hlt)
    have h4 := oppShares_delete hn h1 h2
    simp only [filledShares, List.map_cons, List.map_nil, List.sum_cons, List.sum_nil]
    refine ⟨by omega, by simp; omega, by omega⟩
  · intro n L o hn0 hb hle ih hn
    obtain ⟨h1, h2, _, _⟩ := best_spec hb
    have h4 := oppShares_delete hn h1 h2
    obtain ⟨i1, i2, i3⟩ := ih (hn.delete _)
    simp only [filledShares, List.map_cons, List.sum_cons] at *
    refine ⟨by omega, ?_, by omega⟩
    rw [i2]; omega

theorem sharesOf_filter_delete {s : Bool} {L : List Order} {o : Order} (hn : NodupIds L) (ho : o ∈ L)
    (hs : o.is_buy ≠ s) : (delete L o.order_id).filter (fun x => x.is_buy = s) = L.filter (fun x => x.is_buy = s) := by
  unfold delete
  rw [List.filter_filter]
  apply List.filter_congr
  intro x hx
  by_cases h : x.is_buy = s
  · have : x.order_id ≠ o.order_id := fun he => hs (by rw [← hn.inj hx ho he, h])
    simp [h, this]
  · simp [h]

theorem filter_reduce {s : Bool} {L : List Order} {o : Order} {n : Nat} (hn : NodupIds L) (ho : o ∈ L)
    (hs : o.is_buy ≠ s) : (reduce L o.order_id n).filter (fun x => x.is_buy = s) = L.filter (fun x => x.is_buy = s) := by
  unfold reduce
  rw [List.filter_map]
  have : ∀ x ∈ L.filter ((fun x : Order => decide (x.is_buy = s)) ∘
      fun o_1 : Order => if o_1.order_id = o.order_id then { o_1 with shares := o_1.shares - n } else o_1),
      (if x.order_id = o.order_id then { x with shares := x.shares - n } else x) = x := by
    intro x hx
    obtain ⟨h1, h2⟩ := List.mem_filter.1 hx
    simp only [Function.comp] at h2
    rw [if_neg]
    intro he
    have := hn.inj h1 ho he
    subst this
    simp at h2
    exact hs h2
  rw [List.map_congr_left this, List.map_id'']
  · apply List.filter_congr
    intro x hx
    simp only [Function.comp]
    split <;> rfl
  · intro x; rfl

theorem fill_own_shares {s : Bool} (n : Nat) (L : List Order) : NodupIds L →
    sharesOf ((fill s n L).2.2.filter (fun o => o.is_buy = s)) = sharesOf (L.filter (fun o => o.is_buy = s)) := by
  refine fill_induct (s := s) (P := fun n L r => NodupIds L →
    sharesOf (r.2.2.filter (fun o => o.is_buy = s)) = sharesOf (L.filter (fun o => o.is_buy = s))) ?_ ?_ ?_ ?_ n L
  · intro L _; rfl
  · intro n L _ _ _; rfl
  · intro n L o _ hb _ hn
    obtain ⟨h1, h2, _⟩ := best_spec hb
    rw [filter_reduce hn h1 (by rw [h2]; exact not_self_ne s)]
  · intro n L o _ hb _ ih hn
    obtain ⟨h1, h2, _⟩ := best_spec hb
    rw [ih (hn.delete _), sharesOf_filter_delete hn h1 (by rw [h2]; exact not_self_ne s)]

/-! ### merge -/

theorem merge_sum (fs : List (Nat × Nat)) : filledShares (merge fs) = filledShares fs := by
  induction fs with
  | nil => rfl
  | cons f fs ih =>
    obtain ⟨p, n⟩ := f
    unfold merge
    split
    · rename_i h; rw [h] at ih; simp [filledShares] at *; omega
    · rename_i q k gs h
      rw [h] at ih
      split <;> simp [filledShares] at * <;> omega

theorem merge_filledAt (r : Nat) (fs : List (Nat × Nat)) : filledAt r (merge fs) = filledAt r fs := by
  induction fs with
  | nil => rfl
  | cons f fs ih =>
    obtain ⟨p, n⟩ := f
    unfold merge
    split
    · rename_i h; rw [h] at ih; rw [filledAt_cons, filledAt_cons, ih]
    · rename_i q k gs h
      rw [h] at ih
      split
      · rename_i hpq; subst hpq
        rw [filledAt_cons, filledAt_cons] at *
        simp only at *
        split <;> simp_all [← ih, Nat.add_assoc]
      · rw [filledAt_cons, ih, filledAt_cons]

theorem merge_prices (fs : List (Nat × Nat)) (p : Nat) :
    (∃ g ∈ merge fs, g.1 = p) ↔ ∃ f ∈ fs, f.1 = p := by
  induction fs with
  | nil => simp [merge]
  | cons f fs ih =>
    obtain ⟨q, n⟩ := f
    unfold merge
    split
    · rename_i h
      rw [h] at ih
      simp at ih
      have : fs = [] := by
        by_contra hne
        exact merge_ne_nil hne h
      subst this
      simp
    · rename_i q' k gs h
      rw [h] at ih
      split
      · rename_i hqq; subst hqq
        simp only [List.mem_cons, exists_eq_or_imp] at *
        rw [← ih]
        simp
      · simp only [List.mem_cons, exists_eq_or_imp] at *
        rw [← ih]

theorem merge_strict {s : Bool} {fs : List (Nat × Nat)} (h : fs.Pairwise (fun a c => ¬ betterPrice s c.1 a.1)) :
    (merge fs).Pairwise (fun a c => betterPrice s a.1 c.1) := by
  induction fs with
  | nil => simp [merge]
  | cons f fs ih =>
    obtain ⟨p, n⟩ := f
    obtain ⟨h1, h2⟩ := List.pairwise_cons.1 h
    have ih := ih h2
    have key : ∀ g ∈ merge fs, ¬ betterPrice s g.1 p := by
      intro g hg
      obtain ⟨f, hf, he⟩ := (merge_prices fs g.1).1 ⟨g, hg, rfl⟩
      rw [← he]; exact h1 f hf
    unfold merge
    split
    · simp
    · rename_i q k gs hm
      rw [hm] at ih key
      obtain ⟨h3, h4⟩ := List.pairwise_cons.1 ih
      split
      · rename_i hpq; subst hpq
        exact List.pairwise_cons.2 ⟨h3, h4⟩
      · rename_i hpq
        have hb : betterPrice s p q := by
          by_contra hnb
          exact hpq (not_better_antisymm hnb (key (q, k) (by simp)))
        refine List.pairwise_cons.2 ⟨?_, ih⟩
        intro g hg
        rcases List.mem_cons.1 hg with rfl | hg
        · exact hb
        · have := h3 g hg
          unfold betterPrice at *
          cases s <;> simp at * <;> omega

end Verif.Lob
