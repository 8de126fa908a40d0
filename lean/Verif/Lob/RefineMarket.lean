import Verif.Lob.Refine

/-! Helper lemmas: the market-order loop simulates order-by-order matching. -/

namespace Verif.Lob
open Spec

/-! ### The best order -/

theorem mem_opposite {s : Bool} {L : List Order} {o : Order} :
    o ∈ opposite s L ↔ o ∈ L ∧ o.is_buy = !s := by simp [opposite]

theorem not_better_antisymm {s : Bool} {p q : Nat} (h1 : ¬ betterPrice s p q) (h2 : ¬ betterPrice s q p) : p = q := by
  unfold betterPrice at *
  cases s <;> simp at * <;> omega

theorem better_trans_not {s : Bool} {p q r : Nat} (h1 : ¬ betterPrice s p q) (h2 : ¬ betterPrice s q r) :
    ¬ betterPrice s p r := by
  unfold betterPrice at *
  cases s <;> simp at * <;> omega

theorem better_irrefl (s : Bool) (p : Nat) : ¬ betterPrice s p p := by
  unfold betterPrice; cases s <;> simp

theorem better_asymm {s : Bool} {p q : Nat} (h : betterPrice s p q) : ¬ betterPrice s q p := by
  unfold betterPrice at *
  cases s <;> simp at * <;> omega

/-- No opposite order beats price `p`. -/
def Unbeaten (s : Bool) (p : Nat) (L : List Order) : Prop := ∀ o ∈ opposite s L, ¬ betterPrice s o.limit p

theorem best_eq_head {s : Bool} {p : Nat} {L : List Order} {o : Order} {rest : List Order}
    (hu : Unbeaten s p L) (h : at_ (!s) p L = o :: rest) : best s L = some o := by
  unfold best
  rw [← List.head?_filter]
  have hoL : o ∈ at_ (!s) p L := by rw [h]; simp
  obtain ⟨ho1, ho2, ho3⟩ := mem_at.1 hoL
  have : (opposite s L).filter (fun o => (opposite s L).all (fun o' => ¬ betterPrice s o'.limit o.limit)) =
      at_ (!s) p L := by
    unfold at_
    have e1 : L.filter (fun o => decide (o.is_buy = (!s) ∧ o.limit = p)) =
        (opposite s L).filter (fun o => decide (o.limit = p)) := by
      unfold opposite
      rw [List.filter_filter]
      congr 1
      funext x
      by_cases hx : x.is_buy = !s <;> by_cases hx2 : x.limit = p <;> simp [hx, hx2]
    rw [e1]
    apply List.filter_congr
    intro x hx
    by_cases hxp : x.limit = p
    · simp only [hxp, decide_true]
      rw [List.all_eq_true]
      intro y hy
      simpa using hu y hy
    · simp only [hxp, decide_false]
      rw [List.all_eq_false]
      refine ⟨o, mem_opposite.2 ⟨ho1, ho2⟩, ?_⟩
      simp only [decide_eq_true_eq, not_not]
      by_contra hnb
      have h2 := hu x hx
      rw [ho3] at hnb
      exact hxp (not_better_antisymm h2 hnb)
  rw [this, h]
  rfl

theorem best_spec {s : Bool} {L : List Order} {o : Order} (h : best s L = some o) :
    o ∈ L ∧ o.is_buy = (!s) ∧ Unbeaten s o.limit L ∧ ∃ rest, at_ (!s) o.limit L = o :: rest := by
  have hm := List.mem_of_find?_eq_some h
  have hp := List.find?_some h
  obtain ⟨h1, h2⟩ := mem_opposite.1 hm
  have hu : Unbeaten s o.limit L := by
    intro x hx
    rw [List.all_eq_true] at hp
    simpa using hp x hx
  refine ⟨h1, h2, hu, ?_⟩
  cases hat : at_ (!s) o.limit L with
  | nil =>
    have : o ∈ at_ (!s) o.limit L := mem_at.2 ⟨h1, h2, rfl⟩
    rw [hat] at this; simp at this
  | cons x rest =>
    have := best_eq_head hu hat
    rw [h] at this
    cases this
    exact ⟨rest, rfl⟩

theorem best_none {s : Bool} {L : List Order} (h : opposite s L = []) : best s L = none := by
  simp [best, h]

theorem fill_zero (s : Bool) (L : List Order) : fill s 0 L = (true, [], L) := by
  rw [fill]; simp

theorem fill_none {s : Bool} {L : List Order} {n : Nat} (hn : n ≠ 0) (h : best s L = none) :
    fill s n L = (false, [], L) := by
  rw [fill, if_neg hn]
  split
  · rfl
  · rename_i o ho; rw [h] at ho; cases ho

theorem fill_partial {s : Bool} {L : List Order} {n : Nat} {o : Order} (hn : n ≠ 0) (h : best s L = some o)
    (hlt : n < o.shares) : fill s n L = (true, [(o.limit, n)], reduce L o.order_id n) := by
  rw [fill, if_neg hn]
  split
  · rename_i ho; rw [h] at ho; cases ho
  · rename_i o' ho; rw [h] at ho; cases ho; rw [if_pos hlt]

theorem fill_whole {s : Bool} {L : List Order} {n : Nat} {o : Order} (hn : n ≠ 0) (h : best s L = some o)
    (hle : o.shares ≤ n) : fill s n L =
      ((fill s (n - o.shares) (delete L o.order_id)).1,
       (o.limit, o.shares) :: (fill s (n - o.shares) (delete L o.order_id)).2.1,
       (fill s (n - o.shares) (delete L o.order_id)).2.2) := by
  rw [fill, if_neg hn]
  split
  · rename_i ho; rw [h] at ho; cases ho
  · rename_i o' ho; rw [h] at ho; cases ho; rw [if_neg (by omega)]

/-! ### Deleting / reducing an order -/

theorem reduce_map_id (L : List Order) (i n : Nat) :
    (reduce L i n).map (·.order_id) = L.map (·.order_id) := by
  unfold reduce
  rw [List.map_map]
  apply List.map_congr_left
  intro o _
  simp only [Function.comp]
  split <;> rfl

theorem at_reduce (s : Bool) (p : Nat) (L : List Order) (i n : Nat) :
    at_ s p (reduce L i n) = reduce (at_ s p L) i n := by
  unfold at_ reduce
  rw [List.filter_map]
  congr 1
  apply List.filter_congr
  intro o _
  simp only [Function.comp]
  split <;> rfl

theorem ids_reduce (s : Bool) (p : Nat) (L : List Order) (i n : Nat) : ids s p (reduce L i n) = ids s p L := by
  rw [ids, at_reduce, reduce_map_id]; rfl

theorem NodupIds.reduce {L : List Order} (h : NodupIds L) (i n : Nat) : NodupIds (reduce L i n) := by
  unfold NodupIds; rw [reduce_map_id]; exact h

theorem MapRel.reduce {m : OrderMap} {L : List Order} (hm : MapRel m L) (hn : NodupIds L) {o : Order} (ho : o ∈ L)
    (n : Nat) : MapRel (m.insert o.order_id { o with shares := o.shares - n }) (reduce L o.order_id n) := by
  intro j
  unfold OrderMap.insert
  have hr := hn.reduce o.order_id n
  by_cases hj : j = o.order_id
  · subst hj
    rw [if_pos rfl]
    have hmem : { o with shares := o.shares - n } ∈ Spec.reduce L o.order_id n := by
      unfold Spec.reduce
      exact List.mem_map.2 ⟨o, ho, by simp⟩
    exact (find_eq_some hr hmem).symm
  · rw [if_neg hj, hm j]
    unfold Spec.reduce
    rw [List.find?_map]
    have : (fun x : Order => decide (x.order_id = j)) ∘
        (fun x : Order => if x.order_id = o.order_id then { x with shares := x.shares - n } else x) =
        fun x => decide (x.order_id = j) := by
      funext x
      simp only [Function.comp]
      split <;> rfl
    rw [this]
    cases hf : L.find? (fun x => decide (x.order_id = j)) with
    | none => rfl
    | some x =>
      have hx := List.find?_some hf
      simp only [decide_eq_true_eq] at hx
      simp only [Option.map_some]
      rw [if_neg (by rw [hx]; exact hj)]

theorem at_delete_head {s : Bool} {p : Nat} {L : List Order} {o : Order} {rest : List Order} (hn : NodupIds L)
    (h : at_ s p L = o :: rest) : at_ s p (delete L o.order_id) = rest := by
  rw [at_delete, h]
  have hnd := hn.ids s p
  unfold ids at hnd
  rw [h] at hnd
  simp only [List.map_cons, List.nodup_cons] at hnd
  simp only [List.filter_cons, ne_eq, not_true_eq_false, decide_false, Bool.false_eq_true, if_false]
  rw [List.filter_eq_self]
  intro x hx
  simp only [decide_eq_true_eq]
  intro heq
  exact hnd.1 (List.mem_map.2 ⟨x, hx, heq⟩)

theorem at_delete_other {s : Bool} {p : Nat} {L : List Order} {o : Order} (hn : NodupIds L) (ho : o ∈ L)
    (h : ¬ (o.is_buy = s ∧ o.limit = p)) : at_ s p (delete L o.order_id) = at_ s p L := by
  rw [at_delete, List.filter_eq_self]
  intro x hx
  simp only [decide_eq_true_eq]
  intro heq
  obtain ⟨h1, h2, h3⟩ := mem_at.1 hx
  have := hn.inj h1 ho heq
  subst this
  exact h ⟨h2, h3⟩

theorem at_reduce_other {s : Bool} {p : Nat} {L : List Order} {o : Order} {n : Nat} (hn : NodupIds L) (ho : o ∈ L)
    (h : ¬ (o.is_buy = s ∧ o.limit = p)) : at_ s p (reduce L o.order_id n) = at_ s p L := by
  rw [at_reduce]
  unfold reduce
  conv_rhs => rw [← List.map_id (at_ s p L)]
  apply List.map_congr_left
  intro x hx
  obtain ⟨h1, h2, h3⟩ := mem_at.1 hx
  rw [if_neg]
  · rfl
  · intro heq
    have := hn.inj h1 ho heq
    subst this
    exact h ⟨h2, h3⟩

theorem Unbeaten.delete {s : Bool} {p : Nat} {L : List Order} (h : Unbeaten s p L) (i : Nat) :
    Unbeaten s p (delete L i) := by
  intro o ho
  obtain ⟨h1, h2⟩ := mem_opposite.1 ho
  exact h o (mem_opposite.2 ⟨(List.mem_filter.1 h1).1, h2⟩)

/-! ### One level -/

/-- Result of running one level. -/
structure LevelRes (s : Bool) (p shares executed : Nat) (q : List Nat) (m : OrderMap) (L : List Order)
    (ex' : Nat) (m' : OrderMap) (L' : List Order) (fs : List (Nat × Nat)) : Prop where
  run : execLoop shares executed q m = some (ex', ids (!s) p L', m')
  nodup : NodupIds L'
  map : MapRel m' L'
  other : ∀ s' p', ¬ (s' = (!s) ∧ p' = p) → ids s' p' L' = ids s' p' L
  le1 : executed ≤ ex'
  le2 : ex' ≤ shares
  done : ids (!s) p L' = [] ∨ ex' = shares
  fills : fill s (shares - executed) L =
    ((fill s (shares - ex') L').1, fs ++ (fill s (shares - ex') L').2.1, (fill s (shares - ex') L').2.2)
  price : ∀ f ∈ fs, f.1 = p
  sum : (fs.map Prod.snd).sum = ex' - executed
  nonempty : executed < shares → q ≠ [] → fs ≠ []

theorem level_run {s : Bool} {p shares : Nat} (hb : shares < u64Bound) (q : List Nat) :
    ∀ (executed : Nat) (m : OrderMap) (L : List Order), executed ≤ shares → NodupIds L → MapRel m L →
      Unbeaten s p L → q = ids (!s) p L →
      ∃ ex' m' L' fs, LevelRes s p shares executed q m L ex' m' L' fs := by
  induction q with
  | nil =>
    intro executed m L hle hn hm hu hq
    refine ⟨executed, m, L, [], ?_⟩
    constructor
    · rw [← hq]; rfl
    · exact hn
    · exact hm
    · intros; rfl
    · exact le_rfl
    · exact hle
    · exact Or.inl hq.symm
    · simp
    · simp
    · simp
    · intro _ h; exact absurd rfl h
  | cons i q ih =>
    intro executed m L hle hn hm hu hq
    by_cases hlt : executed < shares
    · -- head order
      cases hat : at_ (!s) p L with
      | nil => simp [ids, hat] at hq
      | cons o rest =>
        have hq' := hq
        simp only [ids, hat, List.map_cons, List.cons.injEq] at hq'
        obtain ⟨hio, hqr⟩ := hq'
        have hoat : o ∈ at_ (!s) p L := by rw [hat]; simp
        obtain ⟨hoL, ho1, ho2⟩ := mem_at.1 hoat
        have hmi : m i = some o := by rw [hio]; exact (hm.some_iff hn).2 ⟨hoL, rfl⟩
        have hbest := best_eq_head hu hat
        have hsub : subU64 shares executed = some (shares - executed) := by simp [subU64, hle]
        by_cases hpart : o.shares > shares - executed
        · -- partial fill
          refine ⟨shares, m.insert o.order_id { o with shares := o.shares - (shares - executed) },
            reduce L o.order_id (shares - executed), [(p, shares - executed)], ?_⟩
          have h1 : executed + (shares - executed) = shares := by omega
          constructor
          · unfold execLoop
            rw [if_pos hlt, hmi]
            have hsub2 : subU64 o.shares (shares - executed) = some (o.shares - (shares - executed)) := by
              simp [subU64]; omega
            have hadd : addU64 executed (shares - executed) = some shares := by
              simp [addU64, h1, hb]
            simp only [hsub, Option.bind_eq_bind, Option.bind_some, if_pos hpart, hsub2, hadd]
            rw [ids_reduce, ← hq, hio]
          · exact hn.reduce _ _
          · exact hm.reduce hn hoL _
          · intros; rw [ids_reduce]
          · exact hle
          · exact le_rfl
          · exact Or.inr rfl
          · rw [Nat.sub_self, fill_zero]
            rw [fill_partial (by omega) hbest hpart, ho2]
            rfl
          · simp
          · simp
          · simp
        · -- whole order taken
          have hle2 : o.shares ≤ shares - executed := by omega
          have hadd : addU64 executed o.shares = some (executed + o.shares) := by
            have : executed + o.shares < u64Bound := by omega
            simp [addU64, this]
          have hdel : at_ (!s) p (delete L o.order_id) = rest := at_delete_head hn hat
          obtain ⟨ex', m', L', fs, hres⟩ := ih (executed + o.shares) (m.remove i) (delete L o.order_id) (by omega)
            (hn.delete _) (by rw [hio]; exact hm.remove _) (hu.delete _) (by rw [hqr, ids, hdel])
          refine ⟨ex', m', L', (p, o.shares) :: fs, ?_⟩
          constructor
          · unfold execLoop
            rw [if_pos hlt, hmi]
            simp only [hsub, Option.bind_eq_bind, Option.bind_some, if_neg hpart, hadd]
            exact hres.run
          · exact hres.nodup
          · exact hres.map
          · intro s' p' hne
            rw [hres.other s' p' hne, ids, ids, at_delete_other hn hoL]
            rintro ⟨h1, h2⟩
            exact hne ⟨by rw [← h1, ho1], by rw [← h2, ho2]⟩
          · have := hres.le1; omega
          · exact hres.le2
          · exact hres.done
          · rw [fill_whole (by omega) hbest hle2]
            have hsub' : shares - executed - o.shares = shares - (executed + o.shares) := by omega
            rw [hsub', hres.fills, ho2]
            rfl
          · intro f hf
            rcases List.mem_cons.1 hf with rfl | hf
            · rfl
            · exact hres.price f hf
          · simp only [List.map_cons, List.sum_cons, hres.sum]
            have := hres.le1; omega
          · intros; simp
    · refine ⟨executed, m, L, [], ?_⟩
      constructor
      · unfold execLoop; rw [if_neg hlt, ← hq]
      · exact hn
      · exact hm
      · intros; rfl
      · exact le_rfl
      · exact hle
      · exact Or.inr (by omega)
      · simp
      · simp
      · simp
      · intro h; exact absurd h hlt

/-! ### Merging reported fills -/

theorem merge_ne_nil {fs : List (Nat × Nat)} (h : fs ≠ []) : merge fs ≠ [] := by
  cases fs with
  | nil => exact absurd rfl h
  | cons f fs =>
    obtain ⟨p, n⟩ := f
    unfold merge
    split
    · simp
    · split <;> simp

theorem merge_head {fs : List (Nat × Nat)} {g : Nat × Nat} {gs : List (Nat × Nat)} (h : merge fs = g :: gs) :
    ∃ f ∈ fs, f.1 = g.1 := by
  cases fs with
  | nil => simp [merge] at h
  | cons f fs =>
    obtain ⟨p, n⟩ := f
    refine ⟨(p, n), by simp, ?_⟩
    unfold merge at h
    split at h
    · cases h; rfl
    · split at h <;> cases h <;> rfl

theorem merge_append {p : Nat} {fs gs : List (Nat × Nat)} (hne : fs ≠ []) (hp : ∀ f ∈ fs, f.1 = p)
    (hg : ∀ g ∈ gs, g.1 ≠ p) : merge (fs ++ gs) = (p, (fs.map Prod.snd).sum) :: merge gs := by
  induction fs with
  | nil => exact absurd rfl hne
  | cons f fs ih =>
    obtain ⟨p', n⟩ := f
    have hp' : p' = p := hp (p', n) (by simp)
    subst hp'
    by_cases hfs : fs = []
    · subst hfs
      simp only [List.cons_append, List.nil_append, List.map_cons, List.map_nil, List.sum_cons, List.sum_nil,
        Nat.add_zero]
      conv_lhs => unfold merge
      cases hm : merge gs with
      | nil => rfl
      | cons g gs' =>
        obtain ⟨q, k⟩ := g
        obtain ⟨f, hf, hfe⟩ := merge_head hm
        simp only
        rw [if_neg]
        intro h
        exact hg f hf (by rw [hfe, h])
    · have := ih hfs (fun f hf => hp f (by simp [hf]))
      rw [List.cons_append]
      conv_lhs => unfold merge
      rw [this]
      simp

theorem fill_prices {s : Bool} (n : Nat) (L : List Order) :
    ∀ f ∈ (fill s n L).2.1, ∃ o ∈ opposite s L, o.limit = f.1 := by
  induction h : L.length using Nat.strong_induction_on generalizing n L with
  | _ k ih =>
    intro f hf
    by_cases hn : n = 0
    · subst hn; rw [fill_zero] at hf; simp at hf
    · cases hb : best s L with
      | none => rw [fill_none hn hb] at hf; simp at hf
      | some o =>
        obtain ⟨h1, h2, _, _⟩ := best_spec hb
        by_cases hlt : n < o.shares
        · rw [fill_partial hn hb hlt] at hf
          simp at hf
          subst hf
          exact ⟨o, mem_opposite.2 ⟨h1, h2⟩, rfl⟩
        · rw [fill_whole hn hb (by omega)] at hf
          simp only [List.mem_cons] at hf
          rcases hf with rfl | hf
          · exact ⟨o, mem_opposite.2 ⟨h1, h2⟩, rfl⟩
          · obtain ⟨x, hx, hxe⟩ := ih _ (by rw [← h]; exact length_delete_lt h1) _ _ rfl f hf
            obtain ⟨hx1, hx2⟩ := mem_opposite.1 hx
            exact ⟨x, mem_opposite.2 ⟨(List.mem_filter.1 hx1).1, hx2⟩, hxe⟩

/-! ### Best level of a tree -/

theorem getLast_wf {t : SMap Nat Limit} (hw : t.WF) {e : Nat × Limit} (h : t.getLast? = some e) :
    e ∈ t ∧ ∀ x ∈ t.dropLast, x.1 < e.1 := by
  have hne : t ≠ [] := by rintro rfl; simp at h
  rw [List.getLast?_eq_getLast_of_ne_nil hne] at h
  cases h
  refine ⟨List.getLast_mem hne, ?_⟩
  intro x hx
  have h1 : t.dropLast ++ [t.getLast hne] = t := List.dropLast_append_getLast hne
  unfold SMap.WF at hw
  rw [← h1, List.pairwise_append] at hw
  exact hw.2.2 x hx _ (by simp)

theorem bestLevel_spec {s : Bool} {t : SMap Nat Limit} (hw : t.WF) {k : Nat} {l : Limit}
    (h : bestLevel s t = some (k, l)) :
    (k, l) ∈ t ∧ (∀ x ∈ t, ¬ betterPrice s x.1 k) ∧ (popBest s t).WF ∧
    (∀ p, (popBest s t).get? p = if p = k then none else t.get? p) ∧ (popBest s t).length + 1 = t.length ∧
    ∀ l', (setBest s t (k, l')).WF ∧ (∀ p, (setBest s t (k, l')).get? p = if p = k then some l' else t.get? p) ∧
      (setBest s t (k, l')).length = t.length := by
  cases s with
  | true =>
    simp only [bestLevel, if_true] at h
    cases t with
    | nil => simp at h
    | cons e t =>
      simp at h
      subst h
      refine ⟨by simp, ?_, hw.tail, ?_, by simp [popBest], ?_⟩
      · intro x hx
        rcases List.mem_cons.1 hx with rfl | hx
        · exact better_irrefl _ _
        · have := hw.head_lt x hx
          simp only at this
          simp [betterPrice]; omega
      · intro p
        simp only [popBest, if_true, List.tail_cons]
        by_cases hp : p = k
        · subst hp; rw [if_pos rfl]; exact SMap.get?_none_of_lt hw.head_lt
        · rw [if_neg hp]; simp [SMap.get?, hp]
      · intro l'
        refine ⟨List.pairwise_cons.2 ⟨hw.head_lt, hw.tail⟩, ?_, by simp [setBest]⟩
        intro p
        by_cases hp : p = k <;> simp [setBest, SMap.get?, hp]
  | false =>
    simp only [bestLevel, Bool.false_eq_true, if_false] at h
    have hg := getLast_wf hw h
    have hne : t ≠ [] := by rintro rfl; simp at h
    have hsplit : t.dropLast ++ [(k, l)] = t := by
      rw [List.getLast?_eq_getLast_of_ne_nil hne] at h
      have := List.dropLast_append_getLast hne
      simp only [Option.some.injEq] at h
      rw [h] at this
      exact this
    have hwd : SMap.WF t.dropLast := List.Pairwise.sublist (List.dropLast_sublist t) hw
    have happ : ∀ (d : SMap Nat Limit) (l' : Limit) (p : Nat), (∀ x ∈ d, x.1 < k) →
        SMap.get? (d ++ [(k, l')]) p = if p = k then some l' else SMap.get? d p := by
      intro d l' p hd
      induction d with
      | nil => simp [SMap.get?]
      | cons e d ih =>
        obtain ⟨k0, v0⟩ := e
        have h0 := hd (k0, v0) (by simp)
        simp only at h0
        simp only [List.cons_append, SMap.get?]
        rw [ih (fun x hx => hd x (by simp [hx]))]
        by_cases hp : p = k
        · subst hp; simp; omega
        · simp [hp]
    refine ⟨hg.1, ?_, hwd, ?_, ?_, ?_⟩
    · intro x hx
      rw [← hsplit] at hx
      rcases List.mem_append.1 hx with hx | hx
      · have := hg.2 x hx
        simp only at this
        simp [betterPrice]; omega
      · simp at hx; subst hx; exact better_irrefl _ _
    · intro p
      simp only [popBest, Bool.false_eq_true, if_false]
      by_cases hp : p = k
      · subst hp
        rw [if_pos rfl]
        cases hgd : SMap.get? t.dropLast p with
        | none => rfl
        | some v =>
          have := hg.2 _ (SMap.get?_eq_some_mem hgd)
          simp at this
      · rw [if_neg hp]
        conv_rhs => rw [← hsplit]
        rw [happ _ _ _ hg.2, if_neg hp]
    · simp only [popBest, Bool.false_eq_true, if_false, List.length_dropLast]
      have : 0 < t.length := List.length_pos_of_ne_nil hne
      omega
    · intro l'
      simp only [setBest, Bool.false_eq_true, if_false]
      refine ⟨?_, ?_, ?_⟩
      · unfold SMap.WF
        rw [List.pairwise_append]
        refine ⟨hwd, by simp, ?_⟩
        intro x hx y hy
        simp at hy; subst hy
        exact hg.2 x hx
      · intro p
        rw [happ _ _ _ hg.2]
        by_cases hp : p = k
        · simp [hp]
        · simp only [hp, if_false]
          conv_rhs => rw [← hsplit]
          rw [happ _ _ _ hg.2, if_neg hp]
      · rw [List.length_append, List.length_dropLast]
        have : 0 < t.length := List.length_pos_of_ne_nil hne
        simp; omega

theorem bestLevel_none {s : Bool} {t : SMap Nat Limit} (h : bestLevel s t = none) : t = [] := by
  cases s with
  | true => cases t with
    | nil => rfl
    | cons _ _ => simp [bestLevel] at h
  | false => simpa [bestLevel] using h

/-! ### The whole loop -/

theorem market_run {s : Bool} (fuel : Nat) :
    ∀ (n : Nat) (t : SMap Nat Limit) (m : OrderMap) (L : List Order) (acc : List (Nat × Nat)),
      n < u64Bound → t.length + 1 ≤ fuel → NodupIds L → MapRel m L → TreeRel (!s) t L →
      ∃ t' m', marketLoop s fuel n t m acc =
          some ((fill s n L).1, acc ++ merge (fill s n L).2.1, t', m') ∧
        NodupIds (fill s n L).2.2 ∧ MapRel m' (fill s n L).2.2 ∧ TreeRel (!s) t' (fill s n L).2.2 ∧
        ∀ p, ids s p (fill s n L).2.2 = ids s p L := by
  induction fuel with
  | zero => intro n t m L acc _ h; omega
  | succ fuel ih =>
    intro n t m L acc hb hfuel hn hm ht
    by_cases hn0 : n = 0
    · subst hn0
      refine ⟨t, m, ?_, ?_⟩
      · rw [fill_zero]; simp [marketLoop, merge]
      · rw [fill_zero]; exact ⟨hn, hm, ht, fun _ => rfl⟩
    · have hpos : n > 0 := Nat.pos_of_ne_zero hn0
      cases hbl : bestLevel s t with
      | none =>
        have htn := bestLevel_none hbl
        have hopp : opposite s L = [] := by
          rw [List.eq_nil_iff_forall_not_mem]
          intro o ho
          obtain ⟨h1, h2⟩ := mem_opposite.1 ho
          have := ht.2 o.limit
          subst htn
          simp only [SMap.get?] at this
          split at this
          · rename_i he
            have hmem : o.order_id ∈ ids (!s) o.limit L := mem_ids.2 ⟨o, h1, h2, rfl, rfl⟩
            rw [he] at hmem; simp at hmem
          · cases this
        refine ⟨t, m, ?_, ?_⟩
        · rw [fill_none hn0 (best_none hopp)]
          simp [marketLoop, hpos, hbl, merge]
        · rw [fill_none hn0 (best_none hopp)]; exact ⟨hn, hm, ht, fun _ => rfl⟩
      | some kl =>
        obtain ⟨k, l⟩ := kl
        obtain ⟨hmem, hbestk, hpw, hpg, hplen, hset⟩ := bestLevel_spec ht.1 hbl
        have hgk := SMap.get?_of_mem ht.1 hmem
        rw [ht.2 k] at hgk
        have hkne : ids (!s) k L ≠ [] := by
          intro h; rw [h] at hgk; simp at hgk
        rw [if_neg hkne] at hgk
        cases hgk
        -- price k is unbeaten
        have hu : Unbeaten s k L := by
          intro o ho
          obtain ⟨h1, h2⟩ := mem_opposite.1 ho
          have hne : ids (!s) o.limit L ≠ [] := by
            intro h
            have hmem : o.order_id ∈ ids (!s) o.limit L := mem_ids.2 ⟨o, h1, h2, rfl, rfl⟩
            rw [h] at hmem; simp at hmem
          have hg := ht.2 o.limit
          rw [if_neg hne] at hg
          exact hbestk _ (SMap.get?_eq_some_mem hg)
        obtain ⟨ex', m', L', fs, hres⟩ := level_run hb (ids (!s) k L) 0 m L (Nat.zero_le _) hn hm hu rfl
        have hfills := hres.fills
        rw [Nat.sub_zero] at hfills
        have hsum := hres.sum
        rw [Nat.sub_zero] at hsum
        have hfsne := hres.nonempty hpos hkne
        have hsub : subU64 n ex' = some (n - ex') := by simp [subU64, hres.le2]
        have hown : ∀ p, ids s p L' = ids s p L := by
          intro p
          apply hres.other
          rintro ⟨h, _⟩
          cases s <;> simp at h
        by_cases hemp : ids (!s) k L' = []
        · -- level emptied
          have ht' : TreeRel (!s) (popBest s t) L' := by
            refine ⟨hpw, ?_⟩
            intro p
            rw [hpg]
            by_cases hp : p = k
            · subst hp; simp [hemp]
            · rw [if_neg hp, ht.2 p, hres.other (!s) p (by rintro ⟨_, h⟩; exact hp h)]
          obtain ⟨t'', m'', hrun, h1, h2, h3, h4⟩ := ih (n - ex') (popBest s t) m' L' (acc ++ [(k, ex')])
            (by omega) (by omega) hres.nodup hres.map ht'
          refine ⟨t'', m'', ?_, ?_⟩
          · unfold marketLoop
            rw [if_pos hpos, hbl]
            simp only [Limit.execute, hres.run, hemp, Option.bind_eq_bind, Option.bind_some, hsub, List.isEmpty_nil,
              if_true]
            rw [hrun, hfills]
            simp only
            rw [merge_append hfsne hres.price, hsum]
            · simp
            · intro g hg
              obtain ⟨o, ho, hoe⟩ := fill_prices _ _ g hg
              obtain ⟨ho1, ho2⟩ := mem_opposite.1 ho
              intro h
              have hmem : o.order_id ∈ ids (!s) k L' := mem_ids.2 ⟨o, ho1, ho2, by rw [hoe, h], rfl⟩
              rw [hemp] at hmem; simp at hmem
          · rw [hfills]
            exact ⟨h1, h2, h3, fun p => (h4 p).trans (hown p)⟩
        · -- level kept: everything is filled
          have hex : ex' = n := by
            rcases hres.done with h | h
            · exact absurd h hemp
            · exact h
          obtain ⟨hsw, hsg, hslen⟩ := hset ⟨k, ids (!s) k L'⟩
          have ht' : TreeRel (!s) (setBest s t (k, ⟨k, ids (!s) k L'⟩)) L' := by
            refine ⟨hsw, ?_⟩
            intro p
            rw [hsg]
            by_cases hp : p = k
            · subst hp; simp [hemp]
            · rw [if_neg hp, ht.2 p, hres.other (!s) p (by rintro ⟨_, h⟩; exact hp h)]
          have hz : n - ex' = 0 := by omega
          rw [hz, fill_zero] at hfills
          have hlen : 0 < t.length := by
            cases t with
            | nil => simp at hmem
            | cons _ _ => simp
          refine ⟨setBest s t (k, ⟨k, ids (!s) k L'⟩), m', ?_, ?_⟩
          · unfold marketLoop
            rw [if_pos hpos, hbl]
            have hie : (ids (!s) k L').isEmpty = false := by
              cases h : ids (!s) k L' with
              | nil => exact absurd h hemp
              | cons _ _ => rfl
            simp only [Limit.execute, hres.run, Option.bind_eq_bind, Option.bind_some, hsub, hie,
              Bool.false_eq_true, if_false, hz]
            cases fuel with
            | zero => omega
            | succ fuel =>
              simp only [marketLoop, gt_iff_lt, Nat.lt_irrefl, if_false]
              rw [hfills]
              simp only [List.append_nil]
              have := merge_append (gs := []) hfsne hres.price (by simp)
              simp only [List.append_nil] at this
              rw [this, hsum]
              simp [merge]
          · rw [hfills]
            exact ⟨hres.nodup, hres.map, ht', hown⟩

theorem R_market {b : Book} {L : List Order} (h : R b L) {n : Nat} (hb : n < u64Bound) (s : Bool) :
    ∃ b', b.market n s = some (b', (fill s n L).1, merge (fill s n L).2.1) ∧ R b' (fill s n L).2.2 := by
  obtain ⟨t', m', hrun, h1, h2, h3, h4⟩ := market_run (s := s) ((b.tree (!s)).length + 2) n (b.tree (!s))
    b.order_map L [] hb (by omega) h.nodup h.map (h.tree (!s))
  unfold Book.market
  simp only [hrun, Option.bind_eq_bind, Option.bind_some, List.nil_append]
  refine ⟨_, rfl, ?_⟩
  constructor
  · exact h1
  · rw [order_map_setTree]; exact h2
  · intro s'
    rw [tree_setTree]
    by_cases hs : s' = !s
    · subst hs; rw [if_pos rfl]; exact h3
    · rw [if_neg hs]
      have hss : s' = s := by cases s <;> cases s' <;> simp_all
      subst hss
      have htree : (Book.tree { b with order_map := m' } s') = b.tree s' := by cases s' <;> rfl
      rw [htree]
      obtain ⟨hw, hg⟩ := h.tree s'
      exact ⟨hw, fun p => by rw [hg p, h4 p]⟩

/-- Arguments of a call are `u64` values. -/
def Op.U64 : Op → Prop
  | .add id _ n p ts => id < u64Bound ∧ n < u64Bound ∧ p < u64Bound ∧ ts < u64Bound
  | .cancel id => id < u64Bound
  | .market n _ => n < u64Bound

theorem R_step {b : Book} {L : List Order} (h : R b L) {op : Op} (hop : op.U64) :
    ∃ b', step b op = some (b', (Spec.step L op).2) ∧ R b' (Spec.step L op).1 := by
  cases op with
  | add id s n p ts =>
    obtain ⟨h1, h2⟩ := R_add h id s n p ts
    refine ⟨(b.addOrder id s n p ts).1, ?_, ?_⟩
    · simp only [step, Spec.step, h1]
      cases L.any (fun o => decide (o.order_id = id)) <;> rfl
    · simp only [Spec.step]
      split
      · rename_i hc; rw [if_pos hc] at h2; exact h2
      · rename_i hc; rw [if_neg hc] at h2; exact h2
  | cancel id =>
    obtain ⟨b', h1, h2⟩ := R_cancel h id
    refine ⟨b', ?_, ?_⟩
    · simp only [step, Spec.step, h1, Option.bind_eq_bind, Option.bind_some]
      cases L.any (fun o => decide (o.order_id = id)) <;> rfl
    · simp only [Spec.step]
      split
      · rename_i hc; rw [if_pos hc] at h2; exact h2
      · rename_i hc; rw [if_neg hc] at h2; exact h2
  | market n s =>
    obtain ⟨b', h1, h2⟩ := R_market h hop s
    exact ⟨b', by simp only [step, h1, Option.bind_eq_bind, Option.bind_some]; rfl, h2⟩

theorem R_run (ops : List Op) : ∀ {b : Book} {L : List Order}, R b L → (∀ op ∈ ops, op.U64) →
    ∃ b', run b ops = some (b', (Spec.run L ops).2) ∧ R b' (Spec.run L ops).1 := by
  induction ops with
  | nil => intro b L h _; exact ⟨b, rfl, h⟩
  | cons op ops ih =>
    intro b L h hops
    obtain ⟨b1, h1, h2⟩ := R_step h (hops op (by simp))
    obtain ⟨b2, h3, h4⟩ := ih h2 (fun o ho => hops o (by simp [ho]))
    refine ⟨b2, ?_, h4⟩
    simp only [run, h1, Option.bind_eq_bind, Option.bind_some, h3]
    rfl

end Verif.Lob
