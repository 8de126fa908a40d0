import Verif.Lob.Spec
import Mathlib.Data.List.Nodup

/-! Helper lemmas: the book simulates the specification. -/

namespace Verif.Lob
open Spec

/-- Orders of side `s` at price `p`. -/
def at_ (s : Bool) (p : Nat) (L : List Order) : List Order := L.filter (fun o => o.is_buy = s ∧ o.limit = p)

/-- Their ids, in arrival order. -/
def ids (s : Bool) (p : Nat) (L : List Order) : List Nat := (at_ s p L).map (·.order_id)

/-- No two live orders share an id. -/
def NodupIds (L : List Order) : Prop := (L.map (·.order_id)).Nodup

/-- The order map is the lookup in the list of live orders. -/
def MapRel (m : OrderMap) (L : List Order) : Prop := ∀ id, m id = L.find? (fun o => o.order_id = id)

/-- The tree of side `s` holds exactly the non-empty queues. -/
def TreeRel (s : Bool) (t : SMap Nat Limit) (L : List Order) : Prop :=
  t.WF ∧ ∀ p, t.get? p = if ids s p L = [] then none else some ⟨p, ids s p L⟩

/-- Simulation relation. -/
structure R (b : Book) (L : List Order) : Prop where
  nodup : NodupIds L
  map : MapRel b.order_map L
  tree : ∀ s, TreeRel s (b.tree s) L

theorem mem_at {s : Bool} {p : Nat} {L : List Order} {o : Order} :
    o ∈ at_ s p L ↔ o ∈ L ∧ o.is_buy = s ∧ o.limit = p := by
  simp [at_]

theorem mem_ids {s : Bool} {p : Nat} {L : List Order} {i : Nat} :
    i ∈ ids s p L ↔ ∃ o ∈ L, o.is_buy = s ∧ o.limit = p ∧ o.order_id = i := by
  simp only [ids, List.mem_map, mem_at]
  constructor
  · rintro ⟨o, ⟨h1, h2, h3⟩, h4⟩; exact ⟨o, h1, h2, h3, h4⟩
  · rintro ⟨o, h1, h2, h3, h4⟩; exact ⟨o, ⟨h1, h2, h3⟩, h4⟩

theorem NodupIds.ids {L : List Order} (h : NodupIds L) (s : Bool) (p : Nat) : (ids s p L).Nodup := by
  unfold NodupIds at h
  exact h.sublist ((List.filter_sublist (l := L)).map _)

theorem NodupIds.inj {L : List Order} (h : NodupIds L) {a b : Order} (ha : a ∈ L) (hb : b ∈ L)
    (hab : a.order_id = b.order_id) : a = b :=
  List.inj_on_of_nodup_map h ha hb hab

theorem find_eq_some {L : List Order} (h : NodupIds L) {o : Order} (ho : o ∈ L) :
    L.find? (fun x => x.order_id = o.order_id) = some o := by
  cases hf : L.find? (fun x => x.order_id = o.order_id) with
  | none =>
    have := List.find?_eq_none.1 hf o ho
    simp at this
  | some a =>
    have h1 := List.mem_of_find?_eq_some hf
    have h2 := List.find?_some hf
    simp at h2
    rw [h.inj h1 ho h2]

theorem MapRel.some_iff {m : OrderMap} {L : List Order} (hm : MapRel m L) (h : NodupIds L) {i : Nat} {o : Order} :
    m i = some o ↔ o ∈ L ∧ o.order_id = i := by
  rw [hm i]
  constructor
  · intro hf
    exact ⟨List.mem_of_find?_eq_some hf, by simpa using List.find?_some hf⟩
  · rintro ⟨h1, rfl⟩
    exact find_eq_some h h1

theorem MapRel.isSome_iff {m : OrderMap} {L : List Order} (hm : MapRel m L) {i : Nat} :
    (m i).isSome = L.any (fun o => o.order_id = i) := by
  rw [hm i, List.isSome_find?]

/-! ### add -/

theorem ids_append_single (s : Bool) (p : Nat) (L : List Order) (o : Order) :
    ids s p (L ++ [o]) = ids s p L ++ if o.is_buy = s ∧ o.limit = p then [o.order_id] else [] := by
  simp only [ids, at_, List.filter_append, List.map_append]
  congr 1
  by_cases h : o.is_buy = s ∧ o.limit = p <;> simp [h]

theorem tree_setTree (b : Book) (s s' : Bool) (t : SMap Nat Limit) :
    (b.setTree s t).tree s' = if s' = s then t else b.tree s' := by
  cases s <;> cases s' <;> rfl

theorem order_map_setTree (b : Book) (s : Bool) (t : SMap Nat Limit) :
    (b.setTree s t).order_map = b.order_map := by cases s <;> rfl

theorem R_new : R Book.new [] where
  nodup := by simp [NodupIds]
  map := by intro id; rfl
  tree := by
    intro s
    refine ⟨?_, ?_⟩
    · cases s <;> exact SMap.wf_nil
    · intro p; cases s <;> rfl

theorem R_add {b : Book} {L : List Order} (h : R b L) (id : Nat) (s : Bool) (n p ts : Nat) :
    (b.addOrder id s n p ts).2 = !L.any (fun o => o.order_id = id) ∧
    R (b.addOrder id s n p ts).1 (if L.any (fun o => o.order_id = id) then L else L ++ [⟨id, s, n, p, ts⟩]) := by
  unfold Book.addOrder
  rw [h.map.isSome_iff]
  by_cases hex : L.any (fun o => o.order_id = id) = true
  · simp only [hex, if_true]
    exact ⟨rfl, h⟩
  · simp only [hex]
    have hnot : ∀ o ∈ L, o.order_id ≠ id := by
      intro o ho heq
      apply hex
      simp only [List.any_eq_true]
      exact ⟨o, ho, by simpa using heq⟩
    refine ⟨by simp, ?_⟩
    simp only [Bool.false_eq_true, if_false]
    constructor
    · unfold NodupIds
      rw [List.map_append, List.nodup_append]
      refine ⟨h.nodup, by simp, ?_⟩
      intro a ha b' hb'
      simp at hb'
      subst hb'
      obtain ⟨o, ho, rfl⟩ := List.mem_map.1 ha
      exact hnot o ho
    · rw [order_map_setTree]
      intro j
      simp only [OrderMap.insert, List.find?_append]
      by_cases hj : j = id
      · subst hj
        have : L.find? (fun o => decide (o.order_id = j)) = none := by
          rw [List.find?_eq_none]; intro o ho; simpa using hnot o ho
        simp [this]
      · simp only [hj, if_false]
        rw [h.map j]
        have : ([⟨id, s, n, p, ts⟩] : List Order).find? (fun o => decide (o.order_id = j)) = none := by
          simp [List.find?, Ne.symm hj]
        rw [this]; simp
    · intro s'
      rw [tree_setTree]
      obtain ⟨hw, hg⟩ := h.tree s'
      by_cases hs : s' = s
      · subst hs
        rw [if_pos rfl]
        have htree : (Book.tree { b with order_map := b.order_map.insert id ⟨id, s', n, p, ts⟩ } s') = b.tree s' := by
          cases s' <;> rfl
        rw [htree]
        have key : (match (b.tree s').get? p with
            | some l => (b.tree s').insert p (l.add id)
            | none => (b.tree s').insert p ((Limit.new p).add id)) = (b.tree s').insert p ⟨p, ids s' p L ++ [id]⟩ := by
          rw [hg p]
          by_cases hn : ids s' p L = []
          · simp [hn, Limit.new, Limit.add]
          · simp [hn, Limit.add]
        refine (congrArg (TreeRel s' · _) key).mpr ?_
        refine ⟨SMap.wf_insert hw _ _, ?_⟩
        intro p'
        rw [SMap.get?_insert, ids_append_single]
        by_cases hp : p' = p
        · subst hp; simp
        · simp only [hp, if_false, hg p']
          have : ¬ (s' = s' ∧ p = p') := by rintro ⟨_, h⟩; exact hp h.symm
          simp [Ne.symm hp]
      · rw [if_neg hs]
        have htree : (Book.tree { b with order_map := b.order_map.insert id ⟨id, s, n, p, ts⟩ } s') = b.tree s' := by
          cases s' <;> rfl
        rw [htree]
        refine ⟨hw, ?_⟩
        intro p'
        rw [hg p', ids_append_single]
        simp [Ne.symm hs]

/-! ### cancel -/

theorem at_delete (s : Bool) (p : Nat) (L : List Order) (i : Nat) :
    at_ s p (delete L i) = (at_ s p L).filter (fun o => o.order_id ≠ i) := by
  simp only [at_, delete, List.filter_filter]
  congr 1
  funext o
  rw [Bool.and_comm]

theorem ids_delete (s : Bool) (p : Nat) (L : List Order) (i : Nat) :
    ids s p (delete L i) = (ids s p L).filter (fun j => j ≠ i) := by
  rw [ids, at_delete, ids, List.filter_map]
  rfl

theorem ids_delete_of_not_mem {s : Bool} {p : Nat} {L : List Order} {i : Nat} (h : i ∉ ids s p L) :
    ids s p (delete L i) = ids s p L := by
  rw [ids_delete, List.filter_eq_self]
  intro j hj
  simp only [decide_eq_true_eq]
  rintro rfl; exact h hj

theorem NodupIds.delete {L : List Order} (h : NodupIds L) (i : Nat) : NodupIds (delete L i) :=
  List.Nodup.sublist ((List.filter_sublist (l := L)).map _) h

theorem MapRel.remove {m : OrderMap} {L : List Order} (hm : MapRel m L) (i : Nat) :
    MapRel (m.remove i) (delete L i) := by
  intro j
  simp only [OrderMap.remove, Spec.delete]
  by_cases hj : j = i
  · subst hj
    simp only [if_true]
    symm
    rw [List.find?_eq_none]
    intro o ho
    simpa using (List.mem_filter.1 ho).2
  · rw [if_neg hj, hm j, List.find?_filter]
    congr 1
    funext o
    by_cases ho : o.order_id = j
    · simp [ho, hj]
    · simp [ho]

theorem R_cancel {b : Book} {L : List Order} (h : R b L) (id : Nat) :
    ∃ b', b.cancelOrder id = some (b', L.any (fun o => o.order_id = id)) ∧
    R b' (if L.any (fun o => o.order_id = id) then delete L id else L) := by
  have hsome := h.map.isSome_iff (i := id)
  unfold Book.cancelOrder
  cases hm : b.order_map id with
  | none =>
    rw [hm] at hsome
    simp only [Option.isSome_none] at hsome
    rw [← hsome]
    exact ⟨b, rfl, by simpa using h⟩
  | some o =>
    rw [hm] at hsome
    simp only [Option.isSome_some] at hsome
    rw [← hsome]
    obtain ⟨hoL, hoid⟩ := (h.map.some_iff h.nodup).1 hm
    obtain ⟨hw, hg⟩ := h.tree o.is_buy
    have hmem : id ∈ ids o.is_buy o.limit L := mem_ids.2 ⟨o, hoL, rfl, rfl, hoid⟩
    have hne : ids o.is_buy o.limit L ≠ [] := List.ne_nil_of_mem hmem
    have htree : (Book.tree { b with order_map := b.order_map.remove id } o.is_buy) = b.tree o.is_buy := by
      cases o.is_buy <;> rfl
    have hget : (b.tree o.is_buy).get? o.limit = some ⟨o.limit, ids o.is_buy o.limit L⟩ := by
      rw [hg]; simp [hne]
    have hids : ids o.is_buy o.limit (delete L id) = (ids o.is_buy o.limit L).erase id := by
      rw [ids_delete, (h.nodup.ids _ _).erase_eq_filter]
      congr 1
      funext j
      by_cases hj : j = id <;> simp [hj]
    simp only [htree, hget, Limit.cancel, hoid, hmem, if_true, Option.bind_eq_bind, Option.bind_some]
    refine ⟨_, rfl, ?_⟩
    constructor
    · exact h.nodup.delete id
    · rw [order_map_setTree]
      exact h.map.remove id
    · intro s'
      rw [tree_setTree]
      by_cases hs : s' = o.is_buy
      · subst hs
        rw [if_pos rfl]
        have hother : ∀ p, p ≠ o.limit → ids o.is_buy p (delete L id) = ids o.is_buy p L := by
          intro p hp
          apply ids_delete_of_not_mem
          intro hmem'
          obtain ⟨x, hx, _, hx2, hx3⟩ := mem_ids.1 hmem'
          have := h.nodup.inj hx hoL (hx3.trans hoid.symm)
          exact hp (by rw [← hx2, this])
        by_cases hemp : ((ids o.is_buy o.limit L).erase id).isEmpty = true
        · rw [if_pos hemp]
          refine ⟨SMap.wf_remove (SMap.wf_insert hw _ _) _, ?_⟩
          intro p
          rw [SMap.get?_remove (SMap.wf_insert hw _ _), SMap.get?_insert]
          by_cases hp : p = o.limit
          · subst hp
            simp only [if_true, hids]
            simp only [List.isEmpty_iff] at hemp
            simp [hemp]
          · simp only [hp, if_false, hg p, hother p hp]
        · rw [if_neg hemp]
          refine ⟨SMap.wf_insert hw _ _, ?_⟩
          intro p
          rw [SMap.get?_insert]
          by_cases hp : p = o.limit
          · subst hp
            simp only [if_true, hids]
            simp only [List.isEmpty_iff] at hemp
            simp [hemp]
          · simp only [hp, if_false, hg p, hother p hp]
      · rw [if_neg hs]
        have htree' : (Book.tree { b with order_map := b.order_map.remove id } s') = b.tree s' := by
          cases s' <;> rfl
        rw [htree']
        obtain ⟨hw', hg'⟩ := h.tree s'
        refine ⟨hw', ?_⟩
        intro p
        rw [hg' p, ids_delete_of_not_mem]
        intro hmem'
        obtain ⟨x, hx, hx1, _, hx3⟩ := mem_ids.1 hmem'
        have := h.nodup.inj hx hoL (hx3.trans hoid.symm)
        exact hs (by rw [← hx1, this])

end Verif.Lob
