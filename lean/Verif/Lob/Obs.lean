import Verif.Lob.RefineMarket

/-!
# Observations of a book used in the property statements
-/

namespace Verif.Lob

/-- A book some history of `u64` calls leads to, starting from `Book::new()`. -/
def Reachable (b : Book) : Prop := ∃ ops outs, (∀ op ∈ ops, Op.U64 op) ∧ run Book.new ops = some (b, outs)

/-- The orders queued on side `s` at price `p`, front first. -/
def Book.queue (b : Book) (s : Bool) (p : Nat) : List Order :=
  match (b.tree s).get? p with
  | none => []
  | some l => l.orders.filterMap b.order_map

/-- All resting orders of side `s`, level by level. -/
def Book.resting (b : Book) (s : Bool) : List Order := (b.tree s).flatMap (fun e => b.queue s e.1)

/-- Total shares in a list of orders. -/
def sharesOf (os : List Order) : Nat := (os.map (·.shares)).sum

/-- Total resting shares on side `s`. -/
def Book.volume (b : Book) (s : Bool) : Nat := sharesOf (b.resting s)

/-- Total shares reported in a list of fills. -/
def filledShares (fs : List (Nat × Nat)) : Nat := (fs.map Prod.snd).sum

/-- Shares reported as filled at price `p`. -/
def filledAt (p : Nat) (fs : List (Nat × Nat)) : Nat := filledShares (fs.filter (fun f => f.1 = p))

/-- The internal consistency of a book. -/
structure Consistent (b : Book) : Prop where
  /-- every live order is filed under its own id and queued exactly once at its own price on its own side -/
  live : ∀ id o, b.order_map id = some o →
    o.order_id = id ∧ ∃ l, (b.tree o.is_buy).get? o.limit = some l ∧ l.orders.count id = 1
  /-- a level knows its price, is not empty, has no repeated id, and holds only live orders of that side and price -/
  level : ∀ s p l, (p, l) ∈ b.tree s → l.limit_price = p ∧ l.orders ≠ [] ∧ l.orders.Nodup ∧
    ∀ id ∈ l.orders, ∃ o, b.order_map id = some o ∧ o.is_buy = s ∧ o.limit = p
  /-- price levels are in strictly increasing price order -/
  sorted : ∀ s, (b.tree s).Pairwise (fun a c => a.1 < c.1)

/-! Helper lemmas relating observations to the abstract list. -/

theorem Reachable.exists_R {b : Book} (h : Reachable b) : ∃ L, R b L := by
  obtain ⟨ops, outs, hu, hr⟩ := h
  obtain ⟨b', h1, h2⟩ := R_run ops R_new hu
  rw [hr] at h1
  cases h1
  exact ⟨_, h2⟩

theorem filterMap_ids {m : OrderMap} {L : List Order} (hn : NodupIds L) (hm : MapRel m L) (A : List Order)
    (hA : ∀ o ∈ A, o ∈ L) : (A.map (·.order_id)).filterMap m = A := by
  induction A with
  | nil => rfl
  | cons o A ih =>
    have : m o.order_id = some o := (hm.some_iff hn).2 ⟨hA o (by simp), rfl⟩
    simp [this, ih (fun x hx => hA x (by simp [hx]))]

theorem R.queue {b : Book} {L : List Order} (h : R b L) (s : Bool) (p : Nat) : b.queue s p = at_ s p L := by
  unfold Book.queue
  rw [(h.tree s).2 p]
  by_cases hi : ids s p L = []
  · simp only [hi, if_true]
    unfold ids at hi
    simpa using hi.symm
  · simp only [hi, if_false]
    exact filterMap_ids h.nodup h.map _ (fun o ho => (mem_at.1 ho).1)

theorem R.mem_tree {b : Book} {L : List Order} (h : R b L) {s : Bool} {p : Nat} {l : Limit}
    (hl : (p, l) ∈ b.tree s) : ids s p L ≠ [] ∧ l = ⟨p, ids s p L⟩ := by
  have := SMap.get?_of_mem (h.tree s).1 hl
  rw [(h.tree s).2 p] at this
  split at this
  · cases this
  · rename_i hne; exact ⟨hne, by cases this; rfl⟩

theorem R.consistent {b : Book} {L : List Order} (h : R b L) : Consistent b where
  live := by
    intro id o ho
    obtain ⟨h1, h2⟩ := (h.map.some_iff h.nodup).1 ho
    have hmem : id ∈ ids o.is_buy o.limit L := mem_ids.2 ⟨o, h1, rfl, rfl, h2⟩
    refine ⟨h2, ⟨o.limit, ids o.is_buy o.limit L⟩, ?_, ?_⟩
    · rw [(h.tree _).2, if_neg (List.ne_nil_of_mem hmem)]
    · exact List.count_eq_one_of_mem (h.nodup.ids _ _) hmem
  level := by
    intro s p l hl
    obtain ⟨hne, rfl⟩ := h.mem_tree hl
    refine ⟨rfl, hne, h.nodup.ids _ _, ?_⟩
    intro id hid
    obtain ⟨o, h1, h2, h3, h4⟩ := mem_ids.1 hid
    exact ⟨o, (h.map.some_iff h.nodup).2 ⟨h1, h4⟩, h2, h3⟩
  sorted := fun s => (h.tree s).1

theorem NodupIds.nodup {L : List Order} (h : NodupIds L) : L.Nodup := List.Nodup.of_map _ h

theorem R.resting_perm {b : Book} {L : List Order} (h : R b L) (s : Bool) :
    (b.resting s).Perm (L.filter (fun o => o.is_buy = s)) := by
  rw [List.perm_ext_iff_of_nodup]
  · intro o
    unfold Book.resting
    rw [List.mem_flatMap]
    constructor
    · rintro ⟨e, _, ho⟩
      rw [h.queue] at ho
      obtain ⟨h1, h2, _⟩ := mem_at.1 ho
      simp [h1, h2]
    · intro ho
      simp only [List.mem_filter, decide_eq_true_eq] at ho
      have hmem : o.order_id ∈ ids s o.limit L := mem_ids.2 ⟨o, ho.1, ho.2, rfl, rfl⟩
      have hg : (b.tree s).get? o.limit = some ⟨o.limit, ids s o.limit L⟩ := by
        rw [(h.tree _).2, if_neg (List.ne_nil_of_mem hmem)]
      refine ⟨_, SMap.get?_eq_some_mem hg, ?_⟩
      rw [h.queue]
      exact mem_at.2 ⟨ho.1, ho.2, rfl⟩
  · unfold Book.resting
    rw [List.nodup_flatMap]
    refine ⟨?_, ?_⟩
    · intro e _
      rw [h.queue]
      exact h.nodup.nodup.filter _
    · refine List.Pairwise.imp ?_ (h.tree s).1
      intro a c hac
      simp only [Function.onFun]
      intro o h1 h2
      rw [h.queue] at h1 h2
      have e1 := (mem_at.1 h1).2.2
      have e2 := (mem_at.1 h2).2.2
      omega
  · exact h.nodup.nodup.filter _

theorem R.volume {b : Book} {L : List Order} (h : R b L) (s : Bool) :
    b.volume s = sharesOf (L.filter (fun o => o.is_buy = s)) :=
  ((h.resting_perm s).map _).sum_nat

theorem R.unique {b b' : Book} {L : List Order} (h : R b L) (h' : R b' L) : b = b' := by
  have ht : ∀ s, b.tree s = b'.tree s := fun s =>
    SMap.ext (h.tree s).1 (h'.tree s).1 (fun p => by rw [(h.tree s).2, (h'.tree s).2])
  have hm : b.order_map = b'.order_map := funext fun i => by rw [h.map i, h'.map i]
  have h1 := ht true
  have h2 := ht false
  simp only [Book.tree, if_true, Bool.false_eq_true, if_false] at h1 h2
  cases b; cases b'
  simp_all

end Verif.Lob
