import Verif.Lob.FillFacts

/-!
# C01 – C09: the limit order book

Statements about `Book` (`Lob/Model.lean`) in terms of the observations of `Lob/Obs.lean` and, for C09, of the
price-time-priority specification of `Lob/Spec.lean`.
-/

namespace Verif.Lob
open Spec

/-- A small history used below to show that hypotheses are met: two sells at 10, one at 12, a partial buy. -/
def demoOps : List Op :=
  [.add 1 false 5 10 0, .add 2 false 7 10 1, .add 3 false 4 12 2, .add 4 true 3 9 3, .market 6 true]

theorem demoOps_u64 : ∀ op ∈ demoOps, Op.U64 op := by
  simp [demoOps, Op.U64, u64Bound]

/-- The book after `demoOps`. -/
def demoBook : Book := ((run Book.new demoOps).getD (Book.new, [])).1

theorem demo_reachable : Reachable demoBook :=
  ⟨demoOps, [.added, .added, .added, .added, .filled true [(10, 6)]], demoOps_u64, by rfl⟩

theorem run_append (ops ops' : List Op) (b b1 b2 : Book) (outs outs' : List Out)
    (h1 : run b ops = some (b1, outs)) (h2 : run b1 ops' = some (b2, outs')) :
    run b (ops ++ ops') = some (b2, outs ++ outs') := by
  induction ops generalizing b outs with
  | nil => simp [run] at h1; obtain ⟨rfl, rfl⟩ := h1; simpa using h2
  | cons op ops ih =>
    simp only [run, Option.bind_eq_bind, List.cons_append] at h1 ⊢
    cases hs : step b op with
    | none => rw [hs] at h1; simp at h1
    | some r =>
      rw [hs] at h1
      simp only [Option.bind_some] at h1 ⊢
      cases hr : run r.1 ops with
      | none => rw [hr] at h1; simp at h1
      | some r' =>
        rw [hr] at h1
        simp only [Option.bind_some, Option.some.injEq, Prod.mk.injEq] at h1
        obtain ⟨rfl, rfl⟩ := h1
        rw [ih r.1 r'.2 hr]
        rfl

/-! ## C01 -/

/-- No history of calls panics or loops, whatever the `u64` arguments. -/
theorem C01_never_panics (ops : List Op) (hu : ∀ op ∈ ops, Op.U64 op) :
    ∃ b outs, run Book.new ops = some (b, outs) := by
  obtain ⟨b, h, _⟩ := R_run ops R_new hu
  exact ⟨b, _, h⟩

example := C01_never_panics demoOps demoOps_u64

/-- After any history the book is consistent: see `Consistent`. -/
theorem C01_consistent {b : Book} (h : Reachable b) : Consistent b := by
  obtain ⟨L, hL⟩ := h.exists_R
  exact hL.consistent

/-- Reachability is closed under further calls, and each further call answers. -/
theorem C01_step {b : Book} (h : Reachable b) (op : Op) (hu : op.U64) :
    ∃ b' out, step b op = some (b', out) ∧ Reachable b' := by
  obtain ⟨L, hL⟩ := h.exists_R
  obtain ⟨b', h2, _⟩ := R_step hL hu
  obtain ⟨ops, outs, hops, hr⟩ := h
  refine ⟨b', (Spec.step L op).2, h2, ops ++ [op], outs ++ [(Spec.step L op).2], ?_,
    run_append ops [op] _ _ _ _ _ hr ?_⟩
  · intro o ho
    rcases List.mem_append.1 ho with h | h
    · exact hops o h
    · simp at h; subst h; exact hu
  · simp only [run, h2]; rfl

example : Reachable demoBook ∧ Consistent demoBook ∧ demoBook.queue false 10 = [⟨2, false, 6, 10, 1⟩] ∧
    demoBook.volume false = 10 :=
  ⟨demo_reachable, C01_consistent demo_reachable, by rfl, by rfl⟩

/-! ## C02 -/

/-- `add_order` fails exactly on live ids and then changes nothing. -/
theorem C02_reject {b : Book} (id : Nat) (s : Bool) (n p ts : Nat) :
    ((b.addOrder id s n p ts).2 = false ↔ (b.order_map id).isSome) ∧
    ((b.addOrder id s n p ts).2 = false → (b.addOrder id s n p ts).1 = b) := by
  unfold Book.addOrder
  split
  · rename_i h; simp [h]
  · rename_i h; simp [h]

/-- Otherwise the order becomes live with the given data, goes last in its queue, and nothing else changes. -/
theorem C02_accept {b : Book} (h : Reachable b) {id : Nat} {s : Bool} {n p ts : Nat}
    (hok : (b.addOrder id s n p ts).2 = true) :
    (b.addOrder id s n p ts).1.order_map id = some ⟨id, s, n, p, ts⟩ ∧
    (∀ j, j ≠ id → (b.addOrder id s n p ts).1.order_map j = b.order_map j) ∧
    (b.addOrder id s n p ts).1.queue s p = b.queue s p ++ [⟨id, s, n, p, ts⟩] ∧
    (∀ s' p', (s', p') ≠ (s, p) → (b.addOrder id s n p ts).1.queue s' p' = b.queue s' p') := by
  obtain ⟨L, hL⟩ := h.exists_R
  obtain ⟨h1, h2⟩ := R_add hL id s n p ts
  rw [h1] at hok
  have hany : L.any (fun o => decide (o.order_id = id)) = false := by simpa using hok
  rw [hany] at h2
  simp only [Bool.false_eq_true, if_false] at h2
  refine ⟨?_, ?_, ?_, ?_⟩
  · exact (h2.map.some_iff h2.nodup).2 ⟨by simp, rfl⟩
  · intro j hj
    rw [h2.map j, hL.map j, List.find?_append]
    have : ([⟨id, s, n, p, ts⟩] : List Order).find? (fun o => decide (o.order_id = j)) = none := by
      simp [List.find?, Ne.symm hj]
    rw [this]; simp
  · rw [h2.queue, hL.queue]; simp [at_]
  · intro s' p' hne
    rw [h2.queue, hL.queue]
    have : ¬ (s = s' ∧ p = p') := by rintro ⟨rfl, rfl⟩; exact hne rfl
    simp only [at_, List.filter_append]
    simp [this]

example : Reachable demoBook ∧ (demoBook.addOrder 9 false 1 10 7).2 = true ∧
    (demoBook.addOrder 9 false 1 10 7).1.queue false 10 = [⟨2, false, 6, 10, 1⟩, ⟨9, false, 1, 10, 7⟩] ∧
    (demoBook.addOrder 4 false 1 10 7).2 = false :=
  ⟨demo_reachable, by rfl, by rfl, by rfl⟩

/-! ## C03 -/

/-- `cancel_order` fails exactly on ids that are not live and then changes nothing; it never panics. -/
theorem C03_reject {b : Book} (h : Reachable b) (id : Nat) :
    ∃ b' ok, b.cancelOrder id = some (b', ok) ∧ (ok = false ↔ b.order_map id = none) ∧ (ok = false → b' = b) := by
  obtain ⟨L, hL⟩ := h.exists_R
  obtain ⟨b', h1, h2⟩ := R_cancel hL id
  have hsome := hL.map.isSome_iff (i := id)
  refine ⟨b', _, h1, ?_, ?_⟩
  · rw [← hsome]; simp
  · intro hf
    rw [hf] at h2
    simp only [Bool.false_eq_true, if_false] at h2
    exact h2.unique hL

example := C03_reject demo_reachable 1

/-- Otherwise exactly that order disappears; all others keep their data and their relative queue position. -/
theorem C03_accept {b b' : Book} (h : Reachable b) {id : Nat} (hc : b.cancelOrder id = some (b', true)) :
    b'.order_map id = none ∧ (∀ j, j ≠ id → b'.order_map j = b.order_map j) ∧
    ∀ s p, b'.queue s p = (b.queue s p).filter (fun o => o.order_id ≠ id) := by
  obtain ⟨L, hL⟩ := h.exists_R
  obtain ⟨b1, h1, h2⟩ := R_cancel hL id
  rw [hc] at h1
  simp only [Option.some.injEq, Prod.mk.injEq] at h1
  obtain ⟨rfl, h1⟩ := h1
  rw [← h1] at h2
  simp only [if_true] at h2
  refine ⟨?_, ?_, ?_⟩
  · rw [h2.map id, List.find?_eq_none]
    intro o ho
    simpa using (List.mem_filter.1 ho).2
  · intro j hj
    rw [h2.map j, ← hL.map.remove id j, OrderMap.remove, if_neg hj]
  · intro s p
    rw [h2.queue, hL.queue, at_delete]

example : Reachable demoBook ∧ (demoBook.cancelOrder 2).map Prod.snd = some true ∧
    (demoBook.cancelOrder 1).map Prod.snd = some false := ⟨demo_reachable, by rfl, by rfl⟩

/-! ## C04 -/

/-- Adding an order and cancelling it at once gives back exactly the book one started with. -/
theorem C04_add_cancel {b : Book} (h : Reachable b) {id : Nat} {s : Bool} {n p ts : Nat}
    (hok : (b.addOrder id s n p ts).2 = true) :
    (b.addOrder id s n p ts).1.cancelOrder id = some (b, true) := by
  obtain ⟨L, hL⟩ := h.exists_R
  obtain ⟨h1, h2⟩ := R_add hL id s n p ts
  rw [h1] at hok
  have hany : L.any (fun o => decide (o.order_id = id)) = false := by simpa using hok
  rw [hany] at h2
  simp only [Bool.false_eq_true, if_false] at h2
  obtain ⟨b', h3, h4⟩ := R_cancel h2 id
  have hany' : (L ++ [(⟨id, s, n, p, ts⟩ : Order)]).any (fun o => decide (o.order_id = id)) = true := by simp
  rw [hany'] at h3 h4
  simp only [if_true] at h4
  have hdel : delete (L ++ [⟨id, s, n, p, ts⟩]) id = L := by
    unfold delete
    rw [List.filter_append]
    have : L.filter (fun o => decide (o.order_id ≠ id)) = L := by
      rw [List.filter_eq_self]
      intro o ho
      have := List.any_eq_false.1 hany o ho
      simpa using this
    rw [this]; simp
  rw [hdel] at h4
  rw [h3, h4.unique hL]

example : Reachable demoBook ∧ (demoBook.addOrder 9 false 1 10 7).2 = true := ⟨demo_reachable, by rfl⟩

/-! ## C05 -/

/-- A market order answers, fills `min n V` shares of the `V` resting on the other side, says so, and takes exactly
that much out of the other side. -/
theorem C05_conservation {b : Book} (h : Reachable b) {n : Nat} (hn : n < u64Bound) (s : Bool) :
    ∃ b' ok fills, b.market n s = some (b', ok, fills) ∧
      filledShares fills = min n (b.volume (!s)) ∧
      (ok = true ↔ n ≤ b.volume (!s)) ∧
      b'.volume (!s) + filledShares fills = b.volume (!s) ∧
      b'.volume s = b.volume s := by
  obtain ⟨L, hL⟩ := h.exists_R
  obtain ⟨b', h1, h2⟩ := R_market hL hn s
  obtain ⟨v1, v2, v3⟩ := fill_volume (s := s) n L hL.nodup
  refine ⟨b', _, _, h1, ?_, ?_, ?_, ?_⟩
  · rw [merge_sum, hL.volume]; exact v1
  · rw [hL.volume]; exact v2
  · rw [merge_sum, hL.volume, h2.volume]; exact v3
  · rw [hL.volume, h2.volume]; exact fill_own_shares n L hL.nodup

example : Reachable demoBook ∧ demoBook.volume false = 10 ∧
    (demoBook.market 11 true).map Prod.snd = some (false, [(10, 6), (12, 4)]) ∧
    (demoBook.market 8 true).map Prod.snd = some (true, [(10, 6), (12, 2)]) :=
  ⟨demo_reachable, by rfl, by rfl, by rfl⟩

/-! ## C06 -/

/-- Fills run strictly from the best price to worse ones, only at prices with resting orders, and every level with
a price better than some traded price ends up empty. -/
theorem C06_price_priority {b : Book} (h : Reachable b) {n : Nat} (hn : n < u64Bound) {s : Bool}
    {b' : Book} {ok : Bool} {fills : List (Nat × Nat)} (hm : b.market n s = some (b', ok, fills)) :
    fills.Pairwise (fun f g => betterPrice s f.1 g.1) ∧
    (∀ f ∈ fills, b.queue (!s) f.1 ≠ []) ∧
    (∀ f ∈ fills, ∀ q, betterPrice s q f.1 → b'.queue (!s) q = []) := by
  obtain ⟨L, hL⟩ := h.exists_R
  obtain ⟨b1, h1, h2⟩ := R_market hL hn s
  rw [hm] at h1
  simp only [Option.some.injEq, Prod.mk.injEq] at h1
  obtain ⟨rfl, rfl, rfl⟩ := h1
  refine ⟨merge_strict (fill_sorted n L), ?_, ?_⟩
  · intro f hf
    obtain ⟨g, hg, he⟩ := (merge_prices _ f.1).1 ⟨f, hf, rfl⟩
    obtain ⟨x, hx, hxe⟩ := fill_prices _ _ g hg
    rw [hL.queue]
    refine List.ne_nil_of_mem (a := x) (mem_at.2 ⟨(mem_opposite.1 hx).1, (mem_opposite.1 hx).2, by rw [hxe, he]⟩)
  · intro f hf q hq
    obtain ⟨g, hg, he⟩ := (merge_prices _ f.1).1 ⟨f, hf, rfl⟩
    rw [h2.queue]
    exact fill_priority n L hL.nodup g hg q (by rw [he]; exact hq)

example : Reachable demoBook ∧ (demoBook.market 8 true).map Prod.snd = some (true, [(10, 6), (12, 2)]) ∧
    betterPrice true 10 12 := ⟨demo_reachable, by rfl, by decide⟩

/-! ## C07 -/

/-- At every price, what is filled is taken from the front of the queue: the orders that go are a prefix `gone`, and
of the orders `kept` at most the first is reduced. -/
theorem C07_time_priority {b : Book} (h : Reachable b) {n : Nat} (hn : n < u64Bound) {s : Bool}
    {b' : Book} {ok : Bool} {fills : List (Nat × Nat)} (hm : b.market n s = some (b', ok, fills)) (p : Nat) :
    ∃ gone kept, b.queue (!s) p = gone ++ kept ∧
      ((b'.queue (!s) p = kept ∧ sharesOf gone = filledAt p fills) ∨
       ∃ o rest r, kept = o :: rest ∧ 0 < r ∧ r < o.shares ∧
         b'.queue (!s) p = { o with shares := o.shares - r } :: rest ∧ sharesOf gone + r = filledAt p fills) := by
  obtain ⟨L, hL⟩ := h.exists_R
  obtain ⟨b1, h1, h2⟩ := R_market hL hn s
  rw [hm] at h1
  simp only [Option.some.injEq, Prod.mk.injEq] at h1
  obtain ⟨rfl, rfl, rfl⟩ := h1
  rw [h2.queue, hL.queue, merge_filledAt]
  exact fill_fifo n L hL.nodup p

example : Reachable demoBook ∧ (demoBook.market 8 true).isSome ∧
    ((demoBook.market 8 true).map fun r => r.1.queue false 12) = some [⟨3, false, 2, 12, 2⟩] :=
  ⟨demo_reachable, by rfl, by rfl⟩

/-! ## C08 -/

/-- The submitter's own side is unchanged, as are the levels at which nothing traded. -/
theorem C08_frame {b : Book} (h : Reachable b) {n : Nat} (hn : n < u64Bound) {s : Bool}
    {b' : Book} {ok : Bool} {fills : List (Nat × Nat)} (hm : b.market n s = some (b', ok, fills)) :
    (∀ p, b'.queue s p = b.queue s p) ∧
    (∀ id o, o.is_buy = s → (b'.order_map id = some o ↔ b.order_map id = some o)) ∧
    b'.tree s = b.tree s ∧
    (∀ p, (∀ f ∈ fills, f.1 ≠ p) → b'.queue (!s) p = b.queue (!s) p) := by
  obtain ⟨L, hL⟩ := h.exists_R
  obtain ⟨b1, h1, h2⟩ := R_market hL hn s
  rw [hm] at h1
  simp only [Option.some.injEq, Prod.mk.injEq] at h1
  obtain ⟨rfl, rfl, rfl⟩ := h1
  refine ⟨?_, ?_, ?_, ?_⟩
  · intro p
    rw [h2.queue, hL.queue]; exact fill_own n L hL.nodup p
  · intro id o ho
    rw [h2.map.some_iff h2.nodup, hL.map.some_iff hL.nodup]
    have := fill_own (s := s) n L hL.nodup o.limit
    have key : o ∈ (fill s n L).2.2 ↔ o ∈ L := by
      have e1 : o ∈ at_ s o.limit (fill s n L).2.2 ↔ o ∈ (fill s n L).2.2 := by simp [mem_at, ho]
      have e2 : o ∈ at_ s o.limit L ↔ o ∈ L := by simp [mem_at, ho]
      rw [← e1, ← e2, this]
    rw [key]
  · refine SMap.ext (h2.tree s).1 (hL.tree s).1 (fun p => ?_)
    rw [(h2.tree s).2, (hL.tree s).2]
    have he : ids s p (fill s n L).2.2 = ids s p L := by unfold ids; rw [fill_own (s := s) n L hL.nodup p]
    rw [he]
  · intro p hp
    rw [h2.queue, hL.queue]
    refine fill_untouched n L hL.nodup p ?_
    intro f hf he
    obtain ⟨g, hg, hge⟩ := (merge_prices (fill s n L).2.1 p).2 ⟨f, hf, he⟩
    exact hp g hg hge

example : Reachable demoBook ∧ (demoBook.market 2 true).map Prod.snd = some (true, [(10, 2)]) ∧
    demoBook.queue true 9 = [⟨4, true, 3, 9, 3⟩] ∧ demoBook.queue false 12 ≠ [] :=
  ⟨demo_reachable, by rfl, by rfl, by decide⟩

/-! ## C09 -/

/-- The answers to any history of calls are those of the price-time-priority specification. -/
theorem C09_refines_price_time_priority (ops : List Op) (hu : ∀ op ∈ ops, Op.U64 op) :
    (run Book.new ops).map Prod.snd = some (Spec.run [] ops).2 := by
  obtain ⟨b, h, _⟩ := R_run ops R_new hu
  rw [h]; rfl

example : (∀ op ∈ demoOps, Op.U64 op) ∧
    (run Book.new demoOps).map Prod.snd = some [.added, .added, .added, .added, .filled true [(10, 6)]] :=
  ⟨demoOps_u64, by rfl⟩

end Verif.Lob
