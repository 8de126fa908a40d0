import Verif.Float.TapeLemmas

/-!
# C108: gradients when derivatives are not finite

For every graph that the public operations can build, whatever the values, the recorded partial derivatives and the platform's
functions.
-/

namespace Verif.Float.Tape

open X64 Nan
open Verif.Autodiff (Arity)

theorem acc_start {g : Graph} {out : Var} {adj : List X64} (h : accumulate g out = some adj) :
    out.index < g.length ∧ sweep g g.length ((List.replicate g.length zero).set out.index (ofQ 1)) = some adj := by
  unfold accumulate at h
  split_ifs at h with ho
  exact ⟨ho, h⟩

/-- C108: `accumulate` never panics on a variable of its graph, and returns one derivative for every vertex. -/
theorem C108_total (g : Graph) (hg : Built g) (out : Var) (ho : out.index < g.length) :
    ∃ adj, accumulate g out = some adj ∧ adj.length = g.length := by
  obtain ⟨r, hr, hl⟩ := sweep_some hg.shape g.length ((List.replicate g.length zero).set out.index (ofQ 1)) le_rfl (by simp)
  exact ⟨r, by unfold accumulate; rw [if_pos ho, hr], hl⟩

/-- C108 (defect): one partial derivative that is infinite or NaN, wherever it is recorded in the graph, makes the derivative of
every output with respect to every input below it NaN. This includes outputs that do not depend on it, even those computed before. -/
theorem C108_contaminates (g : Graph) (hg : Built g) (out : Var) (ho : out.index < g.length) (k i : ℕ) (p : X64)
    (hr : Records g k i p) (hp : ¬ Finite p) (x : Var) (hx : IsInput g x.index) (hf : Feeds g x.index i) :
    ∃ adj, accumulate g out = some adj ∧ wrt adj x = some .nan := by
  obtain ⟨adj, ha, -⟩ := C108_total g hg out ho
  refine ⟨adj, ha, ?_⟩
  have hk : k < g.length := by
    obtain ⟨v, hv, -⟩ := hr
    exact (List.getElem?_eq_some_iff.1 hv).1
  exact sweep_record hg.shape hx hr hp hf _ _ _ (acc_start ha).2 hk

/-- C108 (defect): the derivative with respect to an input is never infinite: where the true derivative is, NaN is returned. -/
theorem C108_never_infinite (g : Graph) (hg : Built g) (out : Var) (ho : out.index < g.length) (x : Var)
    (hx : IsInput g x.index) : ∃ adj d, accumulate g out = some adj ∧ wrt adj x = some d ∧ ∀ s, d ≠ .inf s := by
  obtain ⟨adj, ha, -⟩ := C108_total g hg out ho
  obtain ⟨d, hd, hi⟩ := sweep_input hg.shape hx _ _ _ (acc_start ha).2 hx.1
  exact ⟨adj, d, ha, hd, hi⟩

/-! ## The damage is confined -/

theorem agree_feeds {g g' : Graph} {j : ℕ} (h : ∀ k, Feeds g j k → g[k]? = g'[k]?) (h' : ∀ k, Feeds g' j k → g[k]? = g'[k]?)
    (k : ℕ) : Feeds g j k ↔ Feeds g' j k := by
  constructor
  · intro hf
    induction hf with
    | refl => exact .refl
    | @step i k p hi hr ih =>
      have e := h k (.step hi hr)
      refine .step ih (p := p) ?_
      obtain ⟨v, hv, hr⟩ := hr
      exact ⟨v, by rw [← e, hv], hr⟩
  · intro hf
    induction hf with
    | refl => exact .refl
    | @step i k p hi hr ih =>
      have e := h' k (.step hi hr)
      refine .step ih (p := p) ?_
      obtain ⟨v, hv, hr⟩ := hr
      exact ⟨v, by rw [e, hv], hr⟩

/-- A vertex that was not computed from `j` leaves alone what was. -/
theorem turn_skip {g : Graph} (hg : ∀ k v, g[k]? = some v → Shape k v) {j k : ℕ} (hn : ¬ Feeds g j k) {v : Vertex}
    (hv : g[k]? = some v) {adj a1 a2 : List X64} {d : X64}
    (h1 : addAt adj v.parent0 v.partial0 d = some a1) (h2 : addAt a1 v.parent1 v.partial1 d = some a2)
    (i : ℕ) (hi : Feeds g j i) : a2[i]? = adj[i]? := by
  have hs := hg k v hv
  have n0 : v.parent0 ≠ i := by
    rintro rfl
    rcases hs.1 with h | h
    · exact hn (.step hi ⟨v, hv, h, .inl ⟨rfl, rfl⟩⟩)
    · rw [h.1] at hi; exact hn hi
  have n1 : v.parent1 ≠ i := by
    rintro rfl
    rcases hs.2 with h | h
    · exact hn (.step hi ⟨v, hv, h, .inr ⟨rfl, rfl⟩⟩)
    · rw [h.1] at hi; exact hn hi
  rw [addAt_other h2 n1, addAt_other h1 n0]

theorem addAt_agree {S : ℕ → Prop} {adj adj' r r' : List X64} {i : ℕ} {p d : X64}
    (ha : ∀ i, S i → adj[i]? = adj'[i]?) (h : addAt adj i p d = some r) (h' : addAt adj' i p d = some r') :
    ∀ i, S i → r[i]? = r'[i]? := by
  intro m hm
  by_cases him : i = m
  · subst him
    obtain ⟨o, ho, hr⟩ := addAt_self h
    obtain ⟨o', ho', hr'⟩ := addAt_self h'
    rw [ha _ hm, ho'] at ho
    cases ho
    rw [hr, hr']
  · rw [addAt_other h him, addAt_other h' him, ha m hm]

theorem sweep_agree {g g' : Graph} (hg : ∀ k v, g[k]? = some v → Shape k v) (hg' : ∀ k v, g'[k]? = some v → Shape k v)
    {j : ℕ} (heq : ∀ k, Feeds g j k ↔ Feeds g' j k) : ∀ (k : ℕ) (adj adj' r r' : List X64),
    (∀ m, m < k → Feeds g j m → g[m]? = g'[m]?) → (∀ i, Feeds g j i → adj[i]? = adj'[i]?) → sweep g k adj = some r →
    sweep g' k adj' = some r' → ∀ i, Feeds g j i → r[i]? = r'[i]?
  | 0, adj, adj', r, r', _, ha, h, h', i, hi => by
    simp only [sweep, Option.some.injEq] at h h'
    rw [← h, ← h', ha i hi]
  | k + 1, adj, adj', r, r', hs, ha, h, h', i, hi => by
    obtain ⟨v, d, a1, a2, hv, hd, h1, h2, h⟩ := sweep_succ h
    obtain ⟨v', d', a1', a2', hv', hd', h1', h2', h'⟩ := sweep_succ h'
    refine sweep_agree hg hg' heq k a2 a2' r r' (fun m hm => hs m (by omega)) ?_ h h' i hi
    by_cases hk : Feeds g j k
    · have e := hs k (by omega) hk
      rw [hv, hv'] at e
      cases e
      have e := ha k hk
      rw [hd, hd'] at e
      cases e
      exact addAt_agree (addAt_agree ha h1 h1') h2 h2'
    · intro m hm
      rw [turn_skip hg hk hv h1 h2 m hm, turn_skip hg' (fun h => hk ((heq k).2 h)) hv' h1' h2' m ((heq m).1 hm), ha m hm]

/-- C108: the damage is confined: the derivative with respect to an input depends only on the vertices computed from that input.
Two graphs of the same size that agree on those give the same derivative, whatever the others record. -/
theorem C108_confined (g g' : Graph) (hg : Built g) (hg' : Built g') (hl : g.length = g'.length) (x out : Var)
    (ho : out.index < g.length) (hx : x.index < g.length)
    (h : ∀ k, Feeds g x.index k ∨ Feeds g' x.index k → g[k]? = g'[k]?) :
    ∃ adj adj' d, accumulate g out = some adj ∧ accumulate g' out = some adj' ∧ wrt adj x = some d ∧ wrt adj' x = some d := by
  obtain ⟨adj, ha, hlen⟩ := C108_total g hg out ho
  obtain ⟨adj', ha', hlen'⟩ := C108_total g' hg' out (by omega)
  have e := sweep_agree hg.shape hg'.shape (agree_feeds (fun k hk => h k (.inl hk)) (fun k hk => h k (.inr hk))) g.length
    ((List.replicate g.length zero).set out.index (ofQ 1)) _ adj adj' (fun m _ hm => h m (.inl hm)) (fun _ _ => rfl)
    (acc_start ha).2 (by rw [hl]; exact (acc_start ha').2) x.index .refl
  refine ⟨adj, adj', adj[x.index]'(by omega), ha, ha', List.getElem?_eq_getElem _, ?_⟩
  unfold wrt
  rw [← e, List.getElem?_eq_getElem]

theorem feeds_append {g ext : Graph} {j k : ℕ} (hk : k < g.length) (hf : Feeds (g ++ ext) j k) : Feeds g j k := by
  induction hf with
  | refl => exact .refl
  | @step i k p hi hr ih =>
    obtain ⟨v, hv, hik, hr⟩ := hr
    rw [List.getElem?_append_left hk] at hv
    exact .step (ih (by omega)) ⟨v, hv, hik, hr⟩

theorem feeds_extend {g ext : Graph} {j k : ℕ} (hf : Feeds g j k) : Feeds (g ++ ext) j k := by
  induction hf with
  | refl => exact .refl
  | @step i k p hi hr ih =>
    obtain ⟨v, hv, hik, hr⟩ := hr
    refine .step ih ⟨v, ?_, hik, hr⟩
    rw [List.getElem?_append_left (List.getElem?_eq_some_iff.1 hv).1, hv]

/-- The vertices from `n` on that were not computed from `j` leave alone what was. -/
theorem sweep_down {g : Graph} (hg : ∀ k v, g[k]? = some v → Shape k v) {j n : ℕ} (hn : ∀ k, n ≤ k → ¬ Feeds g j k) :
    ∀ (m : ℕ) (adj r : List X64), sweep g (n + m) adj = some r →
      ∃ adj', sweep g n adj' = some r ∧ ∀ i, Feeds g j i → adj'[i]? = adj[i]?
  | 0, adj, r, h => ⟨adj, h, fun _ _ => rfl⟩
  | m + 1, adj, r, h => by
    rw [← Nat.add_assoc] at h
    obtain ⟨v, d, a1, a2, hv, hd, h1, h2, h⟩ := sweep_succ h
    obtain ⟨adj', h', hi⟩ := sweep_down hg hn m a2 r h
    refine ⟨adj', h', fun i hf => ?_⟩
    rw [hi i hf, turn_skip hg (hn _ (by omega)) hv h1 h2 i hf]

/-- The vertices below `k` of a longer graph. -/
theorem sweep_prefix {g ext : Graph} : ∀ (k : ℕ) (adj : List X64), k ≤ g.length → sweep (g ++ ext) k adj = sweep g k adj
  | 0, _, _ => rfl
  | k + 1, adj, hk => by
    unfold sweep
    rw [List.getElem?_append_left (by omega)]
    simp only [Option.bind_eq_bind]
    refine Option.bind_congr fun v _ => Option.bind_congr fun d _ => Option.bind_congr fun a1 _ =>
      Option.bind_congr fun a2 _ => sweep_prefix k a2 (by omega)

/-- C108: operations on other variables never change a derivative: if nothing appended to a graph was computed from an input, the
derivatives of the old variables with respect to that input stay what they were. -/
theorem C108_later (g ext : Graph) (hg : Built g) (hg' : Built (g ++ ext)) (x out : Var) (ho : out.index < g.length)
    (hx : x.index < g.length) (h : ∀ k, g.length ≤ k → ¬ Feeds (g ++ ext) x.index k) :
    ∃ adj adj' d, accumulate g out = some adj ∧ accumulate (g ++ ext) out = some adj' ∧ wrt adj x = some d ∧
      wrt adj' x = some d := by
  obtain ⟨adj, ha, hlen⟩ := C108_total g hg out ho
  obtain ⟨adj', ha', hlen'⟩ := C108_total (g ++ ext) hg' out (by simp; omega)
  have hsw := (acc_start ha').2
  rw [List.length_append] at hsw
  obtain ⟨a0, h0, hag⟩ := sweep_down hg'.shape h ext.length _ _ hsw
  rw [sweep_prefix _ _ le_rfl] at h0
  have e := sweep_agree hg.shape hg.shape (j := x.index) (fun _ => Iff.rfl) g.length
    ((List.replicate g.length zero).set out.index (ofQ 1)) a0 adj adj' (fun _ _ _ => rfl) ?_ (acc_start ha).2 h0 x.index .refl
  · refine ⟨adj, adj', adj[x.index]'(by omega), ha, ha', List.getElem?_eq_getElem _, ?_⟩
    unfold wrt
    rw [← e, List.getElem?_eq_getElem]
  · intro i hi
    rw [hag i (feeds_extend hi)]
    have hin : i < g.length := by
      by_contra hn
      exact h i (by omega) (feeds_extend hi)
    rw [List.getElem?_set, List.getElem?_set]
    simp only [List.length_replicate, List.getElem?_replicate, hin, ho, if_true, show i < g.length + ext.length by omega,
      show out.index < g.length + ext.length by omega]

/-! ## Where everything is finite -/

theorem ofQ_one' : ofQ 1 = .fin F64.one := by
  have h : toF64 1 = some F64.one := by
    unfold toF64
    have e : rnd 1 = 1 := rnd_rep rep_one
    rw [dif_pos (by rw [e]; exact F64.one.fin)]
    simp only [e, F64.one]
  unfold ofQ
  rw [h]

/-- A vertex of the model without infinities. -/
def up (v : AD.Vertex) : Vertex := ⟨.fin v.partial0, .fin v.partial1, v.parent0, v.parent1⟩

theorem addAt_up {adj r : List F64} {i : ℕ} {p d : F64} (h : AD.addAt adj i p d = some r) :
    addAt (adj.map .fin) i (.fin p) (.fin d) = some (r.map .fin) := by
  unfold AD.addAt at h
  simp only [Option.bind_eq_bind, Option.bind_eq_some_iff, Option.some.injEq] at h
  obtain ⟨old, ho, m, hm, new, hn, rfl⟩ := h
  have e1 : (X64.fin p).mul (.fin d) = .fin m := by
    change ofQ (p.val * d.val) = _
    unfold ofQ; unfold F64.mul at hm; rw [hm]
  have e2 : (X64.fin old).add (.fin m) = .fin new := by
    change ofQ (old.val + m.val) = _
    unfold ofQ; unfold F64.add at hn; rw [hn]
  unfold addAt
  rw [List.getElem?_map, ho, Option.map_some, Option.map_some, e1, e2, List.map_set]

theorem sweep_up {g : AD.Graph} : ∀ (k : ℕ) (adj r : List F64), AD.sweep g k adj = some r →
    sweep (g.map up) k (adj.map .fin) = some (r.map .fin)
  | 0, adj, r, h => by
    simp only [AD.sweep, Option.some.injEq] at h
    rw [h]; rfl
  | k + 1, adj, r, h => by
    unfold AD.sweep at h
    simp only [Option.bind_eq_bind, Option.bind_eq_some_iff] at h
    obtain ⟨v, hv, d, hd, a1, h1, a2, h2, h⟩ := h
    unfold sweep
    simp only [List.getElem?_map, hv, hd, Option.map_some, Option.bind_eq_bind, Option.bind_some]
    have e1 := addAt_up h1
    have e2 := addAt_up h2
    unfold up
    simp only [e1, e2, Option.bind_some]
    exact sweep_up k a2 r h

/-- C108: where the accumulation meets finite numbers only, it is the one whose rounding errors are bounded in C94. -/
theorem C108_same (g : AD.Graph) (out : AD.Var) (adj : List F64) (h : AD.accumulate g out = some adj) :
    accumulate (g.map up) ⟨out.index, .fin out.value⟩ = some (adj.map .fin) := by
  unfold AD.accumulate at h
  split_ifs at h with ho
  unfold accumulate
  rw [if_pos (by simpa using ho), List.length_map, ofQ_one']
  have := sweep_up _ _ _ h
  rwa [List.map_set, List.map_replicate] at this

/-! ## Operations that record such derivatives -/

theorem built_unary {g : Graph} (hg : Built g) {i : ℕ} (hi : i < g.length) (p : X64) :
    Built (g ++ [⟨p, zero, i, g.length⟩]) :=
  .push hg (arity := .unary) (parents := [i]) (partials := [p]) (by simpa using hi) rfl

theorem built_binary {g : Graph} (hg : Built g) {i j : ℕ} (hi : i < g.length) (hj : j < g.length) (p q : X64) :
    Built (g ++ [⟨p, q, i, j⟩]) :=
  .push hg (arity := .binary) (parents := [i, j]) (partials := [p, q]) (by simp; omega) rfl

/-- C108: the operations of the model build such graphs, and leave the vertices there as they are. -/
theorem C108_operations (l : Lib) (g : Graph) (hg : Built g) (a b : Var) (c : X64) (ha : a.index < g.length)
    (hb : b.index < g.length) (f : Graph → Option (Graph × Var))
    (hf : f ∈ [fun g => var g c, fun g => addVV g a b, fun g => mulVV g a b, fun g => subVV g a b, fun g => divVV g a b,
      fun g => addVF g a c, fun g => mulVF g a c, fun g => divVF g a c, fun g => divFV g c a, fun g => negV g a,
      fun g => recipV g a, fun g => expV l g a, fun g => lnV l g a, fun g => sqrtV l g a]) :
    ∃ ext v, f g = some (g ++ ext, v) ∧ Built (g ++ ext) ∧ v.index + 1 = (g ++ ext).length := by
  have one : ∀ (u : Vertex) (y : X64), Built (g ++ [u]) → f g = some (g ++ [u], ⟨g.length, y⟩) →
      ∃ ext v, f g = some (g ++ ext, v) ∧ Built (g ++ ext) ∧ v.index + 1 = (g ++ ext).length :=
    fun u y hu he => ⟨[u], _, he, hu, by simp⟩
  have two : ∀ (u w : Vertex) (y : X64), Built ((g ++ [u]) ++ [w]) → f g = some ((g ++ [u]) ++ [w], ⟨g.length + 1, y⟩) →
      ∃ ext v, f g = some (g ++ ext, v) ∧ Built (g ++ ext) ∧ v.index + 1 = (g ++ ext).length :=
    fun u w y hu he => ⟨[u, w], ⟨g.length + 1, y⟩, by simpa using he, by simpa using hu, by simp⟩
  simp only [List.mem_cons, List.not_mem_nil, or_false] at hf
  rcases hf with rfl | rfl | rfl | rfl | rfl | rfl | rfl | rfl | rfl | rfl | rfl | rfl | rfl | rfl
  · exact one _ _ (.push hg (arity := .nullary) (parents := []) (partials := []) (by simp) rfl) rfl
  · exact one _ _ (built_binary hg ha hb _ _) rfl
  · exact one _ _ (built_binary hg ha hb _ _) rfl
  · exact two _ _ (a.value.add (b.value.mul (ofQ (-1)))) (built_binary (built_binary hg hb hb (ofQ (-1)) zero) (i := a.index) (j := g.length) (by simp; omega)
      (by simp) (ofQ 1) (ofQ 1)) (by simp [subVV, negV, mulVF, addVV, push])
  · exact two _ _ (a.value.mul (recip b.value)) (built_binary (built_unary hg hb ((recip (b.value.mul b.value)).neg)) (i := a.index) (j := g.length)
      (by simp; omega) (by simp) (recip b.value) a.value) (by simp [divVV, recipV, mulVV, push])
  · exact one _ _ (built_binary hg ha ha _ _) rfl
  · exact one _ _ (built_binary hg ha ha _ _) rfl
  · exact one _ _ (built_binary hg ha ha _ _) rfl
  · exact one _ _ (built_binary hg ha ha _ _) rfl
  · exact one _ _ (built_binary hg ha ha _ _) rfl
  · exact one _ _ (built_unary hg ha _) rfl
  · exact one _ _ (built_unary hg ha _) rfl
  · exact one _ _ (built_unary hg ha _) rfl
  · exact one _ _ (built_unary hg ha _) rfl

theorem input_append {g ext : Graph} {j : ℕ} (h : IsInput g j) : IsInput (g ++ ext) j := by
  have h1 := h.1
  refine ⟨by simp; omega, fun i p => ?_⟩
  rintro ⟨v, hv, hr⟩
  rw [List.getElem?_append_left h.1] at hv
  exact h.2 i p ⟨v, hv, hr⟩

theorem zero_sq : zero.mul zero = zero := zero_mul_finite trivial

theorem recip_zero : recip zero = .inf false := by
  unfold recip
  rw [ofQ_one']
  simp [X64.div, zero, F64.zero, F64.one]

theorem div_zero_not_finite (c : X64) : ¬ Finite (c.div zero) := by
  cases c with
  | fin a => simp only [X64.div, zero, F64.zero, if_true]; split_ifs <;> simp [Finite]
  | inf s => simp [X64.div, zero, Finite]
  | nan => simp [X64.div, zero, Finite]

/-- C108 (defect): calling `sqrt`, `ln`, `recip` or `c / x` on an input `x` that is zero makes the derivative of every variable of the
graph with respect to `x` NaN, even if the result is never used. -/
theorem C108_unused (l : Lib) (hl : l.sqrt zero = zero) (g : Graph) (hg : Built g) (out x : Var) (ho : out.index < g.length)
    (hx : IsInput g x.index) (h0 : x.value = zero) (c : X64) (f : Graph → Option (Graph × Var))
    (hf : f ∈ [fun g => sqrtV l g x, fun g => lnV l g x, fun g => recipV g x, fun g => divFV g c x]) :
    ∃ g' w adj, f g = some (g', w) ∧ accumulate g' out = some adj ∧ wrt adj x = some .nan := by
  have key : ∀ (u : Vertex) (i : ℕ) (p y : X64), Built (g ++ [u]) → f g = some (g ++ [u], ⟨g.length, y⟩) →
      ((u.parent0 = x.index ∧ u.partial0 = p) ∨ (u.parent1 = x.index ∧ u.partial1 = p)) → ¬ Finite p →
      ∃ g' w adj, f g = some (g', w) ∧ accumulate g' out = some adj ∧ wrt adj x = some .nan := by
    intro u i p y hu he hor hp
    obtain ⟨adj, h1, h2⟩ := C108_contaminates (g ++ [u]) hu out (by simp; omega) g.length x.index p
      ⟨u, by simp, hx.1, hor⟩ hp x (input_append hx) .refl
    exact ⟨_, _, adj, he, h1, h2⟩
  simp only [List.mem_cons, List.not_mem_nil, or_false] at hf
  rcases hf with rfl | rfl | rfl | rfl
  · refine key _ 0 (recip ((ofQ 2).mul (l.sqrt x.value))) _ (built_unary hg hx.1 _) rfl (.inl ⟨rfl, rfl⟩) ?_
    rw [h0, hl]
    have : (ofQ 2).mul zero = zero := by
      unfold ofQ
      cases h : toF64 2 with
      | some a =>
        simp only [X64.mul, zero, F64.zero, mul_zero]
        unfold ofQ toF64
        simp [rnd_rep rep_zero]
      | none =>
        exfalso
        unfold toF64 at h
        rw [dif_pos] at h
        · cases h
        · have e : rnd 2 = 2 := rnd_rep (by simpa using rep_nat 2 (by norm_num))
          rw [e, abs_of_pos (by norm_num)]
          exact lt_of_lt_of_le (by norm_num : (2:ℚ) < 2 ^ 2) (pow_le_pow_right₀ (by norm_num) (by norm_num))
    rw [this, recip_zero]
    simp [Finite]
  · refine key _ 0 (recip x.value) _ (built_unary hg hx.1 _) rfl (.inl ⟨rfl, rfl⟩) ?_
    rw [h0, recip_zero]
    simp [Finite]
  · refine key _ 0 (recip (x.value.mul x.value)).neg _ (built_unary hg hx.1 _) rfl (.inl ⟨rfl, rfl⟩) ?_
    rw [h0, zero_sq, recip_zero]
    simp [Finite, X64.neg]
  · refine key _ 0 (c.neg.div (x.value.mul x.value)) _ (built_binary hg hx.1 hx.1 _ _) rfl (.inr ⟨rfl, rfl⟩) ?_
    rw [h0, zero_sq]
    exact div_zero_not_finite _

end Verif.Float.Tape
