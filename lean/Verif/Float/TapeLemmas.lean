import Verif.Float.TapeSpec

/-! Helper lemmas: vertices of built graphs, one turn of the accumulation. -/

namespace Verif.Float.Tape

open X64 Nan
open Verif.Autodiff (Arity)

/-- What a vertex at position `k` of a built graph looks like. -/
def Shape (k : ℕ) (v : Vertex) : Prop :=
  (v.parent0 < k ∨ (v.parent0 = k ∧ v.partial0 = zero ∧ v.parent1 = k)) ∧
  (v.parent1 < k ∨ (v.parent1 = k ∧ v.partial1 = zero))

theorem Built.shape {g : Graph} (h : Built g) : ∀ k v, g[k]? = some v → Shape k v := by
  induction h with
  | empty => intro k v hv; simp at hv
  | @push g g' arity parents partials n _ hp hpush ih =>
    intro k v hv
    have one : ∀ w : Vertex, g' = g ++ [w] → Shape g.length w → Shape k v := by
      rintro w rfl hs
      rcases Nat.lt_trichotomy k g.length with hk | hk | hk
      · rw [List.getElem?_append_left hk] at hv; exact ih k v hv
      · subst hk; simp at hv; subst hv; exact hs
      · rw [List.getElem?_eq_none (by simp; omega)] at hv; cases hv
    unfold Tape.push at hpush
    simp only at hpush
    split at hpush
    · simp only [Option.some.injEq, Prod.mk.injEq] at hpush
      exact one _ hpush.1.symm ⟨.inr ⟨rfl, rfl, rfl⟩, .inr ⟨rfl, rfl⟩⟩
    · simp only [Option.some.injEq, Prod.mk.injEq] at hpush
      exact one _ hpush.1.symm ⟨.inl (hp _ (by simp)), .inr ⟨rfl, rfl⟩⟩
    · simp only [Option.some.injEq, Prod.mk.injEq] at hpush
      exact one _ hpush.1.symm ⟨.inl (hp _ (by simp)), .inl (hp _ (by simp))⟩
    · cases hpush

/-! ## Non-finite numbers stay so -/

theorem add_not_finite {x y : X64} (h : ¬ Finite x ∨ ¬ Finite y) : ¬ Finite (x.add y) := by
  cases x <;> cases y <;> simp_all [X64.add, Finite]
  split_ifs <;> simp [Finite]

theorem mul_not_finite {x y : X64} (h : ¬ Finite x ∨ ¬ Finite y) : ¬ Finite (x.mul y) := by
  cases x <;> cases y <;> simp_all [X64.mul, Finite] <;> split_ifs <;> simp [Finite]

theorem add_nan (x : X64) : x.add .nan = .nan := by cases x <;> rfl

theorem nan_add (x : X64) : X64.nan.add x = .nan := by cases x <;> rfl

theorem zero_mul_not_finite {x : X64} (h : ¬ Finite x) : zero.mul x = .nan := by
  cases x with
  | fin a => simp [Finite] at h
  | inf s => simp [X64.mul, zero, F64.zero]
  | nan => rfl

theorem zero_mul_finite {x : X64} (h : Finite x) : zero.mul x = zero := by
  cases x with
  | fin a =>
    have : zero.mul (.fin a) = ofQ 0 := by simp [X64.mul, zero, F64.zero]
    rw [this]
    unfold ofQ toF64
    simp [rnd_rep rep_zero, zero, F64.zero]
  | inf s => simp [Finite] at h
  | nan => simp [Finite] at h

/-! ## One turn -/

/-- The two updates for one vertex. -/
theorem sweep_succ {g : Graph} {k : ℕ} {adj r : List X64} (h : sweep g (k + 1) adj = some r) :
    ∃ v d adj1 adj2, g[k]? = some v ∧ adj[k]? = some d ∧ addAt adj v.parent0 v.partial0 d = some adj1 ∧
      addAt adj1 v.parent1 v.partial1 d = some adj2 ∧ sweep g k adj2 = some r := by
  unfold sweep at h
  simp only [Option.bind_eq_bind, Option.bind_eq_some_iff] at h
  obtain ⟨v, hv, d, hd, a1, h1, a2, h2, h⟩ := h
  exact ⟨v, d, a1, a2, hv, hd, h1, h2, h⟩

theorem addAt_self {adj r : List X64} {i : ℕ} {p d : X64} (h : addAt adj i p d = some r) :
    ∃ old, adj[i]? = some old ∧ r[i]? = some (old.add (p.mul d)) := by
  unfold addAt at h
  rw [Option.map_eq_some_iff] at h
  obtain ⟨old, ho, rfl⟩ := h
  refine ⟨old, ho, ?_⟩
  have := (List.getElem?_eq_some_iff.1 ho).1
  simp [List.getElem?_set_self this]

theorem addAt_other {adj r : List X64} {i j : ℕ} {p d : X64} (h : addAt adj i p d = some r) (hij : i ≠ j) :
    r[j]? = adj[j]? := by
  unfold addAt at h
  rw [Option.map_eq_some_iff] at h
  obtain ⟨old, ho, rfl⟩ := h
  exact List.getElem?_set_ne hij

theorem addAt_length {adj r : List X64} {i : ℕ} {p d : X64} (h : addAt adj i p d = some r) : r.length = adj.length := by
  unfold addAt at h
  rw [Option.map_eq_some_iff] at h
  obtain ⟨old, ho, rfl⟩ := h
  simp

theorem addAt_some {adj : List X64} {i : ℕ} {p d : X64} (h : i < adj.length) : ∃ r, addAt adj i p d = some r := by
  unfold addAt
  rw [List.getElem?_eq_getElem h]
  exact ⟨_, rfl⟩

/-- Entry `i` is not finite. -/
def Bad (adj : List X64) (i : ℕ) : Prop := ∃ x, adj[i]? = some x ∧ ¬ Finite x

theorem addAt_bad {adj r : List X64} {i j : ℕ} {p d : X64} (h : addAt adj i p d = some r) (hb : Bad adj j) : Bad r j := by
  obtain ⟨x, hx, hf⟩ := hb
  by_cases hij : i = j
  · subst hij
    obtain ⟨old, ho, hr⟩ := addAt_self h
    rw [hx] at ho; cases ho
    exact ⟨_, hr, add_not_finite (.inl hf)⟩
  · exact ⟨x, by rw [addAt_other h hij, hx], hf⟩

theorem addAt_makes {adj r : List X64} {i : ℕ} {p d : X64} (h : addAt adj i p d = some r) (hb : ¬ Finite p ∨ ¬ Finite d) :
    Bad r i := by
  obtain ⟨old, ho, hr⟩ := addAt_self h
  exact ⟨_, hr, add_not_finite (.inr (mul_not_finite hb))⟩

/-- The entries from `k` on are not touched by the vertices below `k`. -/
theorem sweep_above {g : Graph} (hg : ∀ k v, g[k]? = some v → Shape k v) : ∀ (k : ℕ) (adj r : List X64),
    sweep g k adj = some r → ∀ i, k ≤ i → r[i]? = adj[i]?
  | 0, adj, r, h, i, _ => by simp only [sweep, Option.some.injEq] at h; rw [h]
  | k + 1, adj, r, h, i, hi => by
    obtain ⟨v, d, a1, a2, hv, -, h1, h2, h⟩ := sweep_succ h
    have hs := hg k v hv
    rw [sweep_above hg k a2 r h i (by omega), addAt_other h2, addAt_other h1]
    · rcases hs.1 with h | h <;> omega
    · rcases hs.2 with h | h <;> omega

/-- Accumulation does not run out of bounds. -/
theorem sweep_some {g : Graph} (hg : ∀ k v, g[k]? = some v → Shape k v) : ∀ (k : ℕ) (adj : List X64),
    k ≤ g.length → adj.length = g.length → ∃ r, sweep g k adj = some r ∧ r.length = g.length
  | 0, adj, _, hl => ⟨adj, rfl, hl⟩
  | k + 1, adj, hk, hl => by
    have hv : g[k]? = some g[k] := List.getElem?_eq_getElem (by omega)
    have hd : adj[k]? = some adj[k] := List.getElem?_eq_getElem (by omega)
    have hs := hg k _ hv
    obtain ⟨a1, h1⟩ := addAt_some (adj := adj) (i := g[k].parent0) (p := g[k].partial0) (d := adj[k])
      (by rcases hs.1 with h | h <;> omega)
    have l1 := addAt_length h1
    obtain ⟨a2, h2⟩ := addAt_some (adj := a1) (i := g[k].parent1) (p := g[k].partial1) (d := adj[k])
      (by rcases hs.2 with h | h <;> omega)
    have l2 := addAt_length h2
    obtain ⟨r, hr, hrl⟩ := sweep_some hg k a2 (by omega) (by omega)
    refine ⟨r, ?_, hrl⟩
    unfold sweep
    simp only [hv, hd, Option.bind_eq_bind, Option.bind_some, h1, h2, hr]

/-- An input's own vertex turns what is not finite into NaN, and adds nothing otherwise. -/
theorem input_turn {g : Graph} (hg : ∀ k v, g[k]? = some v → Shape k v) {k : ℕ} {v : Vertex} (hv : g[k]? = some v)
    (hin : IsInput g k) {adj a1 a2 : List X64} {d : X64} (hd : adj[k]? = some d)
    (h1 : addAt adj v.parent0 v.partial0 d = some a1) (h2 : addAt a1 v.parent1 v.partial1 d = some a2) :
    (¬ Finite d → a2[k]? = some .nan) ∧ (Finite d → ∃ x, a2[k]? = some x ∧ ∀ s, x ≠ .inf s) := by
  have hs := hg k v hv
  have e0 : v.parent0 = k ∧ v.partial0 = zero ∧ v.parent1 = k := by
    rcases hs.1 with h | h
    · exact absurd ⟨v, hv, h, .inl ⟨rfl, rfl⟩⟩ (hin.2 v.parent0 v.partial0)
    · exact h
  have e1 : v.partial1 = zero := by
    rcases hs.2 with h | h
    · omega
    · exact h.2
  rw [e0.1, e0.2.1] at h1
  rw [e0.2.2, e1] at h2
  obtain ⟨o1, ho1, hr1⟩ := addAt_self h1
  rw [hd] at ho1; cases ho1
  obtain ⟨o2, ho2, hr2⟩ := addAt_self h2
  rw [hr1] at ho2; cases ho2
  refine ⟨fun hf => ?_, fun hf => ?_⟩
  · rw [hr2, zero_mul_not_finite hf, add_nan]
  · rw [hr2, zero_mul_finite hf]
    refine ⟨_, rfl, fun s => ?_⟩
    obtain ⟨a, rfl⟩ : ∃ a, d = .fin a := by cases d <;> simp_all [Finite]
    have key : ∀ a : F64, (X64.fin a).add zero = .fin a := by
      intro a
      simp only [X64.add, zero, F64.zero, _root_.add_zero]
      unfold ofQ toF64
      simp [rnd_rep a.rep, a.fin]
    rw [key, key]
    simp

/-- What is not finite at a vertex is NaN at the inputs it was computed from. -/
theorem sweep_bad {g : Graph} (hg : ∀ k v, g[k]? = some v → Shape k v) {j : ℕ} (hj : IsInput g j) :
    ∀ (k : ℕ) (adj r : List X64), sweep g k adj = some r → ∀ i, i < k → Feeds g j i → Bad adj i → r[j]? = some .nan
  | 0, _, _, _, i, hi, _, _ => absurd hi (by omega)
  | k + 1, adj, r, h, i, hi, hf, hb => by
    obtain ⟨v, d, a1, a2, hv, hd, h1, h2, h⟩ := sweep_succ h
    by_cases hik : i = k
    · subst hik
      obtain ⟨x, hx, hnf⟩ := hb
      rw [hd] at hx; cases hx
      cases hf with
      | refl =>
        rw [sweep_above hg _ _ _ h j le_rfl]
        exact (input_turn hg hv hj hd h1 h2).1 hnf
      | @step m _ p hf hr =>
        obtain ⟨v', hv', hm, hor⟩ := hr
        rw [hv] at hv'; cases hv'
        refine sweep_bad hg hj i a2 r h m hm hf ?_
        rcases hor with ⟨rfl, -⟩ | ⟨rfl, -⟩
        · exact addAt_bad h2 (addAt_makes h1 (.inr hnf))
        · exact addAt_makes h2 (.inr hnf)
    · exact sweep_bad hg hj k a2 r h i (by omega) hf (addAt_bad h2 (addAt_bad h1 hb))

theorem sweep_record {g : Graph} (hg : ∀ k v, g[k]? = some v → Shape k v) {j m i : ℕ} {p : X64} (hj : IsInput g j)
    (hr : Records g m i p) (hp : ¬ Finite p) (hf : Feeds g j i) :
    ∀ (k : ℕ) (adj r : List X64), sweep g k adj = some r → m < k → r[j]? = some .nan
  | 0, _, _, _, hm => absurd hm (by omega)
  | k + 1, adj, r, h, hm => by
    obtain ⟨v, d, a1, a2, hv, hd, h1, h2, h⟩ := sweep_succ h
    by_cases hmk : m = k
    · subst hmk
      obtain ⟨v', hv', hi, hor⟩ := hr
      rw [hv] at hv'; cases hv'
      refine sweep_bad hg hj m a2 r h i hi hf ?_
      rcases hor with ⟨rfl, rfl⟩ | ⟨rfl, rfl⟩
      · exact addAt_bad h2 (addAt_makes h1 (.inl hp))
      · exact addAt_makes h2 (.inl hp)
    · exact sweep_record hg hj hr hp hf k a2 r h (by omega)

theorem sweep_input {g : Graph} (hg : ∀ k v, g[k]? = some v → Shape k v) {j : ℕ} (hj : IsInput g j) :
    ∀ (k : ℕ) (adj r : List X64), sweep g k adj = some r → j < k → ∃ x, r[j]? = some x ∧ ∀ s, x ≠ .inf s
  | 0, _, _, _, hm => absurd hm (by omega)
  | k + 1, adj, r, h, hm => by
    obtain ⟨v, d, a1, a2, hv, hd, h1, h2, h⟩ := sweep_succ h
    by_cases hjk : j = k
    · subst hjk
      rw [sweep_above hg _ _ _ h j le_rfl]
      obtain ⟨f1, f2⟩ := input_turn hg hv hj hd h1 h2
      by_cases hf : Finite d
      · exact f2 hf
      · exact ⟨_, f1 hf, by simp⟩
    · exact sweep_input hg hj k a2 r h (by omega)

end Verif.Float.Tape
