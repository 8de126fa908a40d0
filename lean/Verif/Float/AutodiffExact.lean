import Verif.Float.AutodiffLemmas

/-! Helper lemmas: a sweep over integer partials, and a program on integers, none of whose numbers exceeds `2 ^ 53`. -/

namespace Verif.Float.AD

open Verif.Autodiff (WF)

theorem rnd_int {q : ℚ} (h : IsInt q) (hq : |q| ≤ 2 ^ 53) : rnd q = q := by
  obtain ⟨n, rfl⟩ := h
  refine rnd_rep (rep_int n ?_)
  exact_mod_cast hq

theorem toF64_int {q : ℚ} (h : IsInt q) (hq : |q| ≤ 2 ^ 53) : ∃ r, toF64 q = some r ∧ r.val = q := by
  have e := rnd_int h hq
  obtain ⟨r, h1, h2⟩ := toF64_isSome (x := q) (by
    rw [e]
    exact hq.trans_lt (pow_lt_pow_right₀ (by norm_num) (by norm_num)))
  exact ⟨r, h1, h2.trans e⟩

theorem IsInt.add {a b : ℚ} (ha : IsInt a) (hb : IsInt b) : IsInt (a + b) := by
  obtain ⟨n, rfl⟩ := ha
  obtain ⟨m, rfl⟩ := hb
  exact ⟨n + m, by push_cast; rfl⟩

theorem IsInt.mul {a b : ℚ} (ha : IsInt a) (hb : IsInt b) : IsInt (a * b) := by
  obtain ⟨n, rfl⟩ := ha
  obtain ⟨m, rfl⟩ := hb
  exact ⟨n * m, by push_cast; rfl⟩

theorem IsInt.neg {a : ℚ} (ha : IsInt a) : IsInt (-a) := by
  obtain ⟨n, rfl⟩ := ha
  exact ⟨-n, by push_cast; rfl⟩

theorem isInt_zero : IsInt F64.zero.val := ⟨0, by simp [F64.zero]⟩

theorem isInt_one : IsInt F64.one.val := ⟨1, by simp [F64.one]⟩

/-- All numbers of the list are integers. -/
def Ints (adj : List F64) : Prop := ∀ a ∈ adj, IsInt a.val

theorem addAt_exact {adj : List F64} {q : ℕ} {P d : F64} (hq : q < adj.length) (hi : Ints adj) (hP : IsInt P.val)
    (hd : IsInt d.val) (h1 : |(P.val : ℝ) * d.val| ≤ 2 ^ 53) (h2 : |at_ adj q + P.val * d.val| ≤ 2 ^ 53) :
    ∃ adj', addAt adj q P d = some adj' ∧ adj'.length = adj.length ∧ Ints adj' ∧
      ∀ j, at_ adj' j = at_ adj j + if j = q then (P.val : ℝ) * d.val else 0 := by
  have g : adj[q]? = some adj[q] := List.getElem?_eq_getElem hq
  have e : at_ adj q = (adj[q].val : ℝ) := at_eq g
  have iq := hi _ (List.getElem_mem hq)
  obtain ⟨p, p1, p2⟩ := toF64_int (hP.mul hd) (by exact_mod_cast h1)
  obtain ⟨s, s1, s2⟩ := toF64_int (iq.add (hP.mul hd)) (by rw [e] at h2; exact_mod_cast h2)
  have pm : P.mul d = some p := p1
  have sm : adj[q].add p = some s := by
    show toF64 (adj[q].val + p.val) = some s
    rw [p2]
    exact s1
  refine ⟨adj.set q s, ?_, by simp, ?_, fun j => ?_⟩
  · simp [addAt, g, pm, sm]
  · intro a ha
    rcases List.mem_or_eq_of_mem_set ha with h | h
    · exact hi a h
    · rw [h, s2]
      exact iq.add (hP.mul hd)
  · unfold at_
    simp only [List.getD_eq_getElem?_getD, List.getElem?_set]
    by_cases hj : j = q
    · subst hj
      simp [hq, s2]
    · rw [if_neg (fun h => hj h.symm), if_neg hj, _root_.add_zero]

theorem sweep_mono {g : Graph} (hw : Tape g) (k : ℕ) (hk : k ≤ g.length) (A A' : List ℝ) (hl : A.length = g.length)
    (h : Autodiff.sweep (g.toReal abs) k A = some A') (h0 : ∀ j, 0 ≤ A.getD j 0) (j : ℕ) : A.getD j 0 ≤ A'.getD j 0 := by
  induction k generalizing A with
  | zero =>
    simp only [Autodiff.sweep, Option.some.injEq] at h
    rw [h]
  | succ k ih =>
    have lA : (g.toReal abs).length = g.length := by simp [Graph.toReal]
    obtain ⟨A2, eA, lA2, pA⟩ := Autodiff.sweep_step (hw.wf (f := abs) abs_zero) (k := k) (by omega) (hl.trans lA.symm)
    rw [eA] at h
    have n0 : 0 ≤ ((g.toReal abs)[k]'(by omega)).partial0 := by simp [Graph.toReal]
    have n1 : 0 ≤ ((g.toReal abs)[k]'(by omega)).partial1 := by simp [Graph.toReal]
    have step : ∀ j, A.getD j 0 ≤ A2.getD j 0 := by
      intro j
      rw [pA]
      have a0 : 0 ≤ (if j = ((g.toReal abs)[k]'(by omega)).parent0 then ((g.toReal abs)[k]'(by omega)).partial0 * A.getD k 0 else 0) := by
        split_ifs
        · exact mul_nonneg n0 (h0 k)
        · exact le_rfl
      have a1 : 0 ≤ (if j = ((g.toReal abs)[k]'(by omega)).parent1 then ((g.toReal abs)[k]'(by omega)).partial1 * A.getD k 0 else 0) := by
        split_ifs
        · exact mul_nonneg n1 (h0 k)
        · exact le_rfl
      linarith
    exact (step j).trans (ih (by omega) A2 (lA2.trans lA) h (fun i => (h0 i).trans (step i)))

/-- All partials of the tape are integers. -/
def IntTape (g : Graph) : Prop := ∀ v ∈ g, IsInt v.partial0.val ∧ IsInt v.partial1.val

theorem sweep_exact {g : Graph} (hw : Tape g) (hg : IntTape g) (R' A' : List ℝ) (hA' : ∀ j, A'.getD j 0 ≤ 2 ^ 53)
    (k : ℕ) (hk : k ≤ g.length) (adj : List F64) (R A : List ℝ) (hlF : adj.length = g.length)
    (hlR : R.length = g.length) (hlA : A.length = g.length)
    (hRs : Autodiff.sweep (g.toReal id) k R = some R') (hAs : Autodiff.sweep (g.toReal abs) k A = some A')
    (size : ∀ j, |R.getD j 0| ≤ A.getD j 0) (ints : Ints adj) (eq : ∀ j, at_ adj j = R.getD j 0) :
    ∃ r, sweep g k adj = some r ∧ r.length = g.length ∧ ∀ j, at_ r j = R'.getD j 0 := by
  induction k generalizing adj R A with
  | zero =>
    simp only [Autodiff.sweep, Option.some.injEq] at hRs
    exact ⟨adj, rfl, hlF, by rw [← hRs]; exact eq⟩
  | succ k ih =>
    have hkl : k < g.length := by omega
    have h1 : g[k]? = some g[k] := List.getElem?_eq_getElem hkl
    have h2 : adj[k]? = some (adj[k]'(by omega)) := List.getElem?_eq_getElem _
    set v := g[k] with hv
    set d := adj[k]'(by omega) with hd
    obtain ⟨v0, v1⟩ := hw k v h1
    obtain ⟨i0, i1⟩ := hg v (List.getElem_mem hkl)
    have id_ : IsInt d.val := ints d (List.getElem_mem _)
    have hdk : (d.val : ℝ) = R.getD k 0 := by rw [← at_eq h2]; exact eq k
    have lR : (g.toReal id).length = g.length := by simp [Graph.toReal]
    have lA : (g.toReal abs).length = g.length := by simp [Graph.toReal]
    obtain ⟨R2, eR, lR2, pR⟩ := Autodiff.sweep_step (hw.wf (f := id) rfl) (k := k) (by omega) (hlR.trans lR.symm)
    obtain ⟨A2, eA, lA2, pA⟩ := Autodiff.sweep_step (hw.wf (f := abs) abs_zero) (k := k) (by omega) (hlA.trans lA.symm)
    have gR : (g.toReal id)[k]'(by omega) = ⟨v.partial0.val, v.partial1.val, v.parent0, v.parent1⟩ := by
      simp only [Graph.toReal, List.getElem_map, hv, id]
    have gA : (g.toReal abs)[k]'(by omega) = ⟨|(v.partial0.val : ℝ)|, |(v.partial1.val : ℝ)|, v.parent0, v.parent1⟩ := by
      simp only [Graph.toReal, List.getElem_map, hv]
    rw [gR] at pR
    rw [gA] at pA
    simp only at pR pA
    rw [eR] at hRs
    rw [eA] at hAs
    have A0 : ∀ j, 0 ≤ A.getD j 0 := fun j => (abs_nonneg _).trans (size j)
    have q0 : v.parent0 < adj.length := by rcases v0 with h | h <;> omega
    have q1 : v.parent1 < adj.length := by rcases v1 with h | h <;> omega
    have z0 : ∀ j, 0 ≤ (if j = v.parent0 then |(v.partial0.val : ℝ)| * A.getD k 0 else 0) := fun j => by
      split_ifs
      · exact mul_nonneg (abs_nonneg _) (A0 k)
      · exact le_rfl
    have z1 : ∀ j, 0 ≤ (if j = v.parent1 then |(v.partial1.val : ℝ)| * A.getD k 0 else 0) := fun j => by
      split_ifs
      · exact mul_nonneg (abs_nonneg _) (A0 k)
      · exact le_rfl
    have A20 : ∀ j, 0 ≤ A2.getD j 0 := fun j => by rw [pA]; linarith [A0 j, z0 j, z1 j]
    have top : ∀ j, A2.getD j 0 ≤ 2 ^ 53 := fun j =>
      (sweep_mono hw k (by omega) A2 A' (lA2.trans lA) hAs A20 j).trans (hA' j)
    -- the magnitude of a product
    have m0 : |(v.partial0.val : ℝ) * d.val| ≤ |(v.partial0.val : ℝ)| * A.getD k 0 := by
      rw [abs_mul, hdk]
      exact mul_le_mul_of_nonneg_left (size k) (abs_nonneg _)
    have m1 : |(v.partial1.val : ℝ) * d.val| ≤ |(v.partial1.val : ℝ)| * A.getD k 0 := by
      rw [abs_mul, hdk]
      exact mul_le_mul_of_nonneg_left (size k) (abs_nonneg _)
    have b0 := top v.parent0
    have b1 := top v.parent1
    rw [pA] at b0 b1
    have c0 := z1 v.parent0
    have c1 := z0 v.parent1
    rw [if_pos rfl] at b0
    rw [if_pos (rfl : v.parent1 = v.parent1)] at b1
    obtain ⟨a1, e1, l1, t1, p1⟩ := addAt_exact q0 ints i0 id_
      (m0.trans (by linarith [A0 v.parent0])) (by
        refine (abs_add_le _ _).trans ?_
        rw [eq]
        linarith [size v.parent0])
    have s1 : ∀ j, |at_ a1 j| ≤ A.getD j 0 + (if j = v.parent0 then |(v.partial0.val : ℝ)| * A.getD k 0 else 0) := fun j => by
      rw [p1, eq]
      refine (abs_add_le _ _).trans (add_le_add (size j) ?_)
      split_ifs
      · exact m0
      · simp
    obtain ⟨a2, e2, l2, t2, p2⟩ := addAt_exact (adj := a1) (q := v.parent1) (by rw [l1]; exact q1) t1 i1 id_
      (m1.trans (by linarith [A0 v.parent1])) (by
        refine (abs_add_le _ _).trans ?_
        linarith [s1 v.parent1])
    have eq2 : ∀ j, at_ a2 j = R2.getD j 0 := fun j => by rw [p2, p1, eq, pR, hdk]
    obtain ⟨r, r1, r2, r3⟩ := ih (by omega) a2 R2 A2 (by rw [l2, l1, hlF]) (lR2.trans lR) (lA2.trans lA) hRs hAs (fun j => by
      rw [← eq2, p2, pA]
      refine (abs_add_le _ _).trans (add_le_add (s1 j) ?_)
      split_ifs
      · exact m1
      · simp) t2 eq2
    exact ⟨r, by simp [sweep, h1, h2, ← hv, ← hd, e1, e2, r1], r2, r3⟩

end Verif.Float.AD
