import Verif.Float.AutodiffSpec
import Verif.Float.SumProps
import Verif.Autodiff.Props

/-! Helper lemmas: the rounded reverse sweep next to the exact sweeps over the recorded partials and over their
magnitudes. -/

namespace Verif.Float.AD

open Verif.Autodiff (WF)

/-- The tape with real partials `f p`. -/
noncomputable def Graph.toReal (f : ℝ → ℝ) (g : Graph) : Autodiff.Graph :=
  g.map fun v => ⟨f v.partial0.val, f v.partial1.val, v.parent0, v.parent1⟩

theorem Tape.wf {g : Graph} (h : Tape g) {f : ℝ → ℝ} (hf : f 0 = 0) : WF (g.toReal f) := by
  intro i v hv
  simp only [Graph.toReal, List.getElem?_map, Option.map_eq_some_iff] at hv
  obtain ⟨w, hw, rfl⟩ := hv
  obtain ⟨h0, h1⟩ := h i w hw
  constructor
  · rcases h0 with h0 | ⟨h0, hz⟩
    · exact .inl h0
    · exact .inr ⟨h0, by simp only [hz, Rat.cast_zero, hf]⟩
  · rcases h1 with h0 | ⟨h0, hz⟩
    · exact .inl h0
    · exact .inr ⟨h0, by simp only [hz, Rat.cast_zero, hf]⟩

/-- The value at a position, 0 beyond the end. -/
noncomputable def at_ (adj : List F64) (j : ℕ) : ℝ := ((adj.getD j F64.zero).val : ℝ)

noncomputable def uR : ℝ := ((u : ℚ) : ℝ)

theorem uR_pos : 0 < uR := by unfold uR; exact_mod_cast u_pos

theorem addAt_val {adj adj' : List F64} {i : ℕ} {p d : F64} (h : addAt adj i p d = some adj') :
    i < adj.length ∧ adj'.length = adj.length ∧ ∀ j, at_ adj' j =
      if j = i then ((rnd ((adj.getD i F64.zero).val + rnd (p.val * d.val)) : ℚ) : ℝ) else at_ adj j := by
  unfold addAt at h
  simp only [Option.bind_eq_bind, Option.bind_eq_some_iff, Option.some.injEq] at h
  obtain ⟨old, h1, q, h2, new, h3, rfl⟩ := h
  obtain ⟨hi, rfl⟩ := List.getElem?_eq_some_iff.1 h1
  refine ⟨hi, by simp, fun j => ?_⟩
  unfold at_
  simp only [List.getD_eq_getElem?_getD, List.getElem?_set]
  by_cases hj : j = i
  · subst hj
    simp only [hi, if_true, Option.getD_some, List.getElem?_eq_getElem]
    rw [toF64_some h3, toF64_some h2]
  · rw [if_neg (fun h => hj h.symm), if_neg hj]

theorem rnd_add_real {a b : ℚ} (ha : Rep a) (hb : Rep b) :
    |((rnd (a + b) : ℚ) : ℝ) - (a + b)| ≤ uR * |(a : ℝ) + b| := by
  have := rnd_add ha hb
  rw [abs_sub_comm] at this
  unfold uR
  exact_mod_cast this

/-- Whether a product is rounded with a relative error: it is zero or not below the smallest normal number. -/
theorem rnd_mul_real {a b : ℚ} (h : NoUnderflow (a * b)) :
    |((rnd (a * b) : ℚ) : ℝ) - a * b| ≤ uR * |(a : ℝ) * b| := by
  have : |rnd (a * b) - a * b| ≤ u * |a * b| := by
    rcases h with h | h
    · rw [h, rnd_zero]; simp
    · rw [abs_sub_comm]
      rcases rnd_error (a * b) with h' | ⟨h', _⟩
      · exact h'
      · exact absurd h' (not_lt.2 h)
  unfold uR
  exact_mod_cast this

theorem round_step {x r a c y : ℝ} (hy : |y - x| ≤ uR * |x|) (hx : |x - r| ≤ (c - 1) * a) (hr : |r| ≤ a) (hc : 1 ≤ c) :
    |y - r| ≤ ((1 + uR) * c - 1) * a := by
  have hu := uR_pos
  have h1 : |x| ≤ c * a := by
    have := abs_sub_abs_le_abs_sub x r
    linarith
  have h2 := abs_sub_le y x r
  nlinarith

/-- One slot of one vertex, on the three kinds of adjoints. -/
theorem slot_step {F R A : ℝ} {P D Fq : ℚ} {DR DA c c0 : ℝ} (hFq : (Fq : ℝ) = F) (hrep : Rep Fq)
    (h : |F - R| ≤ (c - 1) * A) (hR : |R| ≤ A) (hD : |(D : ℝ) - DR| ≤ (c0 - 1) * DA) (hDR : |DR| ≤ DA)
    (hc0 : 1 ≤ c0) (hc : (1 + uR) * c0 ≤ c) (hn : NoUnderflow (P * D)) :
    |((rnd (Fq + rnd (P * D)) : ℚ) : ℝ) - (R + P * DR)| ≤ ((1 + uR) * c - 1) * (A + |(P : ℝ)| * DA) := by
  have hu := uR_pos
  have hc1 : 1 ≤ c := by nlinarith
  have hA : 0 ≤ A := (abs_nonneg _).trans hR
  have hDA : 0 ≤ DA := (abs_nonneg _).trans hDR
  have h1 : |((rnd (P * D) : ℚ) : ℝ) - P * DR| ≤ ((1 + uR) * c0 - 1) * (|(P : ℝ)| * DA) := by
    refine round_step (x := (P : ℝ) * D) (rnd_mul_real hn) ?_ ?_ hc0
    · rw [← mul_sub, abs_mul]
      have := mul_le_mul_of_nonneg_left hD (abs_nonneg (P : ℝ))
      linarith
    · rw [abs_mul]
      exact mul_le_mul_of_nonneg_left hDR (abs_nonneg _)
  have hPD : 0 ≤ |(P : ℝ)| * DA := by positivity
  refine round_step (x := (Fq : ℝ) + (rnd (P * D) : ℚ)) (rnd_add_real hrep (rep_rnd _)) ?_ ?_ hc1
  · have e : (Fq : ℝ) + (rnd (P * D) : ℚ) - (R + P * DR) = (F - R) + (((rnd (P * D) : ℚ) : ℝ) - P * DR) := by
      rw [hFq]; ring
    rw [e]
    refine (abs_add_le _ _).trans ?_
    have : ((1 + uR) * c0 - 1) * (|(P : ℝ)| * DA) ≤ (c - 1) * (|(P : ℝ)| * DA) :=
      mul_le_mul_of_nonneg_right (by linarith) hPD
    linarith
  · refine (abs_add_le _ _).trans (add_le_add hR ?_)
    rw [abs_mul]
    exact mul_le_mul_of_nonneg_left hDR (abs_nonneg _)

theorem at_eq {adj : List F64} {k : ℕ} {d : F64} (h : adj[k]? = some d) : at_ adj k = d.val := by
  unfold at_
  rw [List.getD_eq_getElem?_getD, h]; rfl

/-- One iteration of the rounded sweep. -/
theorem sweep_succ {g : Graph} {k : ℕ} {adj r : List F64} (h : sweep g (k + 1) adj = some r) :
    ∃ (v : Vertex) (d : F64) (a1 a2 : List F64), g[k]? = some v ∧ adj[k]? = some d ∧
      addAt adj v.parent0 v.partial0 d = some a1 ∧ addAt a1 v.parent1 v.partial1 d = some a2 ∧ sweep g k a2 = some r := by
  simp only [sweep, Option.bind_eq_bind, Option.bind_eq_some_iff] at h
  obtain ⟨v, h1, d, h2, a1, h3, a2, h4, h5⟩ := h
  exact ⟨v, d, a1, a2, h1, h2, h3, h4, h5⟩

/-- Adding a zero product changes nothing. -/
theorem addAt_zero {adj adj' : List F64} {i : ℕ} {p d : F64} (h : addAt adj i p d = some adj') (hz : p.val * d.val = 0) (j : ℕ) :
    at_ adj' j = at_ adj j := by
  rw [(addAt_val h).2.2, hz, rnd_zero, _root_.add_zero, rnd_rep (F64.rep _)]
  split_ifs with hj
  · rw [hj]; rfl
  · rfl

/-- Positions already swept do not change. -/
theorem sweep_fixed {g : Graph} (hw : Tape g) (k : ℕ) (adj r : List F64) (h : sweep g k adj = some r) (j : ℕ) (hj : k ≤ j + 1) :
    at_ r j = at_ adj j := by
  induction k generalizing adj with
  | zero => simp only [sweep, Option.some.injEq] at h; rw [h]
  | succ k ih =>
    obtain ⟨v, d, a1, a2, h1, h2, h3, h4, h5⟩ := sweep_succ h
    rw [ih a2 h5 (by omega)]
    obtain ⟨w0, w1⟩ := hw k v h1
    have e1 : at_ a1 j = at_ adj j := by
      rcases w0 with w | ⟨w, z⟩
      · rw [(addAt_val h3).2.2, if_neg (by omega)]
      · exact addAt_zero h3 (by rw [z, zero_mul]) j
    have e2 : at_ a2 j = at_ a1 j := by
      rcases w1 with w | ⟨w, z⟩
      · rw [(addAt_val h4).2.2, if_neg (by omega)]
      · exact addAt_zero h4 (by rw [z, zero_mul]) j
    rw [e2, e1]

theorem sweep_length {g : Graph} (k : ℕ) (adj r : List F64) (h : sweep g k adj = some r) : r.length = adj.length := by
  induction k generalizing adj with
  | zero => simp only [sweep, Option.some.injEq] at h; rw [h]
  | succ k ih =>
    obtain ⟨v, d, a1, a2, h1, h2, h3, h4, h5⟩ := sweep_succ h
    rw [ih a2 h5, (addAt_val h4).2.1, (addAt_val h3).2.1]

theorem slot {adj adj' : List F64} {q k : ℕ} {P d : F64} (h : addAt adj q P d = some adj')
    (hq : q < k ∨ (q = k ∧ P.val = 0)) (R A : ℕ → ℝ) (DR DA : ℝ) (e e0 : ℕ) (he : e0 + 1 ≤ e)
    (hR : ∀ j, |R j| ≤ A j) (hD : |(d.val : ℝ) - DR| ≤ ((1 + uR) ^ e0 - 1) * DA) (hDR : |DR| ≤ DA)
    (hn : NoUnderflow (P.val * d.val)) (hj : ∀ j < k, |at_ adj j - R j| ≤ ((1 + uR) ^ e - 1) * A j) :
    (∀ j < k, |at_ adj' j - (R j + if j = q then (P.val : ℝ) * DR else 0)| ≤
      ((1 + uR) ^ (e + 1) - 1) * (A j + if j = q then |(P.val : ℝ)| * DA else 0)) ∧
    (∀ j, k ≤ j → at_ adj' j = at_ adj j ∧ (if j = q then (P.val : ℝ) * DR else 0) = 0 ∧
      (if j = q then |(P.val : ℝ)| * DA else 0) = 0) ∧
    (∀ j, |R j + if j = q then (P.val : ℝ) * DR else 0| ≤ A j + if j = q then |(P.val : ℝ)| * DA else 0) := by
  have hu := uR_pos
  have h1 : (1:ℝ) ≤ 1 + uR := by linarith
  obtain ⟨hl, -, hv⟩ := addAt_val h
  refine ⟨fun j hjk => ?_, fun j hkj => ?_, fun j => ?_⟩
  · rw [hv]
    split_ifs with hjq
    · subst hjq
      have := slot_step (F := at_ adj j) (Fq := (adj.getD j F64.zero).val) (P := P.val) (D := d.val)
        (c := (1 + uR) ^ e) (c0 := (1 + uR) ^ e0) rfl (F64.rep _) (hj j hjk) (hR j) hD hDR (one_le_pow₀ h1)
        (by rw [← pow_succ']; exact pow_le_pow_right₀ h1 he) hn
      rw [pow_succ']
      exact this
    · simp only [_root_.add_zero]
      refine (hj j hjk).trans (mul_le_mul_of_nonneg_right ?_ ((abs_nonneg _).trans (hR j)))
      have := pow_le_pow_right₀ h1 (show e ≤ e + 1 by omega)
      linarith
  · rcases hq with hq | ⟨hq, hz⟩
    · rw [hv, if_neg (by omega), if_neg (by omega), if_neg (by omega)]
      exact ⟨rfl, rfl, rfl⟩
    · refine ⟨addAt_zero h (by rw [hz, zero_mul]) j, ?_, ?_⟩ <;> simp [hz]
  · split_ifs
    · refine (abs_add_le _ _).trans (add_le_add (hR j) ?_)
      rw [abs_mul]
      exact mul_le_mul_of_nonneg_left hDR (abs_nonneg _)
    · simpa using hR j

/-- How the three sweeps are related after the vertices from position `k` on have been processed. -/
structure Inv (o k : ℕ) (F R A : ℕ → ℝ) : Prop where
  size : ∀ j, |R j| ≤ A j
  beyond : ∀ j, o < j → A j = 0
  todo : ∀ j < k, |F j - R j| ≤ ((1 + uR) ^ (3 * (o + 1 - k)) - 1) * A j
  done : ∀ j, k ≤ j → |F j - R j| ≤ ((1 + uR) ^ (3 * (o - j)) - 1) * A j

theorem sweep_error {g : Graph} (hw : Tape g) (o : ℕ) (r : List F64) (R' A' : List ℝ)
    (hn : ∀ (i : ℕ) (v : Vertex) (a : F64), g[i]? = some v → r[i]? = some a →
      NoUnderflow (v.partial0.val * a.val) ∧ NoUnderflow (v.partial1.val * a.val))
    (k : ℕ) (hk : k ≤ g.length) (adj : List F64) (R A : List ℝ) (hlF : adj.length = g.length)
    (hlR : R.length = g.length) (hlA : A.length = g.length) (hF : sweep g k adj = some r)
    (hRs : Autodiff.sweep (g.toReal id) k R = some R') (hAs : Autodiff.sweep (g.toReal abs) k A = some A')
    (inv : Inv o k (at_ adj) (fun j => R.getD j 0) (fun j => A.getD j 0)) :
    Inv o 0 (at_ r) (fun j => R'.getD j 0) (fun j => A'.getD j 0) := by
  induction k generalizing adj R A with
  | zero =>
    simp only [sweep, Autodiff.sweep, Option.some.injEq] at hF hRs hAs
    subst hF hRs hAs
    exact inv
  | succ k ih =>
    have hu := uR_pos
    have h1u : (1:ℝ) ≤ 1 + uR := by linarith
    have hfix := sweep_fixed hw (k + 1) adj r hF k (by omega)
    have hlr := sweep_length (k + 1) adj r hF
    obtain ⟨v, d, a1, a2, h1, h2, h3, h4, h5⟩ := sweep_succ hF
    have hv : g[k]'(by omega) = v := by
      rw [List.getElem?_eq_getElem (by omega)] at h1
      exact Option.some.inj h1
    have hdk : at_ adj k = d.val := at_eq h2
    obtain ⟨v0, v1⟩ := hw k v h1
    have lR : (g.toReal id).length = g.length := by simp [Graph.toReal]
    have lA : (g.toReal abs).length = g.length := by simp [Graph.toReal]
    obtain ⟨R2, eR, lR2, pR⟩ := Autodiff.sweep_step (hw.wf (f := id) rfl) (k := k) (by omega) (hlR.trans lR.symm)
    obtain ⟨A2, eA, lA2, pA⟩ := Autodiff.sweep_step (hw.wf (f := abs) abs_zero) (k := k) (by omega) (hlA.trans lA.symm)
    have gR : (g.toReal id)[k]'(by omega) = ⟨v.partial0.val, v.partial1.val, v.parent0, v.parent1⟩ := by
      simp only [Graph.toReal, List.getElem_map, hv, id]
    have gA : (g.toReal abs)[k]'(by omega) = ⟨|(v.partial0.val : ℝ)|, |(v.partial1.val : ℝ)|, v.parent0, v.parent1⟩ := by
      simp only [Graph.toReal, List.getElem_map, hv]
    rw [gR] at pR
    rw [gA] at pA
    simp only at pR pA
    rw [eR] at hRs
    rw [eA] at hAs
    -- no underflow of the two products
    have hun : NoUnderflow (v.partial0.val * d.val) ∧ NoUnderflow (v.partial1.val * d.val) := by
      have hrk : r[k]? = some (r[k]'(by omega)) := List.getElem?_eq_getElem _
      have := hn k v _ h1 hrk
      have e : (r[k]'(by omega)).val = d.val := by
        have h6 := at_eq hrk
        rw [hfix, hdk] at h6
        exact_mod_cast h6.symm
      rwa [e] at this
    refine ih (by omega) a2 R2 A2 ?_ (lR2.trans lR) (lA2.trans lA) h5 hRs hAs ?_
    · rw [(addAt_val h4).2.1, (addAt_val h3).2.1, hlF]
    -- the invariant after this vertex
    set DR := R.getD k 0 with hDR
    set DA := A.getD k 0 with hDA
    have hD : |(d.val : ℝ) - DR| ≤ ((1 + uR) ^ (3 * (o + 1 - (k + 1))) - 1) * DA := by
      rw [← hdk]
      exact inv.todo k (by omega)
    have hDRA : |DR| ≤ DA := inv.size k
    by_cases hz : DA = 0
    · -- nothing happens
      have z1 : DR = 0 := by
        rw [hz] at hDRA
        exact abs_eq_zero.mp (le_antisymm hDRA (abs_nonneg _))
      have z2 : d.val = 0 := by
        rw [hz, z1, mul_zero, sub_zero] at hD
        have := abs_eq_zero.mp (le_antisymm hD (abs_nonneg _))
        exact_mod_cast this
      have eF : ∀ j, at_ a2 j = at_ adj j := fun j => by
        rw [addAt_zero h4 (by rw [z2, mul_zero]), addAt_zero h3 (by rw [z2, mul_zero])]
      have eR2 : ∀ j, R2.getD j 0 = R.getD j 0 := fun j => by rw [pR, z1]; simp
      have eA2 : ∀ j, A2.getD j 0 = A.getD j 0 := fun j => by rw [pA, hz]; simp
      refine ⟨fun j => ?_, fun j hj => ?_, fun j hj => ?_, fun j hj => ?_⟩
      · simp only [eR2, eA2]; exact inv.size j
      · simp only [eA2]; exact inv.beyond j hj
      · simp only [eF, eR2, eA2]
        refine (inv.todo j (by omega)).trans (mul_le_mul_of_nonneg_right ?_ ((abs_nonneg _).trans (inv.size j)))
        have := pow_le_pow_right₀ h1u (show 3 * (o + 1 - (k + 1)) ≤ 3 * (o + 1 - k) by omega)
        linarith
      · simp only [eF, eR2, eA2]
        rcases Nat.eq_or_lt_of_le hj with hj | hj
        · subst hj
          rw [← hDA, ← hDR, hz, hdk, z1, z2]
          simp
        · exact inv.done j hj
    · have hko : k ≤ o := by
        by_contra hc
        exact hz (inv.beyond k (by omega))
      obtain ⟨s1, s2, s3⟩ := slot h3 v0 (fun j => R.getD j 0) (fun j => A.getD j 0) DR DA
        (3 * (o + 1 - (k + 1)) + 1) (3 * (o + 1 - (k + 1))) le_rfl inv.size hD hDRA hun.1 (fun j hj =>
          (inv.todo j (by omega)).trans (mul_le_mul_of_nonneg_right (by
            have := pow_le_pow_right₀ h1u (Nat.le_succ (3 * (o + 1 - (k + 1))))
            simp only [Nat.succ_eq_add_one] at this
            linarith) ((abs_nonneg _).trans (inv.size j))))
      obtain ⟨t1, t2, t3⟩ := slot h4 v1
        (fun j => R.getD j 0 + if j = v.parent0 then (v.partial0.val : ℝ) * DR else 0)
        (fun j => A.getD j 0 + if j = v.parent0 then |(v.partial0.val : ℝ)| * DA else 0) DR DA
        (3 * (o + 1 - (k + 1)) + 1 + 1) (3 * (o + 1 - (k + 1))) (by omega) s3 hD hDRA hun.2 s1
      have eR2 : ∀ j, R2.getD j 0 = R.getD j 0 + (if j = v.parent0 then (v.partial0.val : ℝ) * DR else 0) +
          (if j = v.parent1 then (v.partial1.val : ℝ) * DR else 0) := pR
      have eA2 : ∀ j, A2.getD j 0 = A.getD j 0 + (if j = v.parent0 then |(v.partial0.val : ℝ)| * DA else 0) +
          (if j = v.parent1 then |(v.partial1.val : ℝ)| * DA else 0) := pA
      refine ⟨fun j => ?_, fun j hj => ?_, fun j hj => ?_, fun j hj => ?_⟩
      · simp only [eR2, eA2]; exact t3 j
      · simp only [eA2]
        rw [(s2 j (by omega)).2.2, (t2 j (by omega)).2.2, inv.beyond j hj]
        norm_num
      · simp only [eR2, eA2]
        refine (t1 j hj).trans (le_of_eq ?_)
        congr 3
        omega
      · simp only [eR2, eA2]
        rw [(s2 j hj).2.1, (s2 j hj).2.2, (t2 j hj).1, (t2 j hj).2.1, (t2 j hj).2.2, (s2 j hj).1]
        simp only [_root_.add_zero]
        rcases Nat.eq_or_lt_of_le hj with hj | hj
        · subst hj
          refine (inv.todo k (by omega)).trans (le_of_eq ?_)
          congr 3
          omega
        · exact inv.done j hj

end Verif.Float.AD
