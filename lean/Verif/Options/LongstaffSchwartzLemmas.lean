import Verif.Options.LongstaffSchwartz
import Verif.Options.LongstaffSchwartzSpec
import Verif.ML.RegressionLemmas
import Mathlib.Algebra.Polynomial.Roots
import Mathlib.LinearAlgebra.Lagrange
import Mathlib.Algebra.Polynomial.Degree.Lemmas

/-!
# Lemmas for C75
-/

namespace Verif.Options

open Real Matrix Polynomial

/-- The polynomial with given Laguerre coefficients. -/
noncomputable def lagPoly (c : Fin 5 → ℝ) : ℝ[X] :=
  C (c 0 + c 1 + c 2 + c 3 + c 4) + C (-c 1 - 2 * c 2 - 3 * c 3 - 4 * c 4) * X
    + C (c 2 / 2 + 3 / 2 * c 3 + 3 * c 4) * X ^ 2 + C (-c 3 / 6 - 2 / 3 * c 4) * X ^ 3 + C (c 4 / 24) * X ^ 4

theorem lagPoly_degree (c : Fin 5 → ℝ) : (lagPoly c).degree < 5 := by
  have : (lagPoly c).degree ≤ 4 := by unfold lagPoly; compute_degree
  exact lt_of_le_of_lt this (by norm_num)

theorem quartic_coeff (a b c d e : ℝ) :
    let p : ℝ[X] := C a + C b * X + C c * X ^ 2 + C d * X ^ 3 + C e * X ^ 4
    p.coeff 0 = a ∧ p.coeff 1 = b ∧ p.coeff 2 = c ∧ p.coeff 3 = d ∧ p.coeff 4 = e := by
  refine ⟨?_, ?_, ?_, ?_, ?_⟩ <;>
    simp only [coeff_add, coeff_C_mul, coeff_X_pow, coeff_C, coeff_X] <;> norm_num

theorem lagPoly_coeff (c : Fin 5 → ℝ) :
    (lagPoly c).coeff 0 = c 0 + c 1 + c 2 + c 3 + c 4 ∧
    (lagPoly c).coeff 1 = -c 1 - 2 * c 2 - 3 * c 3 - 4 * c 4 ∧
    (lagPoly c).coeff 2 = c 2 / 2 + 3 / 2 * c 3 + 3 * c 4 ∧
    (lagPoly c).coeff 3 = -c 3 / 6 - 2 / 3 * c 4 ∧ (lagPoly c).coeff 4 = c 4 / 24 :=
  quartic_coeff _ _ _ _ _

theorem lagPoly_eval (c : Fin 5 → ℝ) (x : ℝ) :
    (lagPoly c).eval x = ∑ j : Fin 5, LsPricer.laguerre x j * c j := by
  simp only [lagPoly, eval_add, eval_mul, eval_C, eval_pow, eval_X, Fin.sum_univ_five]
  simp [LsPricer.laguerre]
  ring

/-- The Laguerre coefficients of a polynomial. -/
noncomputable def lagCoeff (p : ℝ[X]) : Fin 5 → ℝ :=
  ![p.coeff 0 + p.coeff 1 + 2 * p.coeff 2 + 6 * p.coeff 3 + 24 * p.coeff 4,
    -p.coeff 1 - 4 * p.coeff 2 - 18 * p.coeff 3 - 96 * p.coeff 4,
    2 * p.coeff 2 + 18 * p.coeff 3 + 144 * p.coeff 4,
    -6 * p.coeff 3 - 96 * p.coeff 4,
    24 * p.coeff 4]

theorem lagPoly_lagCoeff {p : ℝ[X]} (h : p.degree < 5) : lagPoly (lagCoeff p) = p := by
  ext k
  have h5 : ∀ k, 5 ≤ k → p.coeff k = 0 := fun k hk =>
    coeff_eq_zero_of_degree_lt (lt_of_lt_of_le h (by exact_mod_cast hk))
  by_cases hk : 5 ≤ k
  · rw [h5 k hk]
    exact coeff_eq_zero_of_degree_lt (lt_of_lt_of_le (lagPoly_degree _) (by exact_mod_cast hk))
  · push Not at hk
    obtain ⟨h0, h1, h2, h3, h4⟩ := lagPoly_coeff (lagCoeff p)
    interval_cases k
    · rw [h0]; simp [lagCoeff]; ring
    · rw [h1]; simp [lagCoeff]; ring
    · rw [h2]; simp [lagCoeff]; ring
    · rw [h3]; simp [lagCoeff]; ring
    · rw [h4]; simp [lagCoeff]

theorem lagPoly_injective {c c' : Fin 5 → ℝ} (h : lagPoly c = lagPoly c') : c = c' := by
  have e : ∀ c : Fin 5 → ℝ, lagCoeff (lagPoly c) = c := by
    intro c
    obtain ⟨h0, h1, h2, h3, h4⟩ := lagPoly_coeff c
    ext j
    fin_cases j <;> simp [lagCoeff, h0, h1, h2, h3, h4] <;> ring
  rw [← e c, h, e]

theorem laguerre_mulVec (a : List ℝ) (c : Fin 5 → ℝ) (k : Fin a.length) :
    (LsPricer.laguerreMatrix a *ᵥ c) k = (lagPoly c).eval a[k] := by
  rw [lagPoly_eval]; rfl

/-- The regression is singular exactly when there are fewer than five distinct regressors. -/
theorem laguerre_singular (a : List ℝ) :
    ((LsPricer.laguerreMatrix a)ᵀ * LsPricer.laguerreMatrix a).det = 0 ↔ a.toFinset.card < 5 := by
  rw [ML.gram_det_zero]
  constructor
  · rintro ⟨c, hc, h0⟩
    by_contra hcard
    push Not at hcard
    apply hc
    have hz : lagPoly c = 0 := by
      refine eq_zero_of_degree_lt_of_eval_finset_eq_zero a.toFinset
        (lt_of_lt_of_le (lagPoly_degree c) (by exact_mod_cast hcard)) ?_
      intro x hx
      obtain ⟨k, hk, rfl⟩ := List.mem_iff_getElem.1 (List.mem_toFinset.1 hx)
      have := congrFun h0 ⟨k, hk⟩
      rwa [laguerre_mulVec] at this
    have h1 : lagPoly (0 : Fin 5 → ℝ) = 0 := by simp [lagPoly]
    exact lagPoly_injective (hz.trans h1.symm)
  · intro hcard
    set p : ℝ[X] := ∏ x ∈ a.toFinset, (X - C x) with hp
    have hmon : p.Monic := monic_prod_of_monic _ _ fun x _ => monic_X_sub_C x
    have hd : p.degree < 5 := by
      rw [hp, degree_prod]
      simp only [degree_X_sub_C, Finset.sum_const, nsmul_eq_mul, mul_one]
      exact_mod_cast hcard
    refine ⟨lagCoeff p, ?_, ?_⟩
    · intro h0
      have h1 := lagPoly_lagCoeff hd
      rw [h0] at h1
      exact hmon.ne_zero (h1.symm.trans (by simp [lagPoly]))
    · funext k
      rw [laguerre_mulVec, lagPoly_lagCoeff hd, hp, eval_prod]
      exact Finset.prod_eq_zero (List.mem_toFinset.2 (List.getElem_mem k.2)) (by simp)

theorem degree_five (p : ℝ[X]) : p.degree < 5 ↔ p.natDegree ≤ 4 := by
  rw [natDegree_le_iff_coeff_eq_zero, show (5 : WithBot ℕ) = ((5 : ℕ) : WithBot ℕ) from rfl,
    degree_lt_iff_coeff_zero]
  exact Iff.rfl

theorem degree_five_comp {p u : ℝ[X]} (hp : p.degree < 5) (hu : u.natDegree ≤ 1) : (p.comp u).degree < 5 := by
  rw [degree_five] at hp ⊢
  calc (p.comp u).natDegree ≤ p.natDegree * u.natDegree := natDegree_comp_le
    _ ≤ 4 * 1 := Nat.mul_le_mul hp hu

/-- The best fit does not depend on an affine change of the regressor. -/
theorem bestFit_comp {n : ℕ} {s : Finset (Fin n)} {x S y : Fin n → ℝ} {u w : ℝ[X]} (hu : u.natDegree ≤ 1)
    (hw : w.natDegree ≤ 1) (huw : u.comp w = X) (hwu : w.comp u = X) (hx : ∀ i ∈ s, x i = u.eval (S i)) {p : ℝ[X]}
    (h : ∀ q, Spec.BestFit s x y q ↔ q = p) : ∀ q, Spec.BestFit s S y q ↔ q = p.comp u := by
  have hS : ∀ i ∈ s, S i = w.eval (x i) := by
    intro i hi
    rw [hx i hi, ← eval_comp, hwu, eval_X]
  have e1 : ∀ q : ℝ[X], ∑ i ∈ s, ((q.comp u).eval (S i) - y i) ^ 2 = ∑ i ∈ s, (q.eval (x i) - y i) ^ 2 := by
    intro q
    refine Finset.sum_congr rfl fun i hi => ?_
    rw [eval_comp, ← hx i hi]
  have e2 : ∀ q : ℝ[X], ∑ i ∈ s, ((q.comp w).eval (x i) - y i) ^ 2 = ∑ i ∈ s, (q.eval (S i) - y i) ^ 2 := by
    intro q
    refine Finset.sum_congr rfl fun i hi => ?_
    rw [eval_comp, ← hS i hi]
  intro q
  constructor
  · rintro ⟨hq, hm⟩
    have : Spec.BestFit s x y (q.comp w) := by
      refine ⟨degree_five_comp hq hw, fun r hr => ?_⟩
      rw [e2, ← e1 r]
      exact hm _ (degree_five_comp hr hu)
    rw [← (h _).1 this, comp_assoc, hwu, comp_X]
  · rintro rfl
    obtain ⟨hp, hm⟩ := (h p).2 rfl
    refine ⟨degree_five_comp hp hu, fun r hr => ?_⟩
    rw [e1, ← e2 r]
    exact hm _ (degree_five_comp hr hw)

/-- The regression: it fails with fewer than five distinct regressors, and otherwise gives the best fit. -/
theorem continuation_spec {n : ℕ} (I : List (Fin n)) (hI : I.Nodup) (x y : Fin n → ℝ) :
    (((I.toFinset.image x).card < 5) ∧ LsPricer.continuation (I.map x) (I.map y) = none) ∨
    (5 ≤ (I.toFinset.image x).card ∧ ∃ p : ℝ[X], (∀ q, Spec.BestFit I.toFinset x y q ↔ q = p) ∧
      ∃ cont, LsPricer.continuation (I.map x) (I.map y) = some cont ∧
        ∀ (k : ℕ) (h : k < I.length), cont k = p.eval (x I[k])) := by
  have himg : (I.map x).toFinset = I.toFinset.image x := by
    ext v; simp
  by_cases hc : (I.toFinset.image x).card < 5
  · refine Or.inl ⟨hc, ?_⟩
    unfold LsPricer.continuation
    exact if_pos ((laguerre_singular _).2 (himg ▸ hc))
  · refine Or.inr ⟨not_lt.1 hc, ?_⟩
    have hdet : ((LsPricer.laguerreMatrix (I.map x))ᵀ * LsPricer.laguerreMatrix (I.map x)).det ≠ 0 := fun h0 =>
      hc (himg ▸ (laguerre_singular _).1 h0)
    set L := LsPricer.laguerreMatrix (I.map x) with hL
    set Y : Fin (I.map x).length → ℝ := fun k => (I.map y).getD k 0 with hY
    set c := (Lᵀ * L)⁻¹ *ᵥ (Lᵀ *ᵥ Y) with hcdef
    have hnormal : (Lᵀ * L + 0) *ᵥ c = Lᵀ *ᵥ Y := by
      rw [add_zero, hcdef, mulVec_mulVec, Matrix.mul_nonsing_inv _ (isUnit_iff_ne_zero.2 hdet), one_mulVec]
    have hsum : ∀ b : Fin 5 → ℝ, (Y - L *ᵥ b) ⬝ᵥ (Y - L *ᵥ b)
        = ∑ i ∈ I.toFinset, ((lagPoly b).eval (x i) - y i) ^ 2 := by
      intro b
      rw [ML.dot_self, List.sum_toFinset _ hI, ← List.sum_ofFn]
      congr 1
      refine List.ext_getElem (by simp) fun k h1 h2 => ?_
      have hk : k < I.length := by simpa using h2
      have hk' : k < (I.map x).length := by simpa using hk
      have e1 : (L *ᵥ b) ⟨k, hk'⟩ = (lagPoly b).eval (x I[k]) := by
        rw [hL, laguerre_mulVec]; simp
      have e2 : Y ⟨k, hk'⟩ = y I[k] := by simp [hY, hk]
      simp only [List.getElem_ofFn, List.getElem_map, Pi.sub_apply]
      show (Y ⟨k, hk'⟩ - (L *ᵥ b) ⟨k, hk'⟩) ^ 2 = _
      rw [e1, e2]
      ring
    have hquad : ∀ b : Fin 5 → ℝ, ∑ i ∈ I.toFinset, ((lagPoly b).eval (x i) - y i) ^ 2
        = ∑ i ∈ I.toFinset, ((lagPoly c).eval (x i) - y i) ^ 2 + (L *ᵥ (b - c)) ⬝ᵥ (L *ᵥ (b - c)) := by
      intro b
      have := ML.quad_complete L 0 (by simp) Y c b hnormal
      simp only [add_zero, zero_mulVec, dotProduct_zero, ML.dot_gram] at this
      rw [← hsum, ← hsum, this]
    refine ⟨lagPoly c, fun q => ⟨?_, ?_⟩, ?_⟩
    · rintro ⟨hq, hm⟩
      have h1 := hm _ (lagPoly_degree c)
      rw [← lagPoly_lagCoeff hq, hquad (lagCoeff q)] at h1
      have h2 : (L *ᵥ (lagCoeff q - c)) ⬝ᵥ (L *ᵥ (lagCoeff q - c)) = 0 :=
        le_antisymm (by linarith) (ML.dot_self_nonneg _)
      have h3 := ML.dot_self_zero h2
      have h4 : lagCoeff q - c = 0 := by
        by_contra hne
        exact hdet ((ML.gram_det_zero L).2 ⟨_, hne, h3⟩)
      rw [← lagPoly_lagCoeff hq, sub_eq_zero.1 h4]
    · rintro rfl
      refine ⟨lagPoly_degree c, fun r hr => ?_⟩
      rw [← lagPoly_lagCoeff hr, hquad (lagCoeff r)]
      linarith [ML.dot_self_nonneg (L *ᵥ (lagCoeff r - c))]
    · refine ⟨_, by unfold LsPricer.continuation; exact if_neg hdet, ?_⟩
      intro k hk
      have hk' : k < (I.map x).length := by simpa using hk
      rw [dif_pos hk']
      show (L *ᵥ c) ⟨k, hk'⟩ = _
      rw [hL, laguerre_mulVec]
      simp

namespace LsPricer

variable (o : LsPricer)

theorem payoff_spec (s : ℝ) : o.payoff s = Spec.lsPayoff o.typeFlag o.strikePrice s := by
  unfold payoff Spec.lsPayoff
  cases o.typeFlag <;> rfl

theorem mem_itm (S : Fin o.n → ℝ) (i : Fin o.n) : i ∈ o.itmIndices S ↔ 0 < o.payoff (S i) := by
  simp [itmIndices]

theorem itm_nodup (S : Fin o.n → ℝ) : (o.itmIndices S).Nodup := (List.nodup_finRange _).filter _

theorem itm_toFinset (S : Fin o.n → ℝ) :
    (o.itmIndices S).toFinset = Spec.inTheMoney o.typeFlag o.strikePrice S := by
  ext i
  simp [Spec.inTheMoney, mem_itm, payoff_spec]

theorem itmPayoffs_eq (S values : Fin o.n → ℝ) :
    o.itmPayoffs S values = (o.itmIndices S).map fun i => o.discount * values i := by
  classical
  unfold itmPayoffs
  have : ∀ l : List (Fin o.n), (l.filterMap fun i => if i ∈ o.itmIndices S then some (values i) else none)
      = (l.filter fun i => 0 < o.payoff (S i)).map values := by
    intro l
    induction l with
    | nil => rfl
    | cons i l ih =>
      by_cases h : 0 < o.payoff (S i)
      · simp [h, mem_itm, ih] at *
        exact ih
      · simp [h, mem_itm] at *
        exact ih
  rw [this, List.map_map]
  rfl

/-- The loop over the simulations, started at a path list `l` with regression index `k`. -/
theorem exerciseLoop_apply (S : Fin o.n → ℝ) (cont : ℕ → ℝ) (l : List (Fin o.n)) (hl : l.Nodup) (k : ℕ)
    (values : Fin o.n → ℝ) (i : Fin o.n) :
    (i ∉ l → o.exerciseLoop S cont l k values i = values i) ∧
    (i ∈ l → ¬ 0 < o.payoff (S i) → o.exerciseLoop S cont l k values i = o.discount * values i) ∧
    (0 < o.payoff (S i) → ∀ (j : ℕ) (hj : j < (l.filter fun i => 0 < o.payoff (S i)).length),
      (l.filter fun i => 0 < o.payoff (S i))[j] = i → o.exerciseLoop S cont l k values i =
        if o.payoff (S i) > cont (k + j) then o.payoff (S i) else o.discount * values i) := by
  induction l generalizing k values with
  | nil => simp [exerciseLoop]
  | cons a l ih =>
    obtain ⟨ha, hl'⟩ := List.nodup_cons.1 hl
    by_cases hp : 0 < o.payoff (S a)
    · have hstep : o.exerciseLoop S cont (a :: l) k values = o.exerciseLoop S cont l (k + 1)
          (Function.update values a (if o.payoff (S a) > cont k then o.payoff (S a) else o.discount * values a)) := by
        rw [exerciseLoop, if_pos ((o.mem_itm S a).2 hp)]
      rw [hstep]
      obtain ⟨i1, i2, i3⟩ := ih hl' (k + 1)
        (Function.update values a (if o.payoff (S a) > cont k then o.payoff (S a) else o.discount * values a))
      refine ⟨fun h => ?_, fun h hn => ?_, fun hi j hj e => ?_⟩
      · rw [List.mem_cons, not_or] at h
        rw [i1 h.2, Function.update_of_ne h.1]
      · have hne : i ≠ a := fun e => hn (e ▸ hp)
        rw [i2 ((List.mem_cons.1 h).resolve_left hne) hn, Function.update_of_ne hne]
      · have hf : ((a :: l).filter fun i => 0 < o.payoff (S i)) = a :: l.filter fun i => 0 < o.payoff (S i) := by
          simp [hp]
        cases j with
        | zero =>
          have : a = i := by simpa [hf] using e
          subst this
          rw [i1 ha, Function.update_self, add_zero]
        | succ j =>
          have hj' : j < (l.filter fun i => 0 < o.payoff (S i)).length := by
            rw [hf] at hj; simpa using hj
          have e' : (l.filter fun i => 0 < o.payoff (S i))[j] = i := by simpa [hf] using e
          have hil : i ∈ l := (List.mem_filter.1 (e' ▸ List.getElem_mem hj')).1
          have hne : i ≠ a := fun e => ha (e ▸ hil)
          rw [i3 hi j hj' e', Function.update_of_ne hne, show k + 1 + j = k + (j + 1) by omega]
    · have hstep : o.exerciseLoop S cont (a :: l) k values = o.exerciseLoop S cont l k
          (Function.update values a (o.discount * values a)) := by
        rw [exerciseLoop, if_neg (fun h => hp ((o.mem_itm S a).1 h))]
      rw [hstep]
      obtain ⟨i1, i2, i3⟩ := ih hl' k (Function.update values a (o.discount * values a))
      refine ⟨fun h => ?_, fun h hn => ?_, fun hi j hj e => ?_⟩
      · rw [List.mem_cons, not_or] at h
        rw [i1 h.2, Function.update_of_ne h.1]
      · by_cases e : i = a
        · subst e
          rw [i1 ha, Function.update_self]
        · rw [i2 ((List.mem_cons.1 h).resolve_left e) hn, Function.update_of_ne e]
      · have hf : ((a :: l).filter fun i => 0 < o.payoff (S i)) = l.filter fun i => 0 < o.payoff (S i) := by
          simp [hp]
        have hne : i ≠ a := fun e => hp (e ▸ hi)
        have hj' : j < (l.filter fun i => 0 < o.payoff (S i)).length := by rw [hf] at hj; exact hj
        have e' : (l.filter fun i => 0 < o.payoff (S i))[j] = i := by simpa [hf] using e
        rw [i3 hi j hj' e', Function.update_of_ne hne]

/-- One step of the sweep refines the specification. -/
theorem exerciseStep_spec (S values : Fin o.n → ℝ) :
    Spec.LsStep o.typeFlag o.strikePrice o.discount S values (o.exerciseStep S values) := by
  classical
  obtain ⟨u, w, hu, hw, huw, hwu, hx⟩ : ∃ u w : ℝ[X], u.natDegree ≤ 1 ∧ w.natDegree ≤ 1 ∧ u.comp w = X ∧
      w.comp u = X ∧ ∀ s, 0 < o.payoff s → o.payoff s = u.eval s := by
    cases hf : o.typeFlag with
    | call =>
      refine ⟨X - C o.strikePrice, X + C o.strikePrice, by compute_degree, by compute_degree, by simp, by simp, ?_⟩
      intro s hs
      simp only [payoff, hf] at hs ⊢
      rcases max_cases (s - o.strikePrice) 0 with h | h <;> simp [h.1] at hs ⊢
    | put =>
      refine ⟨C o.strikePrice - X, C o.strikePrice - X, by compute_degree, by compute_degree, by simp, by simp, ?_⟩
      intro s hs
      simp only [payoff, hf] at hs ⊢
      rcases max_cases (o.strikePrice - s) 0 with h | h <;> simp [h.1] at hs ⊢
  have hxs : ∀ i ∈ (o.itmIndices S).toFinset, o.payoff (S i) = u.eval (S i) := fun i hi =>
    hx _ ((o.mem_itm S i).1 (List.mem_toFinset.1 hi))
  have hcard : ((o.itmIndices S).toFinset.image fun i => o.payoff (S i)).card
      = ((o.itmIndices S).toFinset.image S).card := by
    have h1 : ((o.itmIndices S).toFinset.image fun i => o.payoff (S i))
        = ((o.itmIndices S).toFinset.image S).image fun s => u.eval s := by
      rw [Finset.image_image]
      exact Finset.image_congr fun i hi => hxs i hi
    rw [h1]
    refine Finset.card_image_of_injective _ fun a b hab => ?_
    have := congrArg (fun v => w.eval v) hab
    simpa only [← eval_comp, hwu, eval_X] using this
  have hspec := continuation_spec (o.itmIndices S) (o.itm_nodup S) (fun i => o.payoff (S i))
    fun i => o.discount * values i
  unfold Spec.LsStep
  rw [← itm_toFinset, ← hcard]
  unfold exerciseStep
  rw [itmPayoffs_eq, itmAssets]
  rcases hspec with ⟨h1, h2⟩ | ⟨h1, p, hp, cont, h2, h3⟩
  · left
    rw [h2]
    exact ⟨h1, fun i => rfl⟩
  · right
    rw [h2]
    refine ⟨h1, p.comp u, bestFit_comp hu hw huw hwu hxs hp, fun i => ?_⟩
    obtain ⟨-, l2, l3⟩ := o.exerciseLoop_apply S cont (List.finRange o.n) (List.nodup_finRange _) 0 values i
    rw [← payoff_spec]
    by_cases hi : 0 < o.payoff (S i)
    · obtain ⟨j, hj, e⟩ := List.mem_iff_getElem.1 ((o.mem_itm S i).2 hi)
      have := l3 hi j hj e
      rw [zero_add, h3 j hj, e, hx _ hi] at this
      simp only [hi, true_and, eval_comp]
      rw [hx _ hi]
      exact this
    · simp only [hi, false_and, if_false]
      exact l2 (List.mem_finRange i) hi

end LsPricer

end Verif.Options
