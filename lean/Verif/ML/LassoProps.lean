import Verif.ML.LassoLemmas

/-!
# C71: lasso regression
-/

namespace Verif.ML

variable {m n : ℕ}

theorem start_inv (A : Matrix (Fin m) (Fin n) ℝ) (w : Fin m → ℝ) : Inv A w ⟨fun _ => 0, w, 0⟩ :=
  ⟨fun i => by simp, fun _ _ => rfl⟩

theorem gram_features (x : Matrix (Fin m) (Fin n) ℝ) (ic : Bool) (j k : Fin n) :
    gram (lassoFeatures x ic) j k = Spec.moment ic x j k := by
  cases ic <;> simp [gram, lassoFeatures, Spec.moment, Spec.centre, colMean]

/-- The intercept that `fit` pairs with slopes. -/
noncomputable def icept (x : Matrix (Fin m) (Fin n) ℝ) (y : Fin m → ℝ) (ic : Bool) (b : Fin n → ℝ) : ℝ :=
  if ic then colMean y - ∑ j, colMean (fun i => x i j) * b j else 0

theorem obj_eq (x : Matrix (Fin m) (Fin n) ℝ) (y : Fin m → ℝ) (l : ℝ) (ic : Bool) (b : Fin n → ℝ) :
    obj (lassoFeatures x ic) (lassoTargets y ic) l b = Spec.lasso x y l (icept x y ic b) b := by
  unfold obj Spec.lasso Spec.rss Spec.affine icept
  congr 2
  refine Finset.sum_congr rfl fun i _ => ?_
  cases ic
  · simp [lassoFeatures, lassoTargets]
  · simp only [lassoFeatures, lassoTargets, if_true, Matrix.of_apply, sub_mul,
      Finset.sum_sub_distrib]
    ring

/-- The intercept is the best one for its slopes. -/
theorem icept_best (hm : 0 < m) (x : Matrix (Fin m) (Fin n) ℝ) (y : Fin m → ℝ) (l : ℝ) (ic : Bool)
    (a : ℝ) (b : Fin n → ℝ) (ha : ic = false → a = 0) :
    Spec.lasso x y l (icept x y ic b) b ≤ Spec.lasso x y l a b := by
  cases ic
  · rw [ha rfl]; simp [icept]
  · have hm' : (0 : ℝ) < m := by exact_mod_cast hm
    set d := icept x y true b with hd
    have hsum : ∑ i, (y i - Spec.affine d b (x i)) = 0 := by
      unfold Spec.affine
      rw [hd]
      simp only [icept, if_true, Finset.sum_sub_distrib, Finset.sum_add_distrib, Finset.sum_const,
        Finset.card_univ, Fintype.card_fin, nsmul_eq_mul]
      rw [Finset.sum_comm]
      simp only [← Finset.sum_mul, colMean]
      have e : ∑ j, (∑ i, x i j) * b j = m * ∑ j, (∑ i, x i j) / m * b j := by
        rw [Finset.mul_sum]
        exact Finset.sum_congr rfl fun j _ => by field_simp
      rw [e]
      field_simp
      ring
    have hrss : Spec.rss x y d b ≤ Spec.rss x y a b := by
      have : Spec.rss x y a b = Spec.rss x y d b + m * (d - a) ^ 2 := by
        unfold Spec.rss
        have h1 : ∀ i, (y i - Spec.affine a b (x i)) ^ 2 = (y i - Spec.affine d b (x i)) ^ 2 +
            2 * (d - a) * (y i - Spec.affine d b (x i)) + (d - a) ^ 2 := by
          intro i; unfold Spec.affine; ring
        simp only [h1, Finset.sum_add_distrib, ← Finset.mul_sum, hsum, Finset.sum_const,
          Finset.card_univ, Fintype.card_fin, nsmul_eq_mul]
        ring
      rw [this]
      have : 0 ≤ (m : ℝ) * (d - a) ^ 2 := by positivity
      linarith
    unfold Spec.lasso
    have := div_le_div_of_nonneg_right hrss (by positivity : (0 : ℝ) ≤ 2 * m)
    linarith

theorem fitLasso_eq (x : Matrix (Fin m) (Fin n) ℝ) (y : Fin m → ℝ) (l : ℝ) (ic : Bool) (k : ℕ)
    (tol : ℝ) :
    let s := lassoLoop (lassoFeatures x ic) l tol k ⟨fun _ => 0, lassoTargets y ic, 0⟩
    (fitLasso x y l ic k tol).intercept = icept x y ic s.coefs ∧
      (fun j : Fin n => (fitLasso x y l ic k tol).coefficients j.succ) = s.coefs ∧
      (fitLasso x y l ic k tol).coefficients 0 = (fitLasso x y l ic k tol).intercept :=
  ⟨rfl, rfl, rfl⟩

/-- The intercept returned is the first coefficient; it is zero when none is asked for and otherwise
the best one for the slopes. -/
theorem C71_intercept (hm : 0 < m) (x : Matrix (Fin m) (Fin n) ℝ) (y : Fin m → ℝ) (l : ℝ) (ic : Bool)
    (k : ℕ) (tol : ℝ) :
    let f := fitLasso x y l ic k tol
    f.coefficients 0 = f.intercept ∧ (ic = false → f.intercept = 0) ∧
      (ic = true → ∀ a, Spec.rss x y f.intercept (fun j => f.coefficients j.succ) ≤
        Spec.rss x y a fun j => f.coefficients j.succ) := by
  refine ⟨rfl, ?_, ?_⟩
  · rintro rfl; rfl
  · rintro rfl a
    have hm' : (0 : ℝ) < m := by exact_mod_cast hm
    have := icept_best hm x y 0 true a (fun j => (fitLasso x y l true k tol).coefficients j.succ)
      (by simp)
    unfold Spec.lasso at this
    simp only [zero_mul, add_zero] at this
    exact (div_le_div_iff_of_pos_right (by positivity)).1 this

example := C71_intercept (by norm_num) (Matrix.of fun (i : Fin 2) (_ : Fin 1) => (![(-1 : ℝ), 1]) i) ![-2, 2] 1 true 10 0

/-- Allowing one more round never makes the lasso objective larger. -/
theorem C71_more_rounds_no_worse (hm : 0 < m) (x : Matrix (Fin m) (Fin n) ℝ) (y : Fin m → ℝ) {l : ℝ}
    (hl : 0 ≤ l) (ic : Bool) (k : ℕ) (tol : ℝ) :
    let f := fitLasso x y l ic k tol
    let g := fitLasso x y l ic (k + 1) tol
    Spec.lasso x y l g.intercept (fun j => g.coefficients j.succ) ≤
      Spec.lasso x y l f.intercept fun j => f.coefficients j.succ := by
  intro f g
  obtain ⟨hf1, hf2, -⟩ := fitLasso_eq x y l ic k tol
  obtain ⟨hg1, hg2, -⟩ := fitLasso_eq x y l ic (k + 1) tol
  show Spec.lasso x y l (fitLasso x y l ic (k + 1) tol).intercept
    (fun j : Fin n => (fitLasso x y l ic (k + 1) tol).coefficients j.succ) ≤
      Spec.lasso x y l (fitLasso x y l ic k tol).intercept
        (fun j : Fin n => (fitLasso x y l ic k tol).coefficients j.succ)
  rw [hf1, hg1, hf2, hg2, ← obj_eq, ← obj_eq]
  obtain ⟨p, hp, h | h⟩ := loop_iterate (lassoFeatures x ic) l tol k
    ⟨fun _ => 0, lassoTargets y ic, 0⟩
  · rw [h.1, h.2]
  · rw [h.1, h.2]
    exact iterate_decreases _ _ l hm hl _ (start_inv _ _) (Nat.le_succ k)

example := C71_more_rounds_no_worse (by norm_num) (Matrix.of fun (i : Fin 2) (_ : Fin 1) => (![(-1 : ℝ), 1]) i) ![-2, 2]
  (l := 1) (by norm_num) true 10 0

/-- However many rounds are allowed, the objective is at most that of any constant. -/
theorem C71_no_worse_than_constant (hm : 0 < m) (x : Matrix (Fin m) (Fin n) ℝ) (y : Fin m → ℝ) {l : ℝ}
    (hl : 0 ≤ l) (ic : Bool) (k : ℕ) (tol a : ℝ) (ha : ic = false → a = 0) :
    let f := fitLasso x y l ic k tol
    Spec.lasso x y l f.intercept (fun j => f.coefficients j.succ) ≤ Spec.lasso x y l a fun _ => 0 := by
  induction k with
  | zero => exact icept_best hm x y l ic a (fun _ => 0) ha
  | succ k ih => exact (C71_more_rounds_no_worse hm x y hl ic k tol).trans ih

example := C71_no_worse_than_constant (by norm_num) (Matrix.of fun (i : Fin 2) (_ : Fin 1) => (![(-1 : ℝ), 1]) i) ![-2, 2]
  (l := 1) (by norm_num) true 10 0 3 (by simp)

/-- With a positive tolerance the loop ends by itself: after some number of rounds, allowing more
changes nothing.  The result is then within the tolerance, scaled by the second moments of the features
and the distance, of every intercept and slopes, so of the best ones. -/
theorem C71_converges (hm : 0 < m) (x : Matrix (Fin m) (Fin n) ℝ) (y : Fin m → ℝ) {l tol : ℝ}
    (hl : 0 ≤ l) (ht : 0 < tol) (ic : Bool) :
    ∃ N, ∀ k, N ≤ k → fitLasso x y l ic k tol = fitLasso x y l ic N tol ∧
      ∀ (a : ℝ) (b : Fin n → ℝ), (ic = false → a = 0) →
        let f := fitLasso x y l ic k tol
        Spec.lasso x y l f.intercept (fun j => f.coefficients j.succ) ≤ Spec.lasso x y l a b +
          tol * ∑ j, (∑ i, |Spec.moment ic x j i|) * |b j - f.coefficients j.succ| := by
  classical
  set s0 : LassoState m n := ⟨fun _ => 0, lassoTargets y ic, 0⟩ with hs0
  have hinv : Inv (lassoFeatures x ic) (lassoTargets y ic) s0 := start_inv _ _
  have hex := small_round (lassoFeatures x ic) (lassoTargets y ic) l hm hl ht s0 hinv
  let p := Nat.find hex
  have hp := Nat.find_spec hex
  have hmin : ∀ i < p, ¬ ((lassoSweep (lassoFeatures x ic) l)^[i + 1] s0).maxDelta < tol :=
    fun i hi => Nat.find_min hex hi
  have hloop := loop_stop (lassoFeatures x ic) l tol p s0 hmin hp
  refine ⟨p + 1, fun k hk => ⟨?_, fun a b ha => ?_⟩⟩
  · unfold fitLasso
    rw [hloop k hk, hloop (p + 1) le_rfl]
  · show Spec.lasso x y l (fitLasso x y l ic k tol).intercept
      (fun j : Fin n => (fitLasso x y l ic k tol).coefficients j.succ) ≤ Spec.lasso x y l a b +
          tol * ∑ j, (∑ i, |Spec.moment ic x j i|) * |b j -
            (fun j : Fin n => (fitLasso x y l ic k tol).coefficients j.succ) j|
    obtain ⟨hf1, hf2, -⟩ := fitLasso_eq x y l ic k tol
    rw [hf1, hf2, ← obj_eq]
    rw [hloop k hk, Function.iterate_succ_apply']
    rw [Function.iterate_succ_apply'] at hp
    set s := (lassoSweep (lassoFeatures x ic) l)^[p] s0
    have hsI : Inv (lassoFeatures x ic) (lassoTargets y ic) s := iterate_inv _ _ l hm hl p s0 hinv
    obtain ⟨f1, f2, -, f4⟩ := sweep_facts (lassoFeatures x ic) (lassoTargets y ic) l hm hl le_rfl
      (fun j => Or.inr (gram_self_nonneg _ j)) s hsI
    have := near_optimal (lassoFeatures x ic) (lassoTargets y ic) l hm hl _ f1 (D := tol)
      (fun j => by
        obtain ⟨sg, h1, h2⟩ := f4 j
        refine ⟨sg, h1, h2.trans ?_⟩
        exact mul_le_mul_of_nonneg_right hp.le (Finset.sum_nonneg fun _ _ => abs_nonneg _)) b
    simp only [gram_features] at this
    rw [obj_eq (b := b)] at this
    exact this.trans (add_le_add_left (icept_best hm x y l ic a b ha) _)

example := C71_converges (by norm_num) (Matrix.of fun (i : Fin 2) (_ : Fin 1) => (![(-1 : ℝ), 1]) i) ![-2, 2]
  (l := 1) (tol := 1e-6) (by norm_num) (by norm_num) true

/-- With a zero tolerance, which never ends the loop early, a round that changes nothing means that
the result is a minimum of the lasso objective. -/
theorem C71_fixed_point (hm : 0 < m) (x : Matrix (Fin m) (Fin n) ℝ) (y : Fin m → ℝ) {l : ℝ}
    (hl : 0 ≤ l) (ic : Bool) (k : ℕ)
    (hfix : fitLasso x y l ic (k + 1) 0 = fitLasso x y l ic k 0) (a : ℝ) (b : Fin n → ℝ)
    (ha : ic = false → a = 0) :
    let f := fitLasso x y l ic k 0
    Spec.lasso x y l f.intercept (fun j => f.coefficients j.succ) ≤ Spec.lasso x y l a b := by
  set s0 : LassoState m n := ⟨fun _ => 0, lassoTargets y ic, 0⟩ with hs0
  have hinv : Inv (lassoFeatures x ic) (lassoTargets y ic) s0 := start_inv _ _
  have hnn : ∀ i, ¬ ((lassoSweep (lassoFeatures x ic) l)^[i + 1] s0).maxDelta < 0 := by
    intro i
    rw [Function.iterate_succ_apply']
    exact not_lt.2 (sweep_facts _ _ l hm hl le_rfl (fun j => Or.inr (gram_self_nonneg _ j)) _
      (iterate_inv _ _ l hm hl i s0 hinv)).2.1
  have hloop : ∀ k, lassoLoop (lassoFeatures x ic) l 0 k s0 =
      (lassoSweep (lassoFeatures x ic) l)^[k] s0 := fun k =>
    loop_run _ l 0 k s0 fun i _ => hnn i
  obtain ⟨hf1, hf2, -⟩ := fitLasso_eq x y l ic k 0
  obtain ⟨-, hg2, -⟩ := fitLasso_eq x y l ic (k + 1) 0
  show Spec.lasso x y l (fitLasso x y l ic k 0).intercept
    (fun j : Fin n => (fitLasso x y l ic k 0).coefficients j.succ) ≤ _
  set s := (lassoSweep (lassoFeatures x ic) l)^[k] s0 with hs
  have hsI : Inv (lassoFeatures x ic) (lassoTargets y ic) s := iterate_inv _ _ l hm hl k s0 hinv
  have hco : (lassoSweep (lassoFeatures x ic) l s).coefs = s.coefs := by
    rw [hfix, hf2, hloop, hloop, Function.iterate_succ_apply'] at hg2
    exact hg2.symm
  rw [hf1, hf2, hloop, ← hs, ← obj_eq, ← hco]
  classical
  obtain ⟨c, hc, hcq⟩ : ∃ c : ℝ, 0 < c ∧ ∀ j, gram (lassoFeatures x ic) j j = 0 ∨
      c ≤ gram (lassoFeatures x ic) j j := by
    by_cases hne : (Finset.univ.filter fun j : Fin n => gram (lassoFeatures x ic) j j ≠ 0).Nonempty
    · obtain ⟨j₀, hj₀, hmin⟩ := Finset.exists_min_image _ (fun j => gram (lassoFeatures x ic) j j) hne
      refine ⟨gram (lassoFeatures x ic) j₀ j₀, lt_of_le_of_ne (gram_self_nonneg _ j₀)
        (Ne.symm (Finset.mem_filter.1 hj₀).2), fun j => ?_⟩
      by_cases h : gram (lassoFeatures x ic) j j = 0
      · exact Or.inl h
      · exact Or.inr (hmin j (by simp [h]))
    · refine ⟨1, one_pos, fun j => Or.inl ?_⟩
      by_contra h
      exact hne ⟨j, by simp [h]⟩
  obtain ⟨f1, f2, f3, f4⟩ := sweep_facts (lassoFeatures x ic) (lassoTargets y ic) l hm hl hc.le hcq s
    hsI
  have hz : (lassoSweep (lassoFeatures x ic) l s).maxDelta = 0 := by
    rw [hco] at f3
    have h0 : c / 2 * (lassoSweep (lassoFeatures x ic) l s).maxDelta ^ 2 ≤ 0 := by linarith
    have h1 : (lassoSweep (lassoFeatures x ic) l s).maxDelta ^ 2 ≤ 0 := by
      by_contra h
      have : 0 < c / 2 * (lassoSweep (lassoFeatures x ic) l s).maxDelta ^ 2 := by
        have := not_le.1 h
        positivity
      linarith
    nlinarith
  have := near_optimal (lassoFeatures x ic) (lassoTargets y ic) l hm hl _ f1 f4 b
  rw [hz, zero_mul, add_zero, obj_eq (b := b)] at this
  exact this.trans (icept_best hm x y l ic a b ha)

/-- A fit that no longer moves: one feature, samples at minus one and one, responses minus two and two, penalty one. -/
example : fitLasso (Matrix.of fun (i : Fin 2) (_ : Fin 1) => (![(-1 : ℝ), 1]) i) ![-2, 2] 1 true (1 + 1) 0 =
    fitLasso (Matrix.of fun (i : Fin 2) (_ : Fin 1) => (![(-1 : ℝ), 1]) i) ![-2, 2] 1 true 1 0 := by
  have : lassoLoop (lassoFeatures (Matrix.of fun (i : Fin 2) (_ : Fin 1) => (![(-1 : ℝ), 1]) i) true) 1 0 (1 + 1)
        ⟨fun _ => 0, lassoTargets ![-2, 2] true, 0⟩ =
      { lassoLoop (lassoFeatures (Matrix.of fun (i : Fin 2) (_ : Fin 1) => (![(-1 : ℝ), 1]) i) true) 1 0 1
        ⟨fun _ => 0, lassoTargets ![-2, 2] true, 0⟩ with maxDelta := 0 } := by
    simp only [lassoLoop, lassoSweep, List.finRange_succ, List.finRange_zero, List.map_nil,
      List.foldl_cons, List.foldl_nil, lassoCoord, lassoFeatures, lassoTargets, colMean]
    norm_num [Fin.sum_univ_two]
  unfold fitLasso
  simp only [this]

/-- When no feature has a second moment with the responses above the penalty, every slope is zero. -/
theorem C71_strong_penalty (hm : 0 < m) (x : Matrix (Fin m) (Fin n) ℝ) (y : Fin m → ℝ) {l : ℝ}
    (ic : Bool) (k : ℕ) (tol : ℝ) (h : ∀ j, |Spec.crossMoment ic x y j| ≤ l) (j : Fin n) :
    (fitLasso x y l ic k tol).coefficients j.succ = 0 := by
  have hcross : ∀ j, (∑ i, lassoTargets y ic i * lassoFeatures x ic i j) / m =
      Spec.crossMoment ic x y j := by
    intro j
    unfold Spec.crossMoment
    congr 1
    refine Finset.sum_congr rfl fun i _ => ?_
    cases ic <;> simp [lassoFeatures, lassoTargets, Spec.centre, colMean, mul_comm]
  have hcoord : ∀ (d : ℝ) (j : Fin n), 0 ≤ d → lassoCoord (lassoFeatures x ic) l
      ⟨fun _ => 0, lassoTargets y ic, d⟩ j = ⟨fun _ => 0, lassoTargets y ic, d⟩ := by
    intro d j hd
    unfold lassoCoord
    obtain ⟨h1, h2⟩ := abs_le.1 (h j)
    simp only [zero_mul, add_zero, hcross]
    rw [if_neg (not_lt.2 h1), if_neg (not_lt.2 h2)]
    simp [hd]
  have hfold : ∀ L : List (Fin n), L.foldl (lassoCoord (lassoFeatures x ic) l)
      ⟨fun _ => 0, lassoTargets y ic, 0⟩ = ⟨fun _ => 0, lassoTargets y ic, 0⟩ := by
    intro L
    induction L with
    | nil => rfl
    | cons j L ih => rw [List.foldl_cons, hcoord 0 j le_rfl, ih]
  have hloop : ∀ k, lassoLoop (lassoFeatures x ic) l tol k ⟨fun _ => 0, lassoTargets y ic, 0⟩ =
      ⟨fun _ => 0, lassoTargets y ic, 0⟩ := by
    intro k
    induction k with
    | zero => rfl
    | succ k ih =>
      unfold lassoLoop
      have : lassoSweep (lassoFeatures x ic) l ⟨fun _ => 0, lassoTargets y ic, 0⟩ =
          ⟨fun _ => 0, lassoTargets y ic, 0⟩ := hfold _
      rw [this, ih]
      split_ifs <;> rfl
  have hf2 := (fitLasso_eq x y l ic k tol).2.1
  have := congrFun hf2 j
  rw [hloop] at this
  exact this

/-- A case with slopes that are not zero: one feature, samples at minus one and one, responses minus
two and two, penalty one.  The moment with the responses is two and the slope is one. -/
example : (fitLasso (Matrix.of fun (i : Fin 2) (_ : Fin 1) => (![(-1 : ℝ), 1]) i) ![-2, 2] 1 true 1
    0).coefficients 1 = 1 := by
  show (lassoLoop _ _ _ 1 _).coefs 0 = 1
  simp only [lassoLoop, lassoSweep, List.finRange_succ, List.finRange_zero, List.map_nil,
    List.foldl_cons, List.foldl_nil, lassoCoord, lassoFeatures, lassoTargets, colMean]
  norm_num [Fin.sum_univ_two]

end Verif.ML
