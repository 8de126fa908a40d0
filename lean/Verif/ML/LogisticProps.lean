import Verif.ML.LogisticLemmas

/-!
# C72: logistic regression
-/

namespace Verif.ML

open Matrix

variable {m n : ℕ}

theorem not_rejects (y : Fin m → ℝ) : ¬ rejectsLabels y := by
  rintro ⟨i, h1, h2⟩
  have he : epsilon < 1 / 2 := by unfold epsilon; norm_num
  have := abs_sub_abs_le_abs_sub (1 : ℝ) (y i)
  rw [abs_sub_comm 1, abs_one] at this
  linarith

theorem fit_irls (x : Matrix (Fin m) (Fin n) ℝ) (y : Fin m → ℝ) (tol : ℝ) (fuel : ℕ) :
    fitLogistic x y .irls tol fuel =
      match firstGuess x y with
      | none => .nan
      | some out => irls x y tol fuel (fun _ => 0) out 0 := by
  unfold fitLogistic; rw [if_neg (not_rejects y)]; rfl

/-- Responses other than zero and one are never rejected: `fit` never returns an error, whatever the
responses; and the maximum likelihood method always panics. -/
theorem C72_labels_not_checked (x : Matrix (Fin m) (Fin n) ℝ) (y : Fin m → ℝ) (a : Algorithm)
    (tol : ℝ) (fuel : ℕ) :
    fitLogistic x y a tol fuel ≠ .err ∧ fitLogistic x y .mle tol fuel = .panic := by
  have hm : fitLogistic x y .mle tol fuel = .panic := by
    unfold fitLogistic; rw [if_neg (not_rejects y)]
  refine ⟨?_, hm⟩
  cases a with
  | mle => rw [hm]; simp
  | irls =>
    rw [fit_irls]
    split
    · simp
    · rename_i out _
      have : ∀ (fuel : ℕ) (p o : Fin (n + 1) → ℝ) (it : ℕ), irls x y tol fuel p o it ≠ .err := by
        intro fuel
        induction fuel with
        | zero => intro p o it; simp [irls]
        | succ fuel ih =>
          intro p o it
          unfold irls
          simp only
          split_ifs
          · simp
          · simp
          · exact ih _ _ _
          · simp
      exact this _ _ _ _

/-- `predict_proba` is the probability of the logistic model with the first coefficient as intercept,
strictly between zero and one; `predict` is one exactly where the affine function is positive and zero
elsewhere. -/
theorem C72_predict {r : ℕ} (c : Fin (n + 1) → ℝ) (input : Matrix (Fin r) (Fin n) ℝ) (i : Fin r) :
    predictProba c input i = Spec.prob (c 0) (fun j => c j.succ) (input i) ∧
      0 < predictProba c input i ∧ predictProba c input i < 1 ∧
      predictClass c input i =
        if 0 < Spec.affine (c 0) (fun j => c j.succ) (input i) then 1 else 0 := by
  have he : (input *ᵥ fun j => c j.succ) i + c 0 =
      Spec.affine (c 0) (fun j => c j.succ) (input i) := by
    simp only [mulVec, dotProduct, Spec.affine]; ring
  have hp : predictProba c input i = sig (Spec.affine (c 0) (fun j => c j.succ) (input i)) := by
    rw [← he]; rfl
  refine ⟨by rw [hp]; rfl, by rw [hp]; exact sig_pos _, by rw [hp]; exact sig_lt_one _, ?_⟩
  unfold predictClass
  rw [hp]
  have h0 : sig 0 = 0.5 := by unfold sig; norm_num
  rw [← h0]
  simp only [gt_iff_lt, sig_mono.lt_iff_lt]

/-- Whenever the iteration ends after a step, either no response exceeds its probability by the
tolerance, or the log-likelihood of the result is within the tolerance, scaled by the products of the
features and the distance, of that of every intercept and slopes, so of the greatest. -/
theorem C72_converged (x : Matrix (Fin m) (Fin n) ℝ) (y : Fin m → ℝ) (tol : ℝ) (fuel it : ℕ)
    (c : Fin (n + 1) → ℝ) (h : fitLogistic x y .irls tol fuel = .ok c it) (hit : 0 < it) :
    (∀ i, y i - Spec.prob (c 0) (fun j => c j.succ) (x i) < tol) ∨
      ∀ (a : ℝ) (b : Fin n → ℝ), Spec.logLik x y a b ≤
        Spec.logLik x y (c 0) (fun j => c j.succ) +
          tol / 4 * ∑ j, (∑ k, Spec.absMoment x j k) * |(Fin.cons a b : Fin (n + 1) → ℝ) j - c j| := by
  rw [fit_irls] at h
  split at h
  · simp at h
  rename_i out _
  rcases irls_ends x y tol fuel _ _ c _ it h with ⟨-, h0, -⟩ | h' | ⟨p, hlt, hstep⟩
  · omega
  · left
    intro i
    rw [prob_eq]
    exact h' i
  · right
    intro a b
    have ht := logLik_tangent x y c (Fin.cons a b)
    simp only [Fin.cons_zero, Fin.cons_succ] at ht
    refine ht.trans ((add_le_add_iff_left _).2 ?_)
    rw [Finset.mul_sum]
    refine Finset.sum_le_sum fun j _ => ?_
    have hg := gradient_after_step x y p c hlt hstep j
    calc _ ≤ |((withOnes x)ᵀ *ᵥ (y - irlsMu x c)) j * ((Fin.cons a b : Fin (n + 1) → ℝ) j - c j)| :=
          le_abs_self _
      _ = |((withOnes x)ᵀ *ᵥ (y - irlsMu x c)) j| * |(Fin.cons a b : Fin (n + 1) → ℝ) j - c j| :=
          abs_mul _ _
      _ ≤ (tol / 4 * ∑ k, Spec.absMoment x j k) * |(Fin.cons a b : Fin (n + 1) → ℝ) j - c j| := by
          gcongr
      _ = _ := by ring

/-- The number of iterations returned is the number of Newton steps taken: there is a sequence that begins with the
first guess, ends after that number of steps with the coefficients returned, and each of whose members follows from the
one before by one Newton step for the log-likelihood (weights `p (1 - p)`, gradient `y - p`). No step is taken after the
steps have become shorter than the tolerance or no response exceeds its probability by the tolerance; the first guess
counts as a step from zero. -/
theorem C72_newton_steps (x : Matrix (Fin m) (Fin n) ℝ) (y : Fin m → ℝ) (tol : ℝ) (fuel it : ℕ)
    (c : Fin (n + 1) → ℝ) (h : fitLogistic x y .irls tol fuel = .ok c it) :
    ∃ f : ℕ → Fin (n + 1) → ℝ, firstGuess x y = some (f 0) ∧ f it = c ∧ ∀ k < it,
      let p := fun i => Spec.prob (f k 0) (fun j => f k j.succ) (x i)
      let row := fun i => (Fin.cons 1 (x i) : Fin (n + 1) → ℝ)
      (∀ j, ∑ i, row i j * (p i * (1 - p i) * ∑ l, row i l * (f (k + 1) l - f k l)) =
        ∑ i, row i j * (y i - p i)) ∧
      tol ≤ √(∑ j, ((if k = 0 then 0 else f (k - 1) j) - f k j) ^ 2) ∧ ∃ i, tol ≤ y i - p i := by
  rw [fit_irls] at h
  split at h
  · simp at h
  rename_i out hout
  obtain ⟨k, f, e1, e2, e3, e4, e5⟩ := irls_steps x y tol fuel _ _ c _ it h
  obtain rfl : it = k := by omega
  refine ⟨fun i => f (i + 1), by rw [hout, ← e3], e4, fun i hi => ?_⟩
  obtain ⟨h1, ⟨s, hs⟩, h3⟩ := e5 i hi
  refine ⟨fun j => ?_, ?_, ⟨s, by simp only [prob_eq]; exact hs⟩⟩
  · have := congrFun h3 j
    rw [hessian_mulVec] at this
    simp only [prob_eq, ← mu_eq]
    simpa only [mulVec, dotProduct, transpose_apply, Pi.sub_apply, withOnes, of_apply] using this
  · cases i with
    | zero => rw [e2] at h1; simpa using h1
    | succ i => simpa using h1

theorem firstGuess_two : firstGuess (!![0; 4] : Matrix (Fin 2) (Fin 1) ℝ) ![1, 0] = some ![-1, 1] := by
  unfold firstGuess
  simp only [maskedMean, Fin.sum_univ_two, Finset.univ_unique, Fin.default_eq_zero,
    Finset.sum_singleton]
  rw [if_neg]
  · simp
    funext j
    fin_cases j
    · norm_num
    · show _ = (1 : ℝ)
      norm_num
  · rintro ⟨-, h⟩
    have := h 0
    norm_num at this

/-- A fit that takes one step: two samples, zero with response one and four with response zero, and tolerance one
half. -/
example : ∃ c, fitLogistic (!![0; 4] : Matrix (Fin 2) (Fin 1) ℝ) ![1, 0] .irls (1 / 2) 2 = .ok c 1 := by
  set x : Matrix (Fin 2) (Fin 1) ℝ := !![0; 4] with hx
  set y : Fin 2 → ℝ := ![1, 0] with hy
  have hg : firstGuess x y = some ![-1, 1] := firstGuess_two
  set o : Fin 2 → ℝ := ![-1, 1] with ho
  have hA : ∀ d : Fin 2 → ℝ, (withOnes x *ᵥ d) 0 = d 0 ∧ (withOnes x *ᵥ d) 1 = d 0 + 4 * d 1 := by
    intro d
    simp [withOnes, mulVec, dotProduct, Fin.sum_univ_two, hx]
  have m0 : irlsMu x o 0 = sig (-1) := by rw [mu_eq, (hA o).1]; simp [ho]
  have hs0 : sig (-1) < 1 / 2 := by
    have : sig 0 = 1 / 2 := by unfold sig; norm_num
    rw [← this]
    exact sig_mono (by norm_num)
  set d0 := irlsMu x o 0 * (1 - irlsMu x o 0) with hd0
  set d1 := irlsMu x o 1 * (1 - irlsMu x o 1) with hd1
  have p0 : 0 < d0 := by
    rw [hd0, mu_eq]; exact mul_pos (sig_pos _) (by linarith [sig_lt_one ((withOnes x *ᵥ o) 0)])
  have p1 : 0 < d1 := by
    rw [hd1, mu_eq]; exact mul_pos (sig_pos _) (by linarith [sig_lt_one ((withOnes x *ᵥ o) 1)])
  have hdet : (irlsHessian x (irlsMu x o)).det ≠ 0 := by
    have : (irlsHessian x (irlsMu x o)).det = 16 * d0 * d1 := by
      rw [det_fin_two, irlsHessian]
      simp only [mul_apply, Fin.sum_univ_two, of_apply, withOnes, ← hd0, ← hd1]
      simp [hx]
      ring
    rw [this]
    positivity
  set c := o + (irlsHessian x (irlsMu x o))⁻¹ *ᵥ ((withOnes x)ᵀ *ᵥ (y - irlsMu x o)) with hc
  have hstep : irlsHessian x (irlsMu x o) *ᵥ (c - o) = (withOnes x)ᵀ *ᵥ (y - irlsMu x o) := by
    rw [hc, add_sub_cancel_left, mulVec_mulVec, mul_nonsing_inv _ (isUnit_iff_ne_zero.2 hdet), one_mulVec]
  have e0 := congrFun hstep 0
  have e1 := congrFun hstep 1
  rw [hessian_mulVec] at e0 e1
  simp only [Fin.sum_univ_two, ← hd0, ← hd1, (hA _).1, (hA _).2] at e0 e1
  simp [withOnes, mulVec, dotProduct, Fin.sum_univ_two, hx, hy] at e0 e1
  have hu : d0 * (c 0 - o 0) = 1 - irlsMu x o 0 := by linarith
  have hpos : 0 < c 0 := by
    have h1 : irlsMu x o 0 * (c 0 - o 0) = 1 := by
      have hne : 1 - irlsMu x o 0 ≠ 0 := by rw [m0]; linarith [sig_lt_one (-1)]
      have : (1 - irlsMu x o 0) * (irlsMu x o 0 * (c 0 - o 0)) = (1 - irlsMu x o 0) * 1 := by
        rw [mul_one]
        calc _ = d0 * (c 0 - o 0) := by rw [hd0]; ring
          _ = _ := hu
      exact mul_left_cancel₀ hne this
    have h2 : o 0 = -1 := by simp [ho]
    rw [m0, h2] at h1
    have h3 := sig_pos (-1)
    nlinarith
  refine ⟨c, ?_⟩
  rw [fit_irls, hg]
  simp only
  unfold irls
  dsimp only
  rw [if_pos, if_neg, if_neg hdet, ← hc]
  · unfold irls
    dsimp only
    split_ifs with h1 h2 h3
    · rfl
    · exfalso
      apply h2
      intro i
      fin_cases i
      · show y 0 - irlsMu x c 0 < 1 / 2
        rw [mu_eq, (hA c).1]
        have : sig 0 = 1 / 2 := by unfold sig; norm_num
        have h4 := sig_mono hpos
        simp only [hy, cons_val_zero]
        linarith
      · show y 1 - irlsMu x c 1 < 1 / 2
        rw [mu_eq]
        have := sig_pos ((withOnes x *ᵥ c) 1)
        simp [hy]
        linarith
    · exfalso
      apply h2
      intro i
      fin_cases i
      · show y 0 - irlsMu x c 0 < 1 / 2
        rw [mu_eq, (hA c).1]
        have : sig 0 = 1 / 2 := by unfold sig; norm_num
        have h4 := sig_mono hpos
        simp only [hy, cons_val_zero]
        linarith
      · show y 1 - irlsMu x c 1 < 1 / 2
        rw [mu_eq]
        have := sig_pos ((withOnes x *ᵥ c) 1)
        simp [hy]
        linarith
    · rfl
  · intro h
    have := h 0
    rw [m0] at this
    simp only [hy, cons_val_zero] at this
    linarith
  · rw [ge_iff_le, Real.le_sqrt' (by norm_num)]
    simp [ho, Fin.sum_univ_two]
    norm_num

/-- When the features weighted by the responses and by their complements have the same sums, the first
guess is zero divided by zero and `fit` returns coefficients that are not numbers, without an error. -/
theorem C72_balanced_nan (x : Matrix (Fin m) (Fin n) ℝ) (y : Fin m → ℝ) (hn : 0 < n)
    (h : ∀ j, ∑ i, x i j * y i = ∑ i, x i j * (1 - y i)) (tol : ℝ) (fuel : ℕ) :
    fitLogistic x y .irls tol fuel = .nan := by
  rw [fit_irls]
  have : firstGuess x y = none := by
    unfold firstGuess
    simp only
    rw [if_pos]
    refine ⟨hn, fun j => ?_⟩
    unfold maskedMean
    rw [h j, sub_eq_zero]
    congr 1
    exact Finset.sum_congr rfl fun i _ => by ring
  rw [this]

theorem firstGuess_one_class (x : Matrix (Fin m) (Fin n) ℝ) (v : ℝ) (hv : v = 0 ∨ v = 1)
    (hx : ∃ j, ∑ i, x i j ≠ 0) : firstGuess x (fun _ => v) = some fun _ => 0 := by
  obtain ⟨j₀, hj₀⟩ := hx
  have hm : (m : ℝ) ≠ 0 := by
    intro h
    have : m = 0 := by exact_mod_cast h
    subst this
    simp at hj₀
  unfold firstGuess
  simp only
  have hz : ∀ w : Fin m → ℝ, (∀ i, w i = 0) → ∀ j, maskedMean x w j = 0 := by
    intro w hw j
    simp [maskedMean, hw]
  have ho : ∀ w : Fin m → ℝ, (∀ i, w i = 1) → ∀ j, maskedMean x w j = (∑ i, x i j) / m := by
    intro w hw j
    simp [maskedMean, hw]
  have hcase : (maskedMean x (fun _ => v) = (fun _ => 0) ∧
        maskedMean x (fun _ => -v + 1) = (fun j => (∑ i, x i j) / m) ∧ (∑ _i : Fin m, v) / m = 0) ∨
      (maskedMean x (fun _ => v) = (fun j => (∑ i, x i j) / m) ∧
        maskedMean x (fun _ => -v + 1) = (fun _ => 0) ∧ (∑ _i : Fin m, v) / m = 1) := by
    rcases hv with rfl | rfl
    · exact Or.inl ⟨funext (hz _ fun _ => rfl), funext (ho _ fun _ => by simp), by simp⟩
    · refine Or.inr ⟨funext (ho _ fun _ => rfl), funext (hz _ fun _ => by simp), ?_⟩
      simp [hm]
  have hne : (∑ i, x i j₀) / (m : ℝ) ≠ 0 := div_ne_zero hj₀ hm
  rcases hcase with ⟨h1, h2, h3⟩ | ⟨h1, h2, h3⟩
  · rw [h1, h2, h3, if_neg]
    · simp
      funext j
      refine Fin.cases ?_ (fun j => ?_) j <;> simp
    · rintro ⟨-, hall⟩
      have := hall j₀
      rw [sub_zero] at this
      exact hne this
  · rw [h1, h2, h3, if_neg]
    · simp
      funext j
      refine Fin.cases ?_ (fun j => ?_) j <;> simp
    · rintro ⟨-, hall⟩
      have := hall j₀
      rw [zero_sub, neg_eq_zero] at this
      exact hne this

/-- When every response is the same, the result is all zeros after no iteration: every probability is
one half and every prediction zero, also when every response is one. -/
theorem C72_one_class (x : Matrix (Fin m) (Fin n) ℝ) (v : ℝ) (hv : v = 0 ∨ v = 1)
    (hx : ∃ j, ∑ i, x i j ≠ 0) {tol : ℝ} (ht : 0 < tol) (fuel : ℕ) :
    ∃ c, fitLogistic x (fun _ => v) .irls tol (fuel + 1) = .ok c 0 ∧
      ∀ (r : ℕ) (input : Matrix (Fin r) (Fin n) ℝ) (i : Fin r),
        predictProba c input i = 1 / 2 ∧ predictClass c input i = 0 := by
  refine ⟨fun _ => 0, ?_, fun r input i => ?_⟩
  · rw [fit_irls, firstGuess_one_class x v hv hx]
    simp only
    unfold irls
    rw [if_neg]
    simp [ht]
  · obtain ⟨h1, -, -, h4⟩ := C72_predict (fun _ : Fin (n + 1) => (0 : ℝ)) input i
    refine ⟨?_, ?_⟩
    · rw [h1]; simp [Spec.prob, Spec.affine]; norm_num
    · rw [h4]; simp [Spec.affine]

example := C72_one_class (!![0; 4] : Matrix (Fin 2) (Fin 1) ℝ) 1 (.inr rfl) ⟨0, by simp [Fin.sum_univ_two]⟩
  (tol := 1e-6) (by norm_num) 10

/-- The test for separable data looks only at one side: when the first guess gives every response of
one a probability above one minus the tolerance, it is returned at once, whatever the probabilities of
the responses of zero. -/
theorem C72_separability_one_sided (x : Matrix (Fin m) (Fin n) ℝ) (y : Fin m → ℝ)
    (hy : ∀ i, y i = 0 ∨ y i = 1) {tol : ℝ} (ht : 0 < tol) (c : Fin (n + 1) → ℝ)
    (hc : firstGuess x y = some c)
    (h1 : ∀ i, y i = 1 → 1 - tol < Spec.prob (c 0) (fun j => c j.succ) (x i)) (fuel : ℕ) :
    fitLogistic x y .irls tol (fuel + 1) = .ok c 0 := by
  rw [fit_irls, hc]
  simp only
  unfold irls
  dsimp only
  split_ifs with h2 h3
  · rfl
  · exfalso
    apply h3
    intro i
    have hp : irlsMu x c i = Spec.prob (c 0) (fun j => c j.succ) (x i) := (prob_eq x c i).symm
    rcases hy i with h | h
    · have := sig_pos ((withOnes x *ᵥ c) i)
      rw [h, mu_eq]; linarith
    · rw [h, hp]; linarith [h1 i h]
  · exfalso
    apply h3
    intro i
    have hp : irlsMu x c i = Spec.prob (c 0) (fun j => c j.succ) (x i) := (prob_eq x c i).symm
    rcases hy i with h | h
    · have := sig_pos ((withOnes x *ᵥ c) i)
      rw [h, mu_eq]; linarith
    · rw [h, hp]; linarith [h1 i h]
  · rfl

/-- An instance: zero with response one, four with response zero, and tolerance one. -/
example := C72_separability_one_sided (!![0; 4] : Matrix (Fin 2) (Fin 1) ℝ) ![1, 0]
  (fun i => by fin_cases i <;> simp) (tol := 1) one_pos _ firstGuess_two
  (fun i _ => by rw [sub_self]; unfold Spec.prob; positivity) 10

/-- Two samples that a line separates, ten with response one and twenty with response zero: `fit` ends
at once with coefficients that put both in class one. -/
theorem C72_separable_misclassified (fuel : ℕ) :
    let x : Matrix (Fin 2) (Fin 1) ℝ := !![10; 20]
    let y : Fin 2 → ℝ := ![1, 0]
    ∃ c, fitLogistic x y .irls (1 / 1000000) (fuel + 1) = .ok c 0 ∧
      predictClass c x = (fun _ => 1) ∧ predictClass ![15, -1] x = y := by
  intro x y
  have hg : firstGuess x y = some ![-56.25, 7.5] := by
    unfold firstGuess
    simp only [maskedMean, Fin.sum_univ_two, Finset.univ_unique, Fin.default_eq_zero,
      Finset.sum_singleton, x, y]
    rw [if_neg]
    · simp
      funext j
      fin_cases j
      · norm_num
      · show _ = (7.5 : ℝ)
        norm_num
    · rintro ⟨-, h⟩
      have := h 0
      norm_num at this
  refine ⟨![-56.25, 7.5], ?_, ?_, ?_⟩
  · refine C72_separability_one_sided x y ?_ (by norm_num) _ hg ?_ fuel
    · intro i; fin_cases i
      · right; rfl
      · left; rfl
    · intro i hi
      have : i = 0 := by
        fin_cases i
        · rfl
        · simp [y] at hi
      subst this
      have he : Spec.affine ((![-56.25, 7.5] : Fin 2 → ℝ) 0)
          (fun j : Fin 1 => (![-56.25, 7.5] : Fin 2 → ℝ) j.succ) (x 0) = 18.75 := by
        simp [Spec.affine, x]; norm_num
      unfold Spec.prob
      rw [he]
      have hexp : Real.exp (-18.75) < 1 / 1000000 := by
        have h1 : Real.exp (-18.75) = (Real.exp 18.75)⁻¹ := Real.exp_neg _
        rw [h1, one_div]
        refine inv_strictAnti₀ (by norm_num) ?_
        have h5 : (2.7 : ℝ) ^ 18 ≤ Real.exp 1 ^ 18 := by
          gcongr
          have := Real.exp_one_gt_d9
          linarith
        have h6 : Real.exp 1 ^ 18 ≤ Real.exp 18.75 := by
          rw [← Real.exp_nat_mul]
          exact Real.exp_le_exp.2 (by norm_num)
        have h7 : (1000000 : ℝ) < 2.7 ^ 18 := by norm_num
        linarith
      have hpos := Real.exp_pos (-18.75 : ℝ)
      rw [lt_div_iff₀ (by positivity)]
      nlinarith
  · funext i
    rw [(C72_predict _ x i).2.2.2]
    fin_cases i <;> simp [Spec.affine, x] <;> norm_num
  · funext i
    rw [(C72_predict _ x i).2.2.2]
    fin_cases i <;> simp [Spec.affine, x, y] <;> norm_num

/-- For responses and predictions of zero and one the misclassification score is the proportion of
samples on which they differ. -/
theorem C72_misclassification (y yHat : Fin m → ℝ) (hy : ∀ i, y i = 0 ∨ y i = 1)
    (hh : ∀ i, yHat i = 0 ∨ yHat i = 1) :
    scoreMisclassification y yHat =
      ((Finset.univ.filter fun i => y i ≠ yHat i).card : ℝ) / m := by
  unfold scoreMisclassification
  congr 1
  rw [Finset.card_filter]
  push_cast
  refine Finset.sum_congr rfl fun i _ => ?_
  rcases hy i with h | h <;> rcases hh i with h' | h' <;> simp [h, h']

example := C72_misclassification ![0, 1, 1] ![1, 1, 0] (fun i => by fin_cases i <;> simp) (fun i => by fin_cases i <;> simp)

/-- The cross-entropy score has the wrong sign: it is the mean log-likelihood, which is never positive
for responses between zero and one, and negative as soon as there is a sample. -/
theorem C72_cross_entropy_sign (x : Matrix (Fin m) (Fin n) ℝ) (y : Fin m → ℝ)
    (hy : ∀ i, 0 ≤ y i ∧ y i ≤ 1) (c : Fin (n + 1) → ℝ) :
    scoreCrossEntropy y (predictProba c x) =
        Spec.logLik x y (c 0) (fun j => c j.succ) / m ∧
      scoreCrossEntropy y (predictProba c x) ≤ 0 ∧
      (0 < m → scoreCrossEntropy y (predictProba c x) < 0) := by
  have h1 : scoreCrossEntropy y (predictProba c x) =
      Spec.logLik x y (c 0) (fun j => c j.succ) / m := by
    unfold scoreCrossEntropy Spec.logLik
    congr 1
    refine Finset.sum_congr rfl fun i _ => ?_
    rw [(C72_predict c x i).1, neg_add_eq_sub, neg_add_eq_sub]
  have hterm : ∀ i, y i * Real.log (Spec.prob (c 0) (fun j => c j.succ) (x i)) +
      (1 - y i) * Real.log (1 - Spec.prob (c 0) (fun j => c j.succ) (x i)) < 0 := by
    intro i
    obtain ⟨hp, hp0, hp1, -⟩ := C72_predict c x i
    rw [← hp]
    have hl0 := Real.log_neg hp0 hp1
    have hl1 := Real.log_neg (by linarith : 0 < 1 - predictProba c x i) (by linarith)
    obtain ⟨hy0, hy1⟩ := hy i
    rcases hy0.lt_or_eq with h | h
    · nlinarith [mul_neg_of_pos_of_neg h hl0]
    · rw [← h]; linarith
  refine ⟨h1, ?_, fun hm => ?_⟩
  · rw [h1]
    refine div_nonpos_of_nonpos_of_nonneg ?_ (Nat.cast_nonneg _)
    exact Finset.sum_nonpos fun i _ => (hterm i).le
  · rw [h1]
    have : Nonempty (Fin m) := ⟨⟨0, hm⟩⟩
    refine div_neg_of_neg_of_pos ?_ (by exact_mod_cast hm)
    exact Finset.sum_neg (fun i _ => hterm i) Finset.univ_nonempty

/-- Balanced sums arise from two samples at one with different responses. -/
example (tol : ℝ) (fuel : ℕ) :
    fitLogistic (!![1; 1] : Matrix (Fin 2) (Fin 1) ℝ) ![0, 1] .irls tol fuel = .nan :=
  C72_balanced_nan _ _ one_pos (fun j => by fin_cases j; simp [Fin.sum_univ_two]) tol fuel

end Verif.ML
