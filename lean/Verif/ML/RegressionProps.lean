import Verif.ML.RegressionLemmas

/-!
# C69: linear regression, C70: ridge regression
-/

namespace Verif.ML

open Matrix

variable {m m' n : ℕ}

theorem fitNone_ok {x : Matrix (Fin m) (Fin n) ℝ} {y : Fin m → ℝ} {f : Fit n}
    (h : fitNone x y = .ok f) :
    f.intercept = f.coefficients 0 ∧ ((withOnes x)ᵀ * withOnes x).det ≠ 0 ∧
      ((withOnes x)ᵀ * withOnes x) *ᵥ f.coefficients = (withOnes x)ᵀ *ᵥ y := by
  unfold fitNone at h
  split at h
  · simp at h
  · rename_i inv hinv
    obtain ⟨h0, h1, -⟩ := tryInverse_some hinv
    rw [dif_pos rfl] at h
    simp only [Result.ok.injEq] at h
    subst h
    refine ⟨rfl, h0, ?_⟩
    show _ *ᵥ (inv *ᵥ ((withOnes x)ᵀ *ᵥ y)) = _
    rw [mulVec_mulVec, h1, one_mulVec]

theorem fitNone_of_normal {x : Matrix (Fin m) (Fin n) ℝ} {y : Fin m → ℝ}
    (h0 : ((withOnes x)ᵀ * withOnes x).det ≠ 0) {c : Fin (n + 1) → ℝ}
    (hc : ((withOnes x)ᵀ * withOnes x) *ᵥ c = (withOnes x)ᵀ *ᵥ y) :
    fitNone x y = .ok ⟨c 0, c⟩ := by
  unfold fitNone
  cases hinv : tryInverse ((withOnes x)ᵀ * withOnes x) with
  | none => exact absurd (tryInverse_none.1 hinv) h0
  | some inv =>
    obtain ⟨-, -, h2⟩ := tryInverse_some hinv
    have : inv *ᵥ ((withOnes x)ᵀ *ᵥ y) = c := by
      rw [← hc, mulVec_mulVec, h2, one_mulVec]
    simp only [dif_pos]
    show Result.ok (Fit.mk ((inv *ᵥ ((withOnes x)ᵀ *ᵥ y)) 0) (inv *ᵥ ((withOnes x)ᵀ *ᵥ y))) = _
    rw [this]

/-- The fit by the normal equations is an error exactly when some affine function that is not zero
vanishes at every sample; it otherwise succeeds when there is one response per sample and panics when
there is not. -/
theorem C69_outcome (x : Matrix (Fin m) (Fin n) ℝ) (y : Fin m' → ℝ) :
    (fitNone x y = .err ↔ Spec.Collinear x) ∧
      (¬ Spec.Collinear x → m = m' → ∃ f, fitNone x y = .ok f) ∧
      (¬ Spec.Collinear x → m ≠ m' → fitNone x y = .panic) := by
  rw [collinear_iff, ← gram_det_zero, ← tryInverse_none]
  unfold fitNone
  cases hinv : tryInverse ((withOnes x)ᵀ * withOnes x) with
  | none => simp
  | some inv =>
    by_cases h : m = m'
    · simp [h]
    · simp [h]

/-- With fewer samples than coefficients the fit by the normal equations is always an error. -/
theorem C69_too_few_samples (x : Matrix (Fin m) (Fin n) ℝ) (y : Fin m' → ℝ) (h : m < n + 1) :
    fitNone x y = .err := by
  rw [(C69_outcome x y).1, collinear_iff]
  exact exists_mulVec_eq_zero_of_lt x h
where
  exists_mulVec_eq_zero_of_lt (x : Matrix (Fin m) (Fin n) ℝ) (h : m < n + 1) :
      ∃ v, v ≠ 0 ∧ withOnes x *ᵥ v = 0 := by
    have hlt : Module.finrank ℝ (Fin m → ℝ) < Module.finrank ℝ (Fin (n + 1) → ℝ) := by simpa using h
    have hk := LinearMap.ker_ne_bot_of_finrank_lt (f := (withOnes x).mulVecLin) hlt
    obtain ⟨v, hv, hv0⟩ := (Submodule.ne_bot_iff _).1 hk
    exact ⟨v, hv0, by simpa using hv⟩

example := C69_too_few_samples (!![0, 4; 2, 1] : Matrix (Fin 2) (Fin 2) ℝ) ![1, 0] (by norm_num)

/-- The intercept and slopes returned make the residual sum of squares least, and no others do. -/
theorem C69_least_squares {x : Matrix (Fin m) (Fin n) ℝ} {y : Fin m → ℝ} {f : Fit n}
    (h : fitNone x y = .ok f) :
    f.coefficients 0 = f.intercept ∧ ∀ (a : ℝ) (b : Fin n → ℝ),
      Spec.rss x y f.intercept (fun j => f.coefficients j.succ) ≤ Spec.rss x y a b ∧
      (Spec.rss x y a b = Spec.rss x y f.intercept (fun j => f.coefficients j.succ) →
        a = f.intercept ∧ b = fun j => f.coefficients j.succ) := by
  obtain ⟨h1, h2, h3⟩ := fitNone_ok h
  refine ⟨h1.symm, fun a b => ?_⟩
  have key := quad_complete (withOnes x) 0 (by simp) y f.coefficients (Fin.cons a b)
    (by rw [add_zero]; exact h3)
  rw [rss_eq, rss_eq, zero_mulVec, zero_mulVec, dotProduct_zero, dotProduct_zero, add_zero, add_zero,
    add_zero, dot_gram] at key
  simp only [Fin.cons_zero, Fin.cons_succ] at key
  have hn := dot_self_nonneg (withOnes x *ᵥ ((Fin.cons a b : Fin (n + 1) → ℝ) - f.coefficients))
  rw [← h1] at key
  refine ⟨by linarith, fun heq => ?_⟩
  have hz : withOnes x *ᵥ ((Fin.cons a b : Fin (n + 1) → ℝ) - f.coefficients) = 0 :=
    dot_self_zero (by linarith)
  have hd : (Fin.cons a b : Fin (n + 1) → ℝ) - f.coefficients = 0 := by
    by_contra hne
    exact h2 ((gram_det_zero _).2 ⟨_, hne, hz⟩)
  have hd' : (Fin.cons a b : Fin (n + 1) → ℝ) = f.coefficients := sub_eq_zero.1 hd
  refine ⟨?_, funext fun j => ?_⟩
  · rw [h1, ← hd']; rfl
  · rw [← hd']; rfl

/-- A fit that succeeds: three samples on a line, with any responses. -/
example (y : Fin 3 → ℝ) : ∃ f, fitNone (Matrix.of fun (i : Fin 3) (_ : Fin 1) => (i : ℝ)) y = .ok f := by
  refine (C69_outcome _ y).2.1 ?_ rfl
  rintro ⟨a, b, hne, h⟩
  have h0 := h 0
  have h1 := h 1
  simp [Spec.affine] at h0 h1
  subst h0
  refine hne.elim (fun h => h rfl) (fun hb => hb ?_)
  funext j
  fin_cases j
  simpa using h1

/-- The residuals of the fit sum to zero and are uncorrelated with every feature. -/
theorem C69_residuals {x : Matrix (Fin m) (Fin n) ℝ} {y : Fin m → ℝ} {f : Fit n}
    (h : fitNone x y = .ok f) :
    (∑ i, (y i - Spec.affine f.intercept (fun j => f.coefficients j.succ) (x i)) = 0) ∧
      ∀ j, ∑ i, x i j * (y i - Spec.affine f.intercept (fun j => f.coefficients j.succ) (x i)) = 0 := by
  obtain ⟨h1, -, h3⟩ := fitNone_ok h
  have hz : (withOnes x)ᵀ *ᵥ (y - withOnes x *ᵥ f.coefficients) = 0 := by
    rw [mulVec_sub, mulVec_mulVec, h3, sub_self]
  have hz' : ∀ k : Fin (n + 1), ∑ i, withOnes x i k *
      (y i - Spec.affine f.intercept (fun j => f.coefficients j.succ) (x i)) = 0 := by
    intro k
    have := congrFun hz k
    simp only [mulVec, dotProduct, transpose_apply, Pi.zero_apply, Pi.sub_apply] at this
    rw [← this]
    refine Finset.sum_congr rfl fun i _ => ?_
    have e := withOnes_mulVec x f.coefficients i
    simp only [mulVec, dotProduct] at e
    rw [e, h1]
  refine ⟨?_, fun j => ?_⟩
  · have := hz' 0
    simpa [withOnes] using this
  · have := hz' j.succ
    simpa [withOnes] using this

/-- Responses that are an affine function of the features are recovered exactly. -/
theorem C69_exact_recovery (x : Matrix (Fin m) (Fin n) ℝ) (hx : ¬ Spec.Collinear x) (a : ℝ)
    (b : Fin n → ℝ) :
    fitNone x (fun i => Spec.affine a b (x i)) = .ok ⟨a, Fin.cons a b⟩ := by
  rw [collinear_iff, ← gram_det_zero] at hx
  have := fitNone_of_normal (y := fun i => Spec.affine a b (x i)) hx (c := Fin.cons a b) (by
    rw [← mulVec_mulVec]
    congr 1
    funext i
    rw [withOnes_mulVec]
    rfl)
  simpa using this

/-- `predict` evaluates the intercept and slopes at every row, and panics exactly when the number of
columns is not the number of slopes. -/
theorem C69_predict {r n' : ℕ} (f : Fit n) (input : Matrix (Fin r) (Fin n') ℝ) :
    (f.predict input = .panic ↔ n' ≠ n) ∧
      ∀ h : n' = n, f.predict input =
        .ok fun i => Spec.affine f.intercept (fun j => f.coefficients j.succ)
          fun j => input i (Fin.cast h.symm j) := by
  constructor
  · unfold Fit.predict
    by_cases h : n = n'
    · simp [h]
    · simp [h, Ne.symm h]
  · intro h
    subst h
    unfold Fit.predict
    rw [dif_pos rfl]
    congr 1
    funext i
    simp only [Pi.add_apply, mulVec, dotProduct, Spec.affine, Function.comp]
    rw [add_comm]
    rfl

/-- Given QR factors of the matrix of features with its column of ones (`Q` has orthonormal columns, and
as many as the smaller dimension), the QR fit is the fit by the normal equations when there are at
least as many samples as coefficients, errors included; otherwise it panics where the other is an
error. -/
theorem C69_qr {r : ℕ} (x : Matrix (Fin m) (Fin n) ℝ) (y : Fin m → ℝ)
    (Q : Matrix (Fin m) (Fin r) ℝ) (R : Matrix (Fin r) (Fin (n + 1)) ℝ)
    (hr : r = min m (n + 1)) (hQ : Qᵀ * Q = 1) (hQR : Q * R = withOnes x) :
    (n + 1 ≤ m → fitQr Q R y = fitNone x y) ∧ (m < n + 1 → fitQr Q R y = .panic) := by
  constructor
  · intro hle
    rw [min_eq_right hle] at hr
    subst hr
    have hgram : (withOnes x)ᵀ * withOnes x = Rᵀ * R := by
      rw [← hQR, transpose_mul, Matrix.mul_assoc, ← Matrix.mul_assoc Qᵀ, hQ, Matrix.one_mul]
    unfold fitQr
    rw [dif_pos rfl]
    have e1 : R.submatrix (Fin.cast rfl) id = R := rfl
    have e2 : Q.submatrix id (Fin.cast rfl) = Q := rfl
    simp only [e1, e2]
    cases hinv : tryInverse R with
    | none =>
      have h0 := tryInverse_none.1 hinv
      unfold fitNone
      have : tryInverse ((withOnes x)ᵀ * withOnes x) = none := by
        rw [tryInverse_none, hgram, det_mul, h0, mul_zero]
      simp only [this]
    | some inv =>
      obtain ⟨h0, h1, h2⟩ := tryInverse_some hinv
      have hd : ((withOnes x)ᵀ * withOnes x).det ≠ 0 := by
        rw [hgram, det_mul, det_transpose]
        exact mul_ne_zero h0 h0
      rw [fitNone_of_normal hd (c := (inv * Qᵀ) *ᵥ y) ?_]
      · rfl
      · rw [hgram, mulVec_mulVec, ← Matrix.mul_assoc, Matrix.mul_assoc Rᵀ, h1, Matrix.mul_one, ← hQR,
          transpose_mul]
  · intro hlt
    have hne : ¬ (n + 1 = r) := by omega
    unfold fitQr
    rw [dif_neg hne]

/-- Given a singular value decomposition of the matrix of features with its column of ones and at least
as many samples as coefficients, the SVD fit is the fit by the normal equations when that succeeds, and
returns numbers that are not finite, not an error, when that is an error. -/
theorem C69_svd {r : ℕ} (x : Matrix (Fin m) (Fin n) ℝ) (y : Fin m → ℝ)
    (U : Matrix (Fin m) (Fin r) ℝ) (s : Fin r → ℝ) (Vt : Matrix (Fin r) (Fin (n + 1)) ℝ)
    (hr : r = min m (n + 1)) (hU : Uᵀ * U = 1) (hV : Vt * Vtᵀ = 1)
    (hX : U * Matrix.diagonal s * Vt = withOnes x) (hle : n + 1 ≤ m) :
    (¬ Spec.Collinear x → fitSvd U s Vt y = fitNone x y) ∧
      (Spec.Collinear x → fitSvd U s Vt y = .notFinite) := by
  rw [min_eq_right hle] at hr
  subst hr
  rw [collinear_iff, ← gram_det_zero]
  have hV' : Vtᵀ * Vt = 1 := mul_eq_one_comm.1 hV
  have hgram : (withOnes x)ᵀ * withOnes x = Vtᵀ * Matrix.diagonal (fun i => s i * s i) * Vt := by
    rw [← hX]
    simp only [transpose_mul, diagonal_transpose]
    calc Vtᵀ * (diagonal s * Uᵀ) * (U * diagonal s * Vt)
        = Vtᵀ * diagonal s * (Uᵀ * U) * diagonal s * Vt := by simp only [Matrix.mul_assoc]
      _ = Vtᵀ * (diagonal s * diagonal s) * Vt := by
          rw [hU, Matrix.mul_one]; simp only [Matrix.mul_assoc]
      _ = _ := by rw [diagonal_mul_diagonal]
  have hdV : Vtᵀ.det * Vt.det = 1 := by rw [← det_mul, hV', det_one]
  have hdet : ((withOnes x)ᵀ * withOnes x).det = ∏ i, s i * s i := by
    rw [hgram, det_mul, det_mul, det_diagonal, mul_right_comm, hdV, one_mul]
  have hiff : ((withOnes x)ᵀ * withOnes x).det = 0 ↔ ∃ i, s i = 0 := by
    rw [hdet, Finset.prod_eq_zero_iff]
    simp
  unfold fitSvd
  rw [dif_pos rfl]
  refine ⟨fun h => ?_, fun h => ?_⟩
  · rw [if_neg (fun h' => h (hiff.2 h'))]
    have hs : ∀ i, s i ≠ 0 := fun i hi => h (hiff.2 ⟨i, hi⟩)
    rw [fitNone_of_normal h
      (c := (Vtᵀ * Matrix.diagonal (fun i => 1 / s i) * Uᵀ) *ᵥ y) ?_]
    · rfl
    · rw [hgram, mulVec_mulVec]
      congr 1
      rw [← hX]
      simp only [transpose_mul, diagonal_transpose]
      calc Vtᵀ * diagonal (fun i => s i * s i) * Vt * (Vtᵀ * diagonal (fun i => 1 / s i) * Uᵀ)
          = Vtᵀ * diagonal (fun i => s i * s i) * (Vt * Vtᵀ) * diagonal (fun i => 1 / s i) * Uᵀ := by
            simp only [Matrix.mul_assoc]
        _ = Vtᵀ * (diagonal (fun i => s i * s i) * diagonal (fun i => 1 / s i)) * Uᵀ := by
            rw [hV, Matrix.mul_one]; simp only [Matrix.mul_assoc]
        _ = Vtᵀ * (diagonal s * Uᵀ) := by
            rw [diagonal_mul_diagonal, Matrix.mul_assoc]
            congr 3
            funext i
            have := hs i
            field_simp
  · rw [if_pos (hiff.1 h)]

/-- With fewer samples than coefficients, and linearly independent samples, the SVD fit passes through
every sample and has the least sum of squared coefficients of all that do. -/
theorem C69_svd_underdetermined {r : ℕ} (x : Matrix (Fin m) (Fin n) ℝ) (y : Fin m → ℝ)
    (U : Matrix (Fin m) (Fin r) ℝ) (s : Fin r → ℝ) (Vt : Matrix (Fin r) (Fin (n + 1)) ℝ)
    (hr : r = min m (n + 1)) (hU : Uᵀ * U = 1) (hV : Vt * Vtᵀ = 1)
    (hX : U * Matrix.diagonal s * Vt = withOnes x) (hlt : m < n + 1) (hs : ∀ i, s i ≠ 0) :
    ∃ f, fitSvd U s Vt y = .ok f ∧ f.coefficients 0 = f.intercept ∧
      (∀ i, Spec.affine f.intercept (fun j => f.coefficients j.succ) (x i) = y i) ∧
      ∀ (a : ℝ) (b : Fin n → ℝ), (∀ i, Spec.affine a b (x i) = y i) →
        ∑ j, f.coefficients j ^ 2 ≤ a ^ 2 + ∑ j, b j ^ 2 := by
  rw [min_eq_left hlt.le] at hr
  subst hr
  have hU' : U * Uᵀ = 1 := mul_eq_one_comm.1 hU
  set c := (Vtᵀ * Matrix.diagonal (fun i => 1 / s i) * Uᵀ) *ᵥ y with hc
  have hdd : diagonal s * diagonal (fun i => 1 / s i) = 1 := by
    rw [diagonal_mul_diagonal, ← diagonal_one]
    congr 1
    funext i
    have := hs i
    field_simp
  have hdd' : diagonal (fun i => 1 / s i) * diagonal s = 1 := mul_eq_one_comm.1 hdd
  have hfit : withOnes x *ᵥ c = y := by
    rw [hc, mulVec_mulVec, ← hX]
    have : U * diagonal s * Vt * (Vtᵀ * diagonal (fun i => 1 / s i) * Uᵀ) = 1 := by
      calc U * diagonal s * Vt * (Vtᵀ * diagonal (fun i => 1 / s i) * Uᵀ)
          = U * diagonal s * (Vt * Vtᵀ) * diagonal (fun i => 1 / s i) * Uᵀ := by
            simp only [Matrix.mul_assoc]
        _ = U * (diagonal s * diagonal (fun i => 1 / s i)) * Uᵀ := by
            rw [hV, Matrix.mul_one]; simp only [Matrix.mul_assoc]
        _ = 1 := by rw [hdd, Matrix.mul_one, hU']
    rw [this, one_mulVec]
  refine ⟨⟨c 0, c⟩, ?_, rfl, fun i => ?_, fun a b hab => ?_⟩
  · unfold fitSvd
    rw [dif_pos rfl, if_neg (by push Not; exact hs)]
    rfl
  · show Spec.affine (c 0) (fun j => c j.succ) (x i) = y i
    rw [← withOnes_mulVec, hfit]
  · show ∑ j, c j ^ 2 ≤ _
    set e : Fin (n + 1) → ℝ := Fin.cons a b with he
    have he2 : a ^ 2 + ∑ j, b j ^ 2 = e ⬝ᵥ e := by
      rw [dot_self, Fin.sum_univ_succ]
      simp [he]
    have hefit : withOnes x *ᵥ e = y := by
      funext i
      rw [withOnes_mulVec]
      simpa [he] using hab i
    have hdiff : Vt *ᵥ (e - c) = 0 := by
      have h0 : withOnes x *ᵥ (e - c) = 0 := by rw [mulVec_sub, hefit, hfit, sub_self]
      have h1 : (diagonal (fun i => 1 / s i) * Uᵀ) *ᵥ (withOnes x *ᵥ (e - c)) = Vt *ᵥ (e - c) := by
        rw [mulVec_mulVec, ← hX]
        congr 1
        calc diagonal (fun i => 1 / s i) * Uᵀ * (U * diagonal s * Vt)
            = diagonal (fun i => 1 / s i) * (Uᵀ * U) * diagonal s * Vt := by
              simp only [Matrix.mul_assoc]
          _ = Vt := by rw [hU, Matrix.mul_one, hdd', Matrix.one_mul]
      rw [← h1, h0, mulVec_zero]
    have horth : (e - c) ⬝ᵥ c = 0 := by
      have hc2 : c = Vtᵀ *ᵥ ((Matrix.diagonal (fun i => 1 / s i) * Uᵀ) *ᵥ y) := by
        rw [hc, Matrix.mul_assoc, ← mulVec_mulVec]
      have : ∀ w, (e - c) ⬝ᵥ (Vtᵀ *ᵥ w) = 0 := by
        intro w
        rw [dotProduct_mulVec, vecMul_transpose, hdiff, zero_dotProduct]
      rw [← this, ← hc2]
    have hsq := dot_self_nonneg (e - c)
    have hexp : (e - c) ⬝ᵥ (e - c) = e ⬝ᵥ e - c ⬝ᵥ c - 2 * ((e - c) ⬝ᵥ c) := by
      simp only [sub_dotProduct, dotProduct_sub]
      rw [dotProduct_comm c e]
      ring
    rw [he2, ← dot_self]
    rw [horth] at hexp
    linarith

/-- A fit that succeeds: three points on the line `y = 1 + 2 t`. -/
example : fitNone (Matrix.of fun (i : Fin 3) (_ : Fin 1) => (i : ℝ))
    (fun i : Fin 3 => Spec.affine 1 (fun _ : Fin 1 => 2) fun _ => (i : ℝ)) = .ok ⟨1, Fin.cons 1 fun _ => 2⟩ := by
  refine C69_exact_recovery (Matrix.of fun (i : Fin 3) (_ : Fin 1) => (i : ℝ)) ?_ 1 fun _ => 2
  rintro ⟨a, b, hne, h⟩
  have h0 := h 0
  have h1 := h 1
  simp [Spec.affine] at h0 h1
  rw [h0] at h1
  rcases hne with ha | hb
  · exact ha h0
  · refine hb (funext fun j => ?_)
    rw [Subsingleton.elim j 0]
    simpa using h1

/-- QR factors in a case that is not trivial: one feature, samples at minus one and one. -/
example : ∃ (Q R : Matrix (Fin 2) (Fin 2) ℝ), Qᵀ * Q = 1 ∧
    Q * R = withOnes !![(-1 : ℝ); 1] :=
  ⟨1, withOnes !![(-1 : ℝ); 1], by simp, by simp⟩

/-- A singular value decomposition of the same matrix. -/
example : ∃ (U Vt : Matrix (Fin 2) (Fin 2) ℝ) (s : Fin 2 → ℝ), Uᵀ * U = 1 ∧ Vt * Vtᵀ = 1 ∧
    (∀ i, s i ≠ 0) ∧ U * Matrix.diagonal s * Vt = withOnes !![(-1 : ℝ); 1] := by
  have h2 : √(2 : ℝ) * √2 = 2 := Real.mul_self_sqrt (by norm_num)
  have h0 : √(2 : ℝ) ≠ 0 := by positivity
  refine ⟨!![1 / √2, -1 / √2; 1 / √2, 1 / √2], 1, fun _ => √2, ?_, by simp, fun _ => h0, ?_⟩
  · ext i j
    fin_cases i <;> fin_cases j <;> simp [Matrix.mul_apply, Fin.sum_univ_two, ← mul_inv, h2] <;>
      field_simp <;> norm_num
  · ext i j
    fin_cases i <;> fin_cases j <;> simp [Matrix.mul_apply, withOnes, h0] <;> field_simp

/-! ## Ridge regression -/

theorem ridge_some {k : ℕ} {M inv : Matrix (Fin k) (Fin k) ℝ} (h : tryInverse M = some inv)
    (A : Matrix (Fin m) (Fin k) ℝ) (y : Fin m → ℝ) : M *ᵥ ((inv * Aᵀ) *ᵥ y) = Aᵀ *ᵥ y := by
  obtain ⟨-, h1, -⟩ := tryInverse_some h
  rw [mulVec_mulVec, ← Matrix.mul_assoc, h1, Matrix.one_mul]

/-- The penalty matrix with the intercept spared. -/
def spare (n : ℕ) : Matrix (Fin (n + 1)) (Fin (n + 1)) ℝ := Matrix.diagonal (Fin.cons 0 fun _ => 1)

theorem spare_quad (l : ℝ) (b : Fin (n + 1) → ℝ) :
    b ⬝ᵥ ((l • spare n) *ᵥ b) = l * ∑ j : Fin n, b j.succ ^ 2 := by
  rw [smul_mulVec, dotProduct_smul, smul_eq_mul]
  congr 1
  simp only [spare, dotProduct, mulVec_diagonal]
  rw [Fin.sum_univ_succ]
  simp [sq]

theorem one_quad (l : ℝ) (b : Fin n → ℝ) :
    b ⬝ᵥ ((l • (1 : Matrix (Fin n) (Fin n) ℝ)) *ᵥ b) = l * ∑ j : Fin n, b j ^ 2 := by
  rw [smul_mulVec, dotProduct_smul, smul_eq_mul, one_mulVec, dot_self]

theorem rss_zero (x : Matrix (Fin m) (Fin n) ℝ) (y : Fin m → ℝ) (b : Fin n → ℝ) :
    (y - x *ᵥ b) ⬝ᵥ (y - x *ᵥ b) = Spec.rss x y 0 b := by
  rw [dot_self]
  unfold Spec.rss Spec.affine
  refine Finset.sum_congr rfl fun i _ => ?_
  simp [mulVec, dotProduct]

theorem fitRidge_true_ok {x : Matrix (Fin m) (Fin n) ℝ} {y : Fin m → ℝ} {l t : ℝ} {it : ℕ} {f : Fit n}
    (h : fitRidge x y l true it t = .ok f) :
    f.intercept = f.coefficients 0 ∧ ((withOnes x)ᵀ * withOnes x + l • spare n).det ≠ 0 ∧
      ((withOnes x)ᵀ * withOnes x + l • spare n) *ᵥ f.coefficients = (withOnes x)ᵀ *ᵥ y := by
  unfold fitRidge at h
  simp only [if_true] at h
  split at h
  · simp at h
  · rename_i inv hinv
    simp only [dif_pos, Result.ok.injEq] at h
    subst h
    exact ⟨rfl, (tryInverse_some hinv).1, ridge_some hinv (withOnes x) y⟩

theorem fitRidge_false_ok {x : Matrix (Fin m) (Fin n) ℝ} {y : Fin m → ℝ} {l t : ℝ} {it : ℕ} {f : Fit n}
    (h : fitRidge x y l false it t = .ok f) :
    f.intercept = 0 ∧ f.coefficients 0 = 0 ∧ (xᵀ * x + l • (1 : Matrix (Fin n) (Fin n) ℝ)).det ≠ 0 ∧
      (xᵀ * x + l • (1 : Matrix (Fin n) (Fin n) ℝ)) *ᵥ (fun j => f.coefficients j.succ) = xᵀ *ᵥ y := by
  unfold fitRidge at h
  simp only [Bool.false_eq_true, if_false] at h
  split at h
  · simp at h
  · rename_i inv hinv
    simp only [dif_pos, Result.ok.injEq] at h
    subst h
    refine ⟨rfl, rfl, (tryInverse_some hinv).1, ?_⟩
    simp only [Fin.cons_succ]
    exact ridge_some hinv x y

theorem quad_spare_pos (x : Matrix (Fin m) (Fin n) ℝ) {l : ℝ} (hl : 0 ≤ l) (d : Fin (n + 1) → ℝ)
    (hdet : ((withOnes x)ᵀ * withOnes x + l • spare n).det ≠ 0) (hd : d ≠ 0) :
    0 < d ⬝ᵥ (((withOnes x)ᵀ * withOnes x + l • spare n) *ᵥ d) := by
  have hn : 0 ≤ ∑ j : Fin n, d j.succ ^ 2 := by positivity
  have hg := dot_self_nonneg (withOnes x *ᵥ d)
  rw [add_mulVec, dotProduct_add, dot_gram, spare_quad]
  rcases (add_nonneg hg (mul_nonneg hl hn)).lt_or_eq with h | h
  · exact h
  exfalso
  have h1 : withOnes x *ᵥ d = 0 := dot_self_zero (by nlinarith [mul_nonneg hl hn])
  have h2 : l * ∑ j : Fin n, d j.succ ^ 2 = 0 := by nlinarith [mul_nonneg hl hn]
  apply hdet
  rw [← exists_mulVec_eq_zero_iff]
  refine ⟨d, hd, ?_⟩
  rw [add_mulVec, ← mulVec_mulVec, h1, mulVec_zero, zero_add]
  rcases mul_eq_zero.1 h2 with h3 | h3
  · rw [h3, zero_smul, zero_mulVec]
  · have h4 : ∀ j : Fin n, d j.succ = 0 := by
      intro j
      have := (Finset.sum_eq_zero_iff_of_nonneg (fun j _ => sq_nonneg (d (Fin.succ j)))).1 h3 j
        (Finset.mem_univ j)
      exact pow_eq_zero_iff (two_ne_zero) |>.1 this
    rw [smul_mulVec]
    have : spare n *ᵥ d = 0 := by
      funext j
      rw [spare, mulVec_diagonal]
      refine Fin.cases ?_ (fun j => ?_) j
      · simp
      · simp [h4]
    rw [this, smul_zero]

theorem quad_one_pos (x : Matrix (Fin m) (Fin n) ℝ) {l : ℝ} (hl : 0 ≤ l) (d : Fin n → ℝ)
    (hdet : (xᵀ * x + l • (1 : Matrix (Fin n) (Fin n) ℝ)).det ≠ 0) (hd : d ≠ 0) :
    0 < d ⬝ᵥ ((xᵀ * x + l • (1 : Matrix (Fin n) (Fin n) ℝ)) *ᵥ d) := by
  have hn : 0 ≤ ∑ j : Fin n, d j ^ 2 := by positivity
  have hg := dot_self_nonneg (x *ᵥ d)
  rw [add_mulVec, dotProduct_add, dot_gram, one_quad]
  rcases (add_nonneg hg (mul_nonneg hl hn)).lt_or_eq with h | h
  · exact h
  exfalso
  have h1 : x *ᵥ d = 0 := dot_self_zero (by nlinarith [mul_nonneg hl hn])
  have h2 : l * ∑ j : Fin n, d j ^ 2 = 0 := by nlinarith [mul_nonneg hl hn]
  rcases mul_eq_zero.1 h2 with h3 | h3
  · apply hdet
    rw [← exists_mulVec_eq_zero_iff]
    exact ⟨d, hd, by rw [add_mulVec, ← mulVec_mulVec, h1, mulVec_zero, zero_add, h3, zero_smul,
      zero_mulVec]⟩
  · refine hd (funext fun j => ?_)
    have := (Finset.sum_eq_zero_iff_of_nonneg (fun j _ => sq_nonneg (d j))).1 h3 j (Finset.mem_univ j)
    exact pow_eq_zero_iff (two_ne_zero) |>.1 this

/-- With an intercept and a penalty that is not negative, the intercept and slopes returned make the
ridge objective, which does not penalise the intercept, least, and no others do. -/
theorem C70_intercept_minimiser {x : Matrix (Fin m) (Fin n) ℝ} {y : Fin m → ℝ} {l t : ℝ} {it : ℕ}
    {f : Fit n} (hl : 0 ≤ l) (h : fitRidge x y l true it t = .ok f) :
    f.coefficients 0 = f.intercept ∧ ∀ (a : ℝ) (b : Fin n → ℝ),
      (a ≠ f.intercept ∨ b ≠ fun j => f.coefficients j.succ) →
      Spec.ridge x y l f.intercept (fun j => f.coefficients j.succ) < Spec.ridge x y l a b := by
  obtain ⟨h1, h2, h3⟩ := fitRidge_true_ok h
  refine ⟨h1.symm, fun a b hne => ?_⟩
  have key := quad_complete (withOnes x) (l • spare n) (by simp [spare]) y f.coefficients
    (Fin.cons a b) h3
  rw [rss_eq, rss_eq, spare_quad, spare_quad] at key
  simp only [Fin.cons_zero, Fin.cons_succ] at key
  have hd : (Fin.cons a b : Fin (n + 1) → ℝ) - f.coefficients ≠ 0 := by
    intro h0
    have h0' : (Fin.cons a b : Fin (n + 1) → ℝ) = f.coefficients := sub_eq_zero.1 h0
    rcases hne with ha | hb
    · exact ha (by rw [h1, ← h0']; rfl)
    · exact hb (funext fun j => by rw [← h0']; rfl)
  have hp := quad_spare_pos x hl _ h2 hd
  unfold Spec.ridge
  rw [← h1] at key
  linarith

/-- Without an intercept and with a penalty that is not negative, the intercept returned is zero and
the slopes make the ridge objective of functions through the origin least, and no others do. -/
theorem C70_origin_minimiser {x : Matrix (Fin m) (Fin n) ℝ} {y : Fin m → ℝ} {l t : ℝ} {it : ℕ}
    {f : Fit n} (hl : 0 ≤ l) (h : fitRidge x y l false it t = .ok f) :
    f.intercept = 0 ∧ f.coefficients 0 = 0 ∧ ∀ b : Fin n → ℝ, (b ≠ fun j => f.coefficients j.succ) →
      Spec.ridge x y l 0 (fun j => f.coefficients j.succ) < Spec.ridge x y l 0 b := by
  obtain ⟨h0, h1, h2, h3⟩ := fitRidge_false_ok h
  refine ⟨h0, h1, fun b hne => ?_⟩
  have key := quad_complete x (l • (1 : Matrix (Fin n) (Fin n) ℝ)) (by simp) y _ b h3
  rw [rss_zero, rss_zero, one_quad, one_quad] at key
  have hp := quad_one_pos x hl _ h2 (sub_ne_zero.2 hne)
  unfold Spec.ridge
  linarith

/-- With a positive penalty the fit succeeds whatever the features, collinear ones included: always
without an intercept, and whenever there is a sample with one. -/
theorem C70_succeeds (x : Matrix (Fin m) (Fin n) ℝ) (y : Fin m → ℝ) {l : ℝ} (hl : 0 < l) (t : ℝ)
    (it : ℕ) :
    (∃ f, fitRidge x y l false it t = .ok f) ∧ (0 < m → ∃ f, fitRidge x y l true it t = .ok f) := by
  constructor
  · unfold fitRidge
    simp only [Bool.false_eq_true, if_false]
    cases hinv : tryInverse (xᵀ * x + l • (1 : Matrix (Fin n) (Fin n) ℝ)) with
    | some inv => exact ⟨_, rfl⟩
    | none =>
      exfalso
      have h0 := tryInverse_none.1 hinv
      obtain ⟨v, hv, hv0⟩ := exists_mulVec_eq_zero_iff.2 h0
      have h1 : v ⬝ᵥ ((xᵀ * x + l • (1 : Matrix (Fin n) (Fin n) ℝ)) *ᵥ v) = 0 := by
        rw [hv0, dotProduct_zero]
      rw [add_mulVec, dotProduct_add, dot_gram, one_quad, ← dot_self] at h1
      have hg := dot_self_nonneg (x *ᵥ v)
      have hn := dot_self_nonneg v
      exact hv (dot_self_zero (by nlinarith))
  · intro hm
    unfold fitRidge
    simp only [if_true]
    have hreg : (Matrix.diagonal (Fin.cons 0 fun _ => 1) : Matrix (Fin (n + 1)) (Fin (n + 1)) ℝ) =
      spare n := rfl
    rw [hreg]
    cases hinv : tryInverse ((withOnes x)ᵀ * withOnes x + l • spare n) with
    | some inv => exact ⟨_, rfl⟩
    | none =>
      exfalso
      have h0 := tryInverse_none.1 hinv
      obtain ⟨v, hv, hv0⟩ := exists_mulVec_eq_zero_iff.2 h0
      have h1 : v ⬝ᵥ (((withOnes x)ᵀ * withOnes x + l • spare n) *ᵥ v) = 0 := by
        rw [hv0, dotProduct_zero]
      rw [add_mulVec, dotProduct_add, dot_gram, spare_quad] at h1
      have hg := dot_self_nonneg (withOnes x *ᵥ v)
      have hn : 0 ≤ ∑ j : Fin n, v j.succ ^ 2 := by positivity
      have hz : ∑ j : Fin n, v j.succ ^ 2 = 0 := by nlinarith
      have h4 : ∀ j : Fin n, v j.succ = 0 := by
        intro j
        have := (Finset.sum_eq_zero_iff_of_nonneg (fun j _ => sq_nonneg (v (Fin.succ j)))).1 hz j
          (Finset.mem_univ j)
        exact pow_eq_zero_iff (two_ne_zero) |>.1 this
      have hz2 : withOnes x *ᵥ v = 0 := dot_self_zero (by rw [hz] at h1; linarith)
      have h5 : v 0 = 0 := by
        have := congrFun hz2 ⟨0, hm⟩
        rw [withOnes_mulVec] at this
        simpa [Spec.affine, h4] using this
      refine hv (funext fun j => ?_)
      refine Fin.cases h5 (fun j => h4 j) j

/-- The hypotheses of `C70_intercept_minimiser` and `C70_origin_minimiser` are met. -/
example : ∃ f, fitRidge (!![0, 4; 2, 1] : Matrix (Fin 2) (Fin 2) ℝ) ![1, 0] 2 true 10 0 = .ok f :=
  (C70_succeeds _ _ (by norm_num) 0 10).2 (by norm_num)

example : ∃ f, fitRidge (!![0, 4; 2, 1] : Matrix (Fin 2) (Fin 2) ℝ) ![1, 0] 2 false 10 0 = .ok f :=
  (C70_succeeds _ _ (by norm_num) 0 10).1

/-- A zero penalty gives linear regression. -/
theorem C70_no_penalty (x : Matrix (Fin m) (Fin n) ℝ) (y : Fin m' → ℝ) (t : ℝ) (it : ℕ) :
    fitRidge x y 0 true it t = fitNone x y := by
  unfold fitRidge fitNone
  simp only [if_true, zero_smul, add_zero]
  split
  · rfl
  · split
    · simp only [mulVec_mulVec]
    · rfl

/-- A larger penalty gives a smaller sum of squared slopes and a larger residual sum of squares. -/
theorem C70_shrinkage {x : Matrix (Fin m) (Fin n) ℝ} {y : Fin m → ℝ} {l₁ l₂ t₁ t₂ : ℝ} {i₁ i₂ : ℕ}
    {ic : Bool} {f₁ f₂ : Fit n} (h0 : 0 ≤ l₁) (hl : l₁ < l₂)
    (h₁ : fitRidge x y l₁ ic i₁ t₁ = .ok f₁) (h₂ : fitRidge x y l₂ ic i₂ t₂ = .ok f₂) :
    (∑ j : Fin n, f₂.coefficients j.succ ^ 2 ≤ ∑ j : Fin n, f₁.coefficients j.succ ^ 2) ∧
      Spec.rss x y f₁.intercept (fun j => f₁.coefficients j.succ) ≤
        Spec.rss x y f₂.intercept (fun j => f₂.coefficients j.succ) := by
  have hm₁ : Spec.ridge x y l₁ f₁.intercept (fun j => f₁.coefficients j.succ) ≤
      Spec.ridge x y l₁ f₂.intercept (fun j => f₂.coefficients j.succ) := by
    cases ic with
    | true =>
      obtain ⟨-, hmin⟩ := C70_intercept_minimiser h0 h₁
      by_cases hne : f₂.intercept ≠ f₁.intercept ∨
          (fun j : Fin n => f₂.coefficients j.succ) ≠ fun j => f₁.coefficients j.succ
      · exact (hmin _ _ hne).le
      · push Not at hne
        rw [hne.1, hne.2]
    | false =>
      obtain ⟨hi₁, -, hmin⟩ := C70_origin_minimiser h0 h₁
      obtain ⟨hi₂, -, -⟩ := C70_origin_minimiser (h0.trans hl.le) h₂
      rw [hi₁, hi₂]
      by_cases hne : (fun j : Fin n => f₂.coefficients j.succ) ≠ fun j => f₁.coefficients j.succ
      · exact (hmin _ hne).le
      · push Not at hne
        rw [hne]
  have hm₂ : Spec.ridge x y l₂ f₂.intercept (fun j => f₂.coefficients j.succ) ≤
      Spec.ridge x y l₂ f₁.intercept (fun j => f₁.coefficients j.succ) := by
    cases ic with
    | true =>
      obtain ⟨-, hmin⟩ := C70_intercept_minimiser (h0.trans hl.le) h₂
      by_cases hne : f₁.intercept ≠ f₂.intercept ∨
          (fun j : Fin n => f₁.coefficients j.succ) ≠ fun j => f₂.coefficients j.succ
      · exact (hmin _ _ hne).le
      · push Not at hne
        rw [hne.1, hne.2]
    | false =>
      obtain ⟨hi₁, -, -⟩ := C70_origin_minimiser h0 h₁
      obtain ⟨hi₂, -, hmin⟩ := C70_origin_minimiser (h0.trans hl.le) h₂
      rw [hi₁, hi₂]
      by_cases hne : (fun j : Fin n => f₁.coefficients j.succ) ≠ fun j => f₂.coefficients j.succ
      · exact (hmin _ hne).le
      · push Not at hne
        rw [hne]
  unfold Spec.ridge at hm₁ hm₂
  set g₁ := ∑ j : Fin n, f₁.coefficients j.succ ^ 2
  set g₂ := ∑ j : Fin n, f₂.coefficients j.succ ^ 2
  have hg : g₂ ≤ g₁ := by nlinarith
  exact ⟨hg, by nlinarith [mul_le_mul_of_nonneg_left hg h0]⟩

example : ∃ f₁ f₂, fitRidge (!![0, 4; 2, 1] : Matrix (Fin 2) (Fin 2) ℝ) ![1, 0] 2 true 10 0 = .ok f₁ ∧
    fitRidge (!![0, 4; 2, 1] : Matrix (Fin 2) (Fin 2) ℝ) ![1, 0] 3 true 10 0 = .ok f₂ := by
  obtain ⟨f, hf⟩ := (C70_succeeds (!![0, 4; 2, 1] : Matrix (Fin 2) (Fin 2) ℝ) ![1, 0] (l := 2) (by norm_num) 0 10).2 (by norm_num)
  obtain ⟨g, hg⟩ := (C70_succeeds (!![0, 4; 2, 1] : Matrix (Fin 2) (Fin 2) ℝ) ![1, 0] (l := 3) (by norm_num) 0 10).2 (by norm_num)
  exact ⟨f, g, hf, hg⟩

/-- A negative penalty is accepted without complaint: with one feature through the origin and a penalty
below minus its sum of squares, the slope returned is the one at which the objective is greatest. -/
theorem C70_negative_penalty (x : Matrix (Fin m) (Fin 1) ℝ) (y : Fin m → ℝ) {l : ℝ}
    (hl : l < -∑ i, x i 0 ^ 2) (t : ℝ) (it : ℕ) :
    ∃ f, fitRidge x y l false it t = .ok f ∧ ∀ b : Fin 1 → ℝ, (b ≠ fun j => f.coefficients j.succ) →
      Spec.ridge x y l 0 b < Spec.ridge x y l 0 (fun j => f.coefficients j.succ) := by
  have hq : ∀ d : Fin 1 → ℝ, d ⬝ᵥ ((xᵀ * x + l • (1 : Matrix (Fin 1) (Fin 1) ℝ)) *ᵥ d) =
      (∑ i, x i 0 ^ 2 + l) * d 0 ^ 2 := by
    intro d
    rw [add_mulVec, dotProduct_add, dot_gram, one_quad, dot_self]
    simp only [mulVec, dotProduct, Finset.univ_unique, Fin.default_eq_zero, Finset.sum_singleton]
    rw [add_mul, Finset.sum_mul]
    congr 1
    exact Finset.sum_congr rfl fun i _ => by ring
  have hdet : (xᵀ * x + l • (1 : Matrix (Fin 1) (Fin 1) ℝ)).det ≠ 0 := by
    intro h0
    obtain ⟨v, hv, hv0⟩ := exists_mulVec_eq_zero_iff.2 h0
    have h1 := hq v
    rw [hv0, dotProduct_zero] at h1
    have hv1 : v 0 = 0 := by
      rcases mul_eq_zero.1 h1.symm with h | h
      · linarith
      · exact pow_eq_zero_iff (two_ne_zero) |>.1 h
    refine hv (funext fun j => ?_)
    rw [Subsingleton.elim j 0, hv1]; rfl
  have hok : ∃ f, fitRidge x y l false it t = .ok f := by
    unfold fitRidge
    simp only [Bool.false_eq_true, if_false]
    cases hinv : tryInverse (xᵀ * x + l • (1 : Matrix (Fin 1) (Fin 1) ℝ)) with
    | some inv => exact ⟨_, rfl⟩
    | none => exact absurd (tryInverse_none.1 hinv) hdet
  obtain ⟨f, hf⟩ := hok
  refine ⟨f, hf, fun b hne => ?_⟩
  obtain ⟨-, -, -, h3⟩ := fitRidge_false_ok hf
  have key := quad_complete x (l • (1 : Matrix (Fin 1) (Fin 1) ℝ)) (by simp) y _ b h3
  rw [rss_zero, rss_zero, one_quad, one_quad, hq] at key
  unfold Spec.ridge
  have hd : b 0 - f.coefficients (Fin.succ 0) ≠ 0 := by
    intro h0
    refine hne (funext fun j => ?_)
    rw [Subsingleton.elim j 0]
    linarith
  have hd2 : 0 < (b 0 - f.coefficients (Fin.succ 0)) ^ 2 := by positivity
  simp only [Pi.sub_apply] at key
  nlinarith

/-- The ridge hypotheses are met with two identical features, where linear regression is an error. -/
example : (∃ f, fitRidge (Matrix.of fun (i : Fin 3) (_ : Fin 2) => (i : ℝ)) (fun i : Fin 3 => (i : ℝ)) 1 true
    10 0 = .ok f) ∧
    fitNone (Matrix.of fun (i : Fin 3) (_ : Fin 2) => (i : ℝ)) (fun i : Fin 3 => (i : ℝ)) = .err := by
  refine ⟨(C70_succeeds _ _ one_pos 0 10).2 (by norm_num), (C69_outcome _ _).1.2 ?_⟩
  refine ⟨0, ![1, -1], Or.inr ?_, fun i => ?_⟩
  · intro h
    have := congrFun h 0
    norm_num at this
  · simp [Spec.affine, Fin.sum_univ_two]

end Verif.ML
