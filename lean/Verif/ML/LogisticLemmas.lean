import Verif.ML.Logistic
import Verif.ML.RegressionLemmas
import Verif.ML.ActivationsProps
import Mathlib.Analysis.Convex.SpecificFunctions.Basic
import Mathlib.Analysis.Calculus.MeanValue

/-! The logistic function and the log-likelihood. -/

namespace Verif.ML

open Matrix

/-- The logistic function. -/
noncomputable def sig (v : ℝ) : ℝ := 1 / (1 + Real.exp (-v))

theorem sig_pos (v : ℝ) : 0 < sig v := (C74_sigmoid v).1
theorem sig_lt_one (v : ℝ) : sig v < 1 := (C74_sigmoid v).2.1
theorem sig_mono : StrictMono sig := (C74_sigmoid 0).2.2.1
theorem sig_deriv (v : ℝ) : HasDerivAt sig (sig v * (1 - sig v)) v := (C74_sigmoid v).2.2.2.2.2.1

theorem sig_var_bound (v : ℝ) : 0 ≤ sig v * (1 - sig v) ∧ sig v * (1 - sig v) ≤ 1 / 4 := by
  have h0 := sig_pos v
  have h1 := sig_lt_one v
  exact ⟨mul_nonneg h0.le (by linarith), by nlinarith [sq_nonneg (sig v - 1 / 2)]⟩

theorem sig_lipschitz (u v : ℝ) : |sig u - sig v| ≤ 1 / 4 * |u - v| := by
  have := (convex_univ (𝕜 := ℝ) (E := ℝ)).norm_image_sub_le_of_norm_hasDerivWithin_le
    (f := sig) (f' := fun v => sig v * (1 - sig v)) (C := 1 / 4) (x := v) (y := u)
    (fun x _ => (sig_deriv x).hasDerivWithinAt)
    (fun x _ => by
      rw [Real.norm_eq_abs, abs_of_nonneg (sig_var_bound x).1]; exact (sig_var_bound x).2)
    (Set.mem_univ _) (Set.mem_univ _)
  simpa [Real.norm_eq_abs] using this

/-- A linear step from `v` predicts the change of the logistic function to within a quarter of it. -/
theorem sig_step (v t : ℝ) : |sig v * (1 - sig v) * t - (sig (v + t) - sig v)| ≤ 1 / 4 * |t| := by
  obtain ⟨h0, h1⟩ := sig_var_bound v
  have hl := sig_lipschitz (v + t) v
  rw [add_sub_cancel_left] at hl
  rcases le_total 0 t with ht | ht
  · have hm : sig v ≤ sig (v + t) := sig_mono.monotone (by linarith)
    rw [abs_of_nonneg (by linarith : 0 ≤ sig (v + t) - sig v), abs_of_nonneg ht] at hl
    rw [abs_of_nonneg ht, abs_le]
    constructor <;> nlinarith [mul_nonneg h0 ht, mul_le_mul_of_nonneg_right h1 ht]
  · have hm : sig (v + t) ≤ sig v := sig_mono.monotone (by linarith)
    rw [abs_of_nonpos (by linarith : sig (v + t) - sig v ≤ 0), abs_of_nonpos ht] at hl
    rw [abs_of_nonpos ht, abs_le]
    have ht' : 0 ≤ -t := by linarith
    constructor <;> nlinarith [mul_nonneg h0 ht', mul_le_mul_of_nonneg_right h1 ht']

/-- The softplus function lies above its tangents. -/
theorem softplus_tangent (u v : ℝ) :
    Real.log (1 + Real.exp v) + sig v * (u - v) ≤ Real.log (1 + Real.exp u) := by
  have h0 := sig_pos v
  have h1 := sig_lt_one v
  have hc := strictConcaveOn_log_Ioi.concaveOn.2 (x := Real.exp (u - v)) (y := 1)
    (Set.mem_Ioi.2 (Real.exp_pos _)) (Set.mem_Ioi.2 one_pos) h0.le (by linarith : 0 ≤ 1 - sig v)
    (by ring)
  simp only [smul_eq_mul, Real.log_exp, Real.log_one, mul_zero, add_zero, mul_one] at hc
  have hev := Real.exp_pos v
  have heu := Real.exp_pos u
  have e : sig v * Real.exp (u - v) + (1 - sig v) = (1 + Real.exp u) / (1 + Real.exp v) := by
    unfold sig
    rw [Real.exp_sub, Real.exp_neg]
    field_simp
    ring
  rw [e, Real.log_div (by positivity) (by positivity)] at hc
  linarith

theorem log_terms (y v : ℝ) :
    y * Real.log (sig v) + (1 - y) * Real.log (1 - sig v) = y * v - Real.log (1 + Real.exp v) := by
  have he := Real.exp_pos v
  have h1 : sig v = Real.exp v / (1 + Real.exp v) := by
    unfold sig; rw [Real.exp_neg]; field_simp; ring
  have h2 : 1 - sig v = 1 / (1 + Real.exp v) := by rw [h1]; field_simp; ring
  rw [h2, h1, Real.log_div (by positivity) (by positivity), Real.log_exp,
    Real.log_div (by norm_num) (by positivity), Real.log_one]
  ring

variable {m n : ℕ}

theorem prob_eq (x : Matrix (Fin m) (Fin n) ℝ) (c : Fin (n + 1) → ℝ) (i : Fin m) :
    Spec.prob (c 0) (fun j => c j.succ) (x i) = sig ((withOnes x *ᵥ c) i) := by
  rw [withOnes_mulVec]; rfl

theorem mu_eq (x : Matrix (Fin m) (Fin n) ℝ) (c : Fin (n + 1) → ℝ) (i : Fin m) :
    irlsMu x c i = sig ((withOnes x *ᵥ c) i) := rfl

theorem logLik_eq (x : Matrix (Fin m) (Fin n) ℝ) (y : Fin m → ℝ) (c : Fin (n + 1) → ℝ) :
    Spec.logLik x y (c 0) (fun j => c j.succ) =
      ∑ i, (y i * (withOnes x *ᵥ c) i - Real.log (1 + Real.exp ((withOnes x *ᵥ c) i))) := by
  unfold Spec.logLik
  refine Finset.sum_congr rfl fun i _ => ?_
  rw [prob_eq, log_terms]

/-- The log-likelihood lies below its tangents. -/
theorem logLik_tangent (x : Matrix (Fin m) (Fin n) ℝ) (y : Fin m → ℝ) (c e : Fin (n + 1) → ℝ) :
    Spec.logLik x y (e 0) (fun j => e j.succ) ≤ Spec.logLik x y (c 0) (fun j => c j.succ) +
      ∑ j, ((withOnes x)ᵀ *ᵥ (y - irlsMu x c)) j * (e j - c j) := by
  rw [logLik_eq, logLik_eq]
  have hsum : ∑ j, ((withOnes x)ᵀ *ᵥ (y - irlsMu x c)) j * (e j - c j) =
      ∑ i, (y i - irlsMu x c i) * ((withOnes x *ᵥ e) i - (withOnes x *ᵥ c) i) := by
    have h1 : ((withOnes x)ᵀ *ᵥ (y - irlsMu x c)) ⬝ᵥ (e - c) =
        (y - irlsMu x c) ⬝ᵥ (withOnes x *ᵥ (e - c)) := by
      rw [dotProduct_comm, dotProduct_mulVec, vecMul_transpose, dotProduct_comm]
    rw [mulVec_sub (withOnes x) e c] at h1
    exact h1
  rw [hsum, ← Finset.sum_add_distrib]
  refine Finset.sum_le_sum fun i _ => ?_
  have := softplus_tangent ((withOnes x *ᵥ e) i) ((withOnes x *ᵥ c) i)
  rw [mu_eq]
  nlinarith

theorem irls_ends (x : Matrix (Fin m) (Fin n) ℝ) (y : Fin m → ℝ) (tol : ℝ) (fuel : ℕ) :
    ∀ (prev out c : Fin (n + 1) → ℝ) (it it' : ℕ), irls x y tol fuel prev out it = .ok c it' →
      (c = out ∧ it' = it ∧ √(∑ j, (prev j - c j) ^ 2) < tol) ∨
      (∀ i, y i - irlsMu x c i < tol) ∨
      ∃ p : Fin (n + 1) → ℝ, √(∑ j, (p j - c j) ^ 2) < tol ∧
        irlsHessian x (irlsMu x p) *ᵥ (c - p) = (withOnes x)ᵀ *ᵥ (y - irlsMu x p) := by
  induction fuel with
  | zero => intro prev out c it it' h; simp [irls] at h
  | succ fuel ih =>
    intro prev out c it it' h
    unfold irls at h
    dsimp only at h
    split_ifs at h with h1 h2 h3
    · simp only [IrlsResult.ok.injEq] at h
      obtain ⟨rfl, rfl⟩ := h
      exact Or.inr (Or.inl h2)
    · have hstep : irlsHessian x (irlsMu x out) *ᵥ
          ((out + (irlsHessian x (irlsMu x out))⁻¹ *ᵥ ((withOnes x)ᵀ *ᵥ (y - irlsMu x out))) - out) =
          (withOnes x)ᵀ *ᵥ (y - irlsMu x out) := by
        rw [add_sub_cancel_left, mulVec_mulVec,
          mul_nonsing_inv _ (isUnit_iff_ne_zero.2 h3), one_mulVec]
      rcases ih _ _ c _ it' h with ⟨rfl, -, hlt⟩ | h' | h'
      · exact Or.inr (Or.inr ⟨out, hlt, hstep⟩)
      · exact Or.inr (Or.inl h')
      · exact Or.inr (Or.inr h')
    · simp only [IrlsResult.ok.injEq] at h
      obtain ⟨rfl, rfl⟩ := h
      exact Or.inl ⟨rfl, rfl, not_le.1 h1⟩

/-- The iterates of the loop from `out` on: `k` Newton steps, none of which the loop would have stopped before. -/
theorem irls_steps (x : Matrix (Fin m) (Fin n) ℝ) (y : Fin m → ℝ) (tol : ℝ) (fuel : ℕ) :
    ∀ (prev out c : Fin (n + 1) → ℝ) (it it' : ℕ), irls x y tol fuel prev out it = .ok c it' →
      ∃ (k : ℕ) (f : ℕ → Fin (n + 1) → ℝ), it' = it + k ∧ f 0 = prev ∧ f 1 = out ∧ f (k + 1) = c ∧
        ∀ i < k, tol ≤ √(∑ j, (f i j - f (i + 1) j) ^ 2) ∧ (∃ s, tol ≤ y s - irlsMu x (f (i + 1)) s) ∧
          irlsHessian x (irlsMu x (f (i + 1))) *ᵥ (f (i + 2) - f (i + 1)) =
            (withOnes x)ᵀ *ᵥ (y - irlsMu x (f (i + 1))) := by
  induction fuel with
  | zero => intro prev out c it it' h; simp [irls] at h
  | succ fuel ih =>
    intro prev out c it it' h
    unfold irls at h
    dsimp only at h
    split_ifs at h with h1 h2 h3
    · simp only [IrlsResult.ok.injEq] at h
      obtain ⟨rfl, rfl⟩ := h
      exact ⟨0, fun i => if i = 0 then prev else out, rfl, rfl, rfl, rfl, fun i hi => absurd hi (Nat.not_lt_zero i)⟩
    · have hstep : irlsHessian x (irlsMu x out) *ᵥ
          ((out + (irlsHessian x (irlsMu x out))⁻¹ *ᵥ ((withOnes x)ᵀ *ᵥ (y - irlsMu x out))) - out) =
          (withOnes x)ᵀ *ᵥ (y - irlsMu x out) := by
        rw [add_sub_cancel_left, mulVec_mulVec,
          mul_nonsing_inv _ (isUnit_iff_ne_zero.2 h3), one_mulVec]
      obtain ⟨k, f, e1, e2, e3, e4, e5⟩ := ih _ _ c _ it' h
      push Not at h2
      refine ⟨k + 1, fun i => Nat.casesOn i prev f, by omega, rfl, e2, e4, fun i hi => ?_⟩
      cases i with
      | zero =>
        show tol ≤ √(∑ j, (prev j - f 0 j) ^ 2) ∧ (∃ s, tol ≤ y s - irlsMu x (f 0) s) ∧
          irlsHessian x (irlsMu x (f 0)) *ᵥ (f 1 - f 0) = (withOnes x)ᵀ *ᵥ (y - irlsMu x (f 0))
        rw [e2, e3]
        exact ⟨h1, h2, hstep⟩
      | succ i => exact e5 i (by omega)
    · simp only [IrlsResult.ok.injEq] at h
      obtain ⟨rfl, rfl⟩ := h
      exact ⟨0, fun i => if i = 0 then prev else out, rfl, rfl, rfl, rfl, fun i hi => absurd hi (Nat.not_lt_zero i)⟩

theorem hessian_mulVec (x : Matrix (Fin m) (Fin n) ℝ) (mu : Fin m → ℝ) (d : Fin (n + 1) → ℝ)
    (j : Fin (n + 1)) :
    (irlsHessian x mu *ᵥ d) j = ∑ i, withOnes x i j * (mu i * (1 - mu i) * (withOnes x *ᵥ d) i) := by
  unfold irlsHessian
  rw [← mulVec_mulVec]
  simp only [mulVec, dotProduct, of_apply]
  exact Finset.sum_congr rfl fun i _ => by ring

/-- After a small Newton step the gradient of the log-likelihood is small. -/
theorem gradient_after_step (x : Matrix (Fin m) (Fin n) ℝ) (y : Fin m → ℝ) {tol : ℝ}
    (p c : Fin (n + 1) → ℝ) (hlt : √(∑ j, (p j - c j) ^ 2) < tol)
    (hstep : irlsHessian x (irlsMu x p) *ᵥ (c - p) = (withOnes x)ᵀ *ᵥ (y - irlsMu x p))
    (j : Fin (n + 1)) :
    |((withOnes x)ᵀ *ᵥ (y - irlsMu x c)) j| ≤ tol / 4 * ∑ k, Spec.absMoment x j k := by
  have hd : ∀ k, |(c - p) k| ≤ tol := by
    intro k
    refine le_trans ?_ hlt.le
    rw [← Real.sqrt_sq_eq_abs]
    refine Real.sqrt_le_sqrt ?_
    have : ((c - p) k) ^ 2 = (p k - c k) ^ 2 := by simp only [Pi.sub_apply]; ring
    rw [this]
    exact Finset.single_le_sum (f := fun k => (p k - c k) ^ 2) (fun k _ => sq_nonneg _)
      (Finset.mem_univ k)
  have hg : ((withOnes x)ᵀ *ᵥ (y - irlsMu x c)) j = ∑ i, withOnes x i j *
      (irlsMu x p i * (1 - irlsMu x p i) * (withOnes x *ᵥ (c - p)) i -
        (irlsMu x c i - irlsMu x p i)) := by
    have h1 : ((withOnes x)ᵀ *ᵥ (y - irlsMu x c)) j = ((withOnes x)ᵀ *ᵥ (y - irlsMu x p)) j -
        ∑ i, withOnes x i j * (irlsMu x c i - irlsMu x p i) := by
      simp only [mulVec, dotProduct, transpose_apply, Pi.sub_apply, ← Finset.sum_sub_distrib]
      exact Finset.sum_congr rfl fun i _ => by ring
    rw [h1, ← hstep, hessian_mulVec, ← Finset.sum_sub_distrib]
    exact Finset.sum_congr rfl fun i _ => by ring
  rw [hg]
  calc |∑ i, withOnes x i j * (irlsMu x p i * (1 - irlsMu x p i) * (withOnes x *ᵥ (c - p)) i -
        (irlsMu x c i - irlsMu x p i))|
      ≤ ∑ i, |withOnes x i j * (irlsMu x p i * (1 - irlsMu x p i) * (withOnes x *ᵥ (c - p)) i -
        (irlsMu x c i - irlsMu x p i))| := Finset.abs_sum_le_sum_abs _ _
    _ ≤ ∑ i, |withOnes x i j| * (1 / 4 * ∑ k, |withOnes x i k| * tol) := by
        refine Finset.sum_le_sum fun i _ => ?_
        rw [abs_mul]
        refine mul_le_mul_of_nonneg_left ?_ (abs_nonneg _)
        have hs := sig_step ((withOnes x *ᵥ p) i) ((withOnes x *ᵥ (c - p)) i)
        have he : (withOnes x *ᵥ p) i + (withOnes x *ᵥ (c - p)) i = (withOnes x *ᵥ c) i := by
          rw [mulVec_sub, Pi.sub_apply]; ring
        rw [he, ← mu_eq, ← mu_eq] at hs
        refine hs.trans ?_
        refine mul_le_mul_of_nonneg_left ?_ (by norm_num)
        have hv : (withOnes x *ᵥ (c - p)) i = ∑ k, withOnes x i k * (c - p) k := rfl
        rw [hv]
        calc |∑ k, withOnes x i k * (c - p) k| ≤ ∑ k, |withOnes x i k * (c - p) k| :=
              Finset.abs_sum_le_sum_abs _ _
          _ ≤ ∑ k, |withOnes x i k| * tol := by
              refine Finset.sum_le_sum fun k _ => ?_
              rw [abs_mul]
              exact mul_le_mul_of_nonneg_left (hd k) (abs_nonneg _)
    _ = tol / 4 * ∑ k, Spec.absMoment x j k := by
        unfold Spec.absMoment
        rw [Finset.sum_comm, Finset.mul_sum]
        refine Finset.sum_congr rfl fun i _ => ?_
        rw [Finset.mul_sum, Finset.mul_sum, Finset.mul_sum]
        refine Finset.sum_congr rfl fun k _ => ?_
        show |withOnes x i j| * (1 / 4 * (|withOnes x i k| * tol)) =
          tol / 4 * (|withOnes x i j| * |withOnes x i k|)
        ring

end Verif.ML
