import Verif.ML.Regression
import Verif.ML.Spec
import Mathlib.LinearAlgebra.Matrix.ToLinearEquiv
import Mathlib.LinearAlgebra.Matrix.DotProduct
import Mathlib.Tactic

/-! Least squares algebra. -/

namespace Verif.ML

open Matrix

variable {m n k : ℕ}

theorem dot_self (v : Fin m → ℝ) : v ⬝ᵥ v = ∑ i, v i ^ 2 := by
  simp only [dotProduct, sq]

theorem dot_self_nonneg (v : Fin m → ℝ) : 0 ≤ v ⬝ᵥ v := by
  rw [dot_self]; positivity

theorem dot_self_zero {v : Fin m → ℝ} (h : v ⬝ᵥ v = 0) : v = 0 := dotProduct_self_eq_zero.1 h

theorem dot_gram (A : Matrix (Fin m) (Fin k) ℝ) (u v : Fin k → ℝ) :
    u ⬝ᵥ ((Aᵀ * A) *ᵥ v) = (A *ᵥ u) ⬝ᵥ (A *ᵥ v) := by
  rw [← mulVec_mulVec, dotProduct_mulVec, vecMul_transpose]

/-- Completing the square for a quadratic form with symmetric matrix. -/
theorem quad_complete (A : Matrix (Fin m) (Fin k) ℝ) (D : Matrix (Fin k) (Fin k) ℝ)
    (hD : Dᵀ = D) (y : Fin m → ℝ) (c b : Fin k → ℝ)
    (hc : (Aᵀ * A + D) *ᵥ c = Aᵀ *ᵥ y) :
    (y - A *ᵥ b) ⬝ᵥ (y - A *ᵥ b) + b ⬝ᵥ (D *ᵥ b) =
      (y - A *ᵥ c) ⬝ᵥ (y - A *ᵥ c) + c ⬝ᵥ (D *ᵥ c) +
        (b - c) ⬝ᵥ ((Aᵀ * A + D) *ᵥ (b - c)) := by
  have hsym : ∀ u v : Fin k → ℝ, u ⬝ᵥ (D *ᵥ v) = v ⬝ᵥ (D *ᵥ u) := by
    intro u v
    rw [dotProduct_mulVec, ← mulVec_transpose, hD, dotProduct_comm]
  have e1 : ∀ u : Fin k → ℝ, u ⬝ᵥ (Aᵀ *ᵥ y) = y ⬝ᵥ (A *ᵥ u) := by
    intro u
    rw [dotProduct_mulVec, vecMul_transpose, dotProduct_comm]
  have e2 : ∀ u : Fin k → ℝ, (A *ᵥ u) ⬝ᵥ (A *ᵥ c) + u ⬝ᵥ (D *ᵥ c) = y ⬝ᵥ (A *ᵥ u) := by
    intro u
    rw [← e1, ← hc, add_mulVec, dotProduct_add, dot_gram]
  have hb := e2 b
  have hcc := e2 c
  have hs := hsym c b
  have hcomm : (A *ᵥ c) ⬝ᵥ (A *ᵥ b) = (A *ᵥ b) ⬝ᵥ (A *ᵥ c) := dotProduct_comm _ _
  have hyb : (A *ᵥ b) ⬝ᵥ y = y ⬝ᵥ (A *ᵥ b) := dotProduct_comm _ _
  have hyc : (A *ᵥ c) ⬝ᵥ y = y ⬝ᵥ (A *ᵥ c) := dotProduct_comm _ _
  rw [add_mulVec, dotProduct_add, dot_gram]
  simp only [mulVec_sub, sub_dotProduct, dotProduct_sub]
  linarith

theorem tryInverse_none {A : Matrix (Fin k) (Fin k) ℝ} : tryInverse A = none ↔ A.det = 0 := by
  unfold tryInverse; split_ifs with h <;> simp [h]

theorem tryInverse_some {A B : Matrix (Fin k) (Fin k) ℝ} (h : tryInverse A = some B) :
    A.det ≠ 0 ∧ A * B = 1 ∧ B * A = 1 := by
  unfold tryInverse at h
  split_ifs at h with h0
  simp only [Option.some.injEq] at h
  subst h
  have hu : IsUnit A.det := isUnit_iff_ne_zero.2 h0
  exact ⟨h0, mul_nonsing_inv A hu, nonsing_inv_mul A hu⟩

theorem tryInverse_of_inv {A B : Matrix (Fin k) (Fin k) ℝ} (h : A * B = 1) :
    tryInverse A = some B := by
  unfold tryInverse
  rw [if_neg, inv_eq_right_inv h]
  intro h0
  have := congrArg Matrix.det h
  rw [det_mul, h0, zero_mul, det_one] at this
  norm_num at this

theorem gram_det_zero (A : Matrix (Fin m) (Fin k) ℝ) :
    (Aᵀ * A).det = 0 ↔ ∃ v, v ≠ 0 ∧ A *ᵥ v = 0 := by
  rw [← exists_mulVec_eq_zero_iff]
  constructor
  · rintro ⟨v, hv, h⟩
    refine ⟨v, hv, dot_self_zero ?_⟩
    rw [← dot_gram, h, dotProduct_zero]
  · rintro ⟨v, hv, h⟩
    exact ⟨v, hv, by rw [← mulVec_mulVec, h, mulVec_zero]⟩

theorem withOnes_mulVec (x : Matrix (Fin m) (Fin n) ℝ) (c : Fin (n + 1) → ℝ) (i : Fin m) :
    (withOnes x *ᵥ c) i = Spec.affine (c 0) (fun j => c j.succ) (x i) := by
  unfold withOnes Spec.affine mulVec dotProduct
  rw [Fin.sum_univ_succ]
  simp

theorem rss_eq (x : Matrix (Fin m) (Fin n) ℝ) (y : Fin m → ℝ) (c : Fin (n + 1) → ℝ) :
    (y - withOnes x *ᵥ c) ⬝ᵥ (y - withOnes x *ᵥ c) =
      Spec.rss x y (c 0) (fun j => c j.succ) := by
  rw [dot_self]
  unfold Spec.rss
  refine Finset.sum_congr rfl fun i _ => ?_
  rw [Pi.sub_apply, withOnes_mulVec]

theorem collinear_iff (x : Matrix (Fin m) (Fin n) ℝ) :
    Spec.Collinear x ↔ ∃ v, v ≠ 0 ∧ withOnes x *ᵥ v = 0 := by
  constructor
  · rintro ⟨a, b, hne, h⟩
    refine ⟨Fin.cons a b, ?_, ?_⟩
    · intro h0
      rcases hne with ha | hb
      · exact ha (by simpa using congrFun h0 0)
      · refine hb (funext fun j => ?_)
        simpa using congrFun h0 j.succ
    · funext i
      rw [withOnes_mulVec]
      simpa using h i
  · rintro ⟨v, hv, h⟩
    refine ⟨v 0, fun j => v j.succ, ?_, fun i => ?_⟩
    · by_contra hc
      push Not at hc
      refine hv (funext fun j => ?_)
      refine Fin.cases ?_ (fun j => ?_) j
      · exact hc.1
      · exact congrFun hc.2 j
    · rw [← withOnes_mulVec, h]; rfl

end Verif.ML
