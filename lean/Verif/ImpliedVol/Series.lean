import Verif.ImpliedVol.Moments
import Mathlib.Analysis.SpecialFunctions.Trigonometric.Series
import Mathlib.Analysis.SpecialFunctions.Exponential
import Mathlib.Analysis.Calculus.Deriv.MeanValue

/-! Helper lemmas: Taylor bounds for `sinh` and `exp`, and a correlation inequality. -/

namespace Verif.ImpliedVol

open Real MeasureTheory Set

/-- The Taylor sum of `sinh` with `m` terms. -/
noncomputable def sinhSum (m : ℕ) (z : ℝ) : ℝ := ∑ k ∈ Finset.range m, z ^ (2 * k + 1) / (2 * k + 1).factorial

theorem sinhSum_le (m : ℕ) (z : ℝ) (hz : 0 ≤ z) : sinhSum m z ≤ sinh z := by
  have h := Real.hasSum_sinh z
  exact sum_le_hasSum _ (fun k _ => by positivity) h

theorem sinh_le (m : ℕ) (z : ℝ) (hz : 0 ≤ z) :
    sinh z ≤ sinhSum m z + z ^ (2 * m + 1) / (2 * m + 1).factorial * cosh z := by
  have h := (hasSum_nat_add_iff' m).2 (Real.hasSum_sinh z)
  have hc := (Real.hasSum_cosh z).mul_left (z ^ (2 * m + 1) / (2 * m + 1).factorial)
  have := hasSum_le (fun k => ?_) h hc
  · rw [sinhSum]; linarith
  · have hf : ((2 * m + 1).factorial : ℝ) * (2 * k).factorial ≤ (2 * (k + m) + 1).factorial := by
      have := Nat.factorial_mul_factorial_dvd_factorial_add (2 * m + 1) (2 * k)
      rw [show 2 * (k + m) + 1 = 2 * m + 1 + 2 * k by ring]
      exact_mod_cast Nat.le_of_dvd (Nat.factorial_pos _) this
    rw [div_mul_div_comm, ← pow_add, show 2 * m + 1 + 2 * k = 2 * (k + m) + 1 by ring]
    gcongr

/-- The Taylor sum of `exp (-y)` with `m` terms. -/
noncomputable def expSum (m : ℕ) (y : ℝ) : ℝ := ∑ k ∈ Finset.range m, (-1 : ℝ) ^ k * y ^ k / k.factorial

theorem expSum_deriv (m : ℕ) (y : ℝ) : HasDerivAt (expSum (m + 1)) (-expSum m y) y := by
  have e : expSum (m + 1) = fun y => (∑ k ∈ Finset.range m, (-1 : ℝ) ^ (k + 1) * y ^ (k + 1) / (k + 1).factorial) + 1 := by
    funext y; rw [expSum, Finset.sum_range_succ']; simp
  rw [e]
  have : HasDerivAt (fun y : ℝ => ∑ k ∈ Finset.range m, (-1 : ℝ) ^ (k + 1) * y ^ (k + 1) / (k + 1).factorial)
      (∑ k ∈ Finset.range m, -((-1 : ℝ) ^ k * y ^ k / k.factorial)) y := by
    refine HasDerivAt.fun_sum fun k _ => ?_
    refine (((hasDerivAt_pow (k + 1) y).const_mul ((-1) ^ (k + 1))).div_const _).congr_deriv ?_
    rw [Nat.factorial_succ]
    have : (0:ℝ) < k.factorial := by positivity
    push_cast
    field_simp
    ring
  refine (this.add_const 1).congr_deriv ?_
  rw [expSum, Finset.sum_neg_distrib]

/-- The remainder has the sign of the first omitted term and is at most that term. -/
theorem exp_remainder (m : ℕ) : ∀ y : ℝ, 0 ≤ y → 0 ≤ (-1) ^ m * (exp (-y) - expSum m y) ∧
    (-1) ^ m * (exp (-y) - expSum m y) ≤ y ^ m / m.factorial := by
  induction m with
  | zero => intro y hy; simp [expSum, exp_nonneg, hy]
  | succ m ih =>
    have hd : ∀ y, HasDerivAt (fun y => (-1) ^ (m + 1) * (exp (-y) - expSum (m + 1) y))
        ((-1) ^ m * (exp (-y) - expSum m y)) y := fun y => by
      refine ((((hasDerivAt_id y).fun_neg.exp).fun_sub (expSum_deriv m y)).const_mul ((-1) ^ (m + 1))).congr_deriv ?_
      simp only [id]; ring
    have hp : ∀ y, HasDerivAt (fun y : ℝ => y ^ (m + 1) / (m + 1).factorial) (y ^ m / m.factorial) y := fun y => by
      refine ((hasDerivAt_pow (m + 1) y).div_const _).congr_deriv ?_
      rw [Nat.factorial_succ]
      have : (0:ℝ) < m.factorial := by positivity
      push_cast
      field_simp
    have h0 : expSum (m + 1) 0 = 1 := by
      rw [expSum, Finset.sum_range_succ']; simp
    have key : ∀ g g' : ℝ → ℝ, (∀ y, HasDerivAt g (g' y) y) → (∀ y, 0 ≤ y → 0 ≤ g' y) → g 0 = 0 →
        ∀ y, 0 ≤ y → 0 ≤ g y := fun g g' hg hg' hg0 y hy => by
      have hm : MonotoneOn g (Ici 0) := monotoneOn_of_deriv_nonneg (convex_Ici 0)
        (fun y _ => (hg y).continuousAt.continuousWithinAt) (fun y _ => (hg y).differentiableAt.differentiableWithinAt)
        (fun y hy => by rw [(hg y).deriv]; exact hg' y (by simpa using interior_subset hy))
      rw [← hg0]; exact hm (by simp) hy hy
    intro y hy
    refine ⟨key _ _ hd (fun y hy => (ih y hy).1) (by simp [h0]) y hy, ?_⟩
    have := key _ _ (fun y => (hp y).fun_sub (hd y)) (fun y hy => sub_nonneg.2 (ih y hy).2) (by simp [h0]) y hy
    linarith

/-- Chebyshev's correlation inequality: an increasing and a decreasing function are negatively correlated. -/
theorem correlation {w f g : ℝ → ℝ} (hw : ∀ u, 0 < u → 0 ≤ w u) (h1 : ∫ u in Ioi (0:ℝ), w u = 1)
    (wi : IntegrableOn w (Ioi 0)) (fi : IntegrableOn (fun u => f u * w u) (Ioi 0))
    (gi : IntegrableOn (fun u => g u * w u) (Ioi 0)) (fgi : IntegrableOn (fun u => f u * (g u * w u)) (Ioi 0))
    (fm : MonotoneOn f (Ici 0)) (gm : AntitoneOn g (Ici 0)) (u0 : ℝ) (hu0 : 0 ≤ u0)
    (hf : f u0 = ∫ u in Ioi (0:ℝ), f u * w u) :
    ∫ u in Ioi (0:ℝ), f u * (g u * w u) ≤ (∫ u in Ioi (0:ℝ), f u * w u) * ∫ u in Ioi (0:ℝ), g u * w u := by
  rw [← hf]
  have h : 0 ≤ ∫ u in Ioi (0:ℝ), (f u - f u0) * (g u0 - g u) * w u := by
    refine setIntegral_nonneg measurableSet_Ioi fun u (hu : 0 < u) => mul_nonneg ?_ (hw u hu)
    rcases le_total u u0 with h | h
    · exact mul_nonneg_of_nonpos_of_nonpos (sub_nonpos.2 (fm hu.le hu0 h)) (sub_nonpos.2 (gm hu.le hu0 h))
    · exact mul_nonneg (sub_nonneg.2 (fm hu0 hu.le h)) (sub_nonneg.2 (gm hu0 hu.le h))
  have e : ∀ u, (f u - f u0) * (g u0 - g u) * w u =
      ((g u0 * (f u * w u) - f u * (g u * w u)) - f u0 * g u0 * w u) + f u0 * (g u * w u) := fun u => by ring
  simp only [e] at h
  have a1 : IntegrableOn (fun u => g u0 * (f u * w u) - f u * (g u * w u)) (Ioi 0) := (fi.const_mul _).sub fgi
  have a2 : IntegrableOn (fun u => g u0 * (f u * w u) - f u * (g u * w u) - f u0 * g u0 * w u) (Ioi 0) :=
    a1.sub (wi.const_mul _)
  rw [integral_add a2 (gi.const_mul _), integral_sub a1 (wi.const_mul _), integral_sub (fi.const_mul _) fgi,
    integral_const_mul, integral_const_mul, integral_const_mul, h1, ← hf] at h
  linarith

end Verif.ImpliedVol
