import Verif.ImpliedVol.Spec
import Verif.Options.BsmLemmas
import Mathlib.Analysis.SpecialFunctions.Gaussian.GaussianIntegral
import Mathlib.MeasureTheory.Integral.IntegralEqImproper
import Mathlib.MeasureTheory.Integral.Gamma

/-! Helper lemmas: the ratio `Φ/φ` as an integral and the moments of the same kernel. -/

namespace Verif.ImpliedVol

open Real MeasureTheory Set
open Verif.Options.Bsm

/-- The kernel `exp(z u - u²/2)`. -/
noncomputable def kern (z u : ℝ) : ℝ := exp (z * u - u ^ 2 / 2)

/-- Its moments on the half line. -/
noncomputable def M (k : ℕ) (z : ℝ) : ℝ := ∫ u in Ioi (0:ℝ), u ^ k * kern z u

theorem kern_pos (z u : ℝ) : 0 < kern z u := exp_pos _

theorem kern_continuous (z : ℝ) : Continuous (kern z) := by unfold kern; fun_prop

theorem kern_le (z u : ℝ) : kern z u ≤ exp (z ^ 2) * exp (-(1 / 4) * u ^ 2) := by
  rw [kern, ← exp_add]
  exact exp_le_exp.2 (by nlinarith [sq_nonneg (z - u / 2)])

theorem pow_kern_integrable (k : ℕ) (z : ℝ) : IntegrableOn (fun u => u ^ k * kern z u) (Ioi 0) := by
  have h0 := integrable_rpow_mul_exp_neg_mul_sq (b := 1 / 4) (by norm_num) (s := k)
    (by have : (0:ℝ) ≤ k := Nat.cast_nonneg k; linarith)
  have h : Integrable (fun u : ℝ => exp (z ^ 2) * (u ^ k * exp (-(1 / 4) * u ^ 2))) := by
    refine (h0.const_mul (exp (z ^ 2))).congr (Filter.Eventually.of_forall fun u => ?_)
    simp only [rpow_natCast]
  refine h.integrableOn.mono' (by
    exact ((continuous_pow k).mul (kern_continuous z)).aestronglyMeasurable) ?_
  refine (ae_restrict_iff' measurableSet_Ioi).2 (Filter.Eventually.of_forall fun u hu => ?_)
  have hu : (0:ℝ) < u := hu
  rw [norm_of_nonneg (by have := kern_pos z u; positivity)]
  have := kern_le z u
  have hk : (0:ℝ) ≤ u ^ k := by positivity
  nlinarith

theorem kern_deriv (z u : ℝ) : HasDerivAt (kern z) ((z - u) * kern z u) u := by
  have h := (((hasDerivAt_id u).const_mul z).sub ((hasDerivAt_pow 2 u).div_const 2)).exp
  refine h.congr_deriv ?_
  simp only [id, kern, Pi.sub_apply]
  push_cast; ring

/-- `Φ(z) = φ(z) ∫ exp(z u - u²/2) du` over the positive half line. -/
theorem N_eq (z : ℝ) : N z = n z * M 0 z := by
  have h := integral_Ioi_shift n 0 z
  rw [zero_sub, ← N_Ioi] at h
  rw [← h, M, ← integral_const_mul]
  refine setIntegral_congr_fun measurableSet_Ioi fun u _ => ?_
  simp only [n_eq, kern, pow_zero, one_mul]
  rw [mul_assoc, ← exp_add]; congr 2; ring

theorem M_zero_rec (z : ℝ) : M 1 z = 1 + z * M 0 z := by
  have hd : ∀ u ∈ Ici (0:ℝ), HasDerivAt (kern z) (z * (u ^ 0 * kern z u) - u ^ 1 * kern z u) u := fun u _ =>
    (kern_deriv z u).congr_deriv (by ring)
  have hi : IntegrableOn (fun u => z * (u ^ 0 * kern z u) - u ^ 1 * kern z u) (Ioi 0) :=
    ((pow_kern_integrable 0 z).const_mul z).sub (pow_kern_integrable 1 z)
  have hk : IntegrableOn (kern z) (Ioi 0) := by simpa using pow_kern_integrable 0 z
  have ht := tendsto_zero_of_hasDerivAt_of_integrableOn_Ioi (fun u hu => hd u (Ioi_subset_Ici_self hu)) hi hk
  have h := integral_Ioi_of_hasDerivAt_of_tendsto' hd hi ht
  rw [integral_sub ((pow_kern_integrable 0 z).const_mul z) (pow_kern_integrable 1 z), integral_const_mul] at h
  have : kern z 0 = 1 := by simp [kern]
  rw [this] at h
  simp only [M]; linarith

theorem M_rec (k : ℕ) (z : ℝ) : M (k + 2) z = z * M (k + 1) z + (k + 1) * M k z := by
  have hd : ∀ u ∈ Ici (0:ℝ), HasDerivAt (fun u => u ^ (k + 1) * kern z u)
      ((z * (u ^ (k + 1) * kern z u) + (k + 1) * (u ^ k * kern z u)) - u ^ (k + 2) * kern z u) u := fun u _ => by
    refine ((hasDerivAt_pow (k + 1) u).fun_mul (kern_deriv z u)).congr_deriv ?_
    push_cast; ring
  have i1 := (pow_kern_integrable (k + 1) z).const_mul z
  have i2 := (pow_kern_integrable k z).const_mul ((k:ℝ) + 1)
  have i12 : IntegrableOn (fun u => z * (u ^ (k + 1) * kern z u) + (k + 1) * (u ^ k * kern z u)) (Ioi 0) := i1.add i2
  have hi : IntegrableOn (fun u => z * (u ^ (k + 1) * kern z u) + (k + 1) * (u ^ k * kern z u)
    - u ^ (k + 2) * kern z u) (Ioi 0) := i12.sub (pow_kern_integrable (k + 2) z)
  have ht := tendsto_zero_of_hasDerivAt_of_integrableOn_Ioi (fun u hu => hd u (Ioi_subset_Ici_self hu)) hi
    (pow_kern_integrable (k + 1) z)
  have h := integral_Ioi_of_hasDerivAt_of_tendsto' hd hi ht
  rw [integral_sub i12 (pow_kern_integrable (k + 2) z), integral_add i1 i2, integral_const_mul,
    integral_const_mul] at h
  simp only [M]
  simp at h
  linarith

theorem M_pos (k : ℕ) (z : ℝ) : 0 < M k z := by
  rw [M, setIntegral_pos_iff_support_of_nonneg_ae
    ((ae_restrict_iff' measurableSet_Ioi).2 (Filter.Eventually.of_forall fun u (hu : 0 < u) => by
      have := kern_pos z u; simp only [Pi.zero_apply]; positivity)) (pow_kern_integrable k z)]
  refine lt_of_lt_of_le (b := volume (Ioi (0:ℝ))) (by simp) (measure_mono fun u hu => ⟨?_, hu⟩)
  have hu : (0:ℝ) < u := hu
  have := kern_pos z u
  simp only [Function.mem_support]; positivity

end Verif.ImpliedVol
