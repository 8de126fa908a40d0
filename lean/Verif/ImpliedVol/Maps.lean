import Verif.ImpliedVol.Calculus

/-! Helper lemmas about the two maps used for the initial guesses. -/

namespace Verif.ImpliedVol

open Real Set Classical
open Verif.Options.Bsm Verif.Distributions

theorem not_below (x : ℝ) : ¬ isBelowHorizon x := by simp [isBelowHorizon, cutoff]

theorem invN_N (z : ℝ) : invN (N z) = z := by
  have e : 2 * N z - 1 = erf (z / √2) := by
    rw [Gaussian.erf_eq, mul_div_cancel₀ _ (by positivity)]; rfl
  rw [invN, Gaussian.invCdf, e, Gaussian.erfInv_erf]
  simp [Gaussian.std]; field_simp

theorem N_invN (p : ℝ) (h0 : 0 < p) (h1 : p < 1) : N (invN p) = p := by
  obtain ⟨z, hz⟩ := Gaussian.std_cdf_surj p h0 h1
  rw [← hz]
  show N (invN (N z)) = N z
  rw [invN_N]

theorem N_zero : N 0 = 1 / 2 := Gaussian.std_cdf_zero

theorem invN_neg (p : ℝ) (h0 : 0 < p) (h1 : p < 1 / 2) : invN p < 0 := by
  rw [← N_mono.lt_iff_lt, N_invN p h0 (by linarith), N_zero]; exact h1

theorem fLower_eq (x s : ℝ) : (fLowerMap x s).1 = 2 * π / √27 * |x| * N (-(√(1 / 3) * |x| / s)) ^ 3 := by
  simp only [fLowerMap, not_below, not_false_eq_true, and_self, if_true]; ring

theorem fLower1_eq (x s : ℝ) : (fLowerMap x s).2.1 =
    2 * π * (√(1 / 3) * |x| / s) ^ 2 * N (-(√(1 / 3) * |x| / s)) ^ 2 * exp ((√(1 / 3) * |x| / s) ^ 2 + s ^ 2 / 8) := by
  simp only [fLowerMap, not_below, not_false_eq_true, if_true]
  rw [show (0.125:ℝ) * s * s = s ^ 2 / 8 by norm_num; ring]; ring_nf

theorem sqrt27 : √(27:ℝ) = 3 * √3 := by
  rw [show (27:ℝ) = 3 ^ 2 * 3 by norm_num, sqrt_mul (by positivity), sqrt_sq (by norm_num)]

theorem sqrt_third : √(1 / 3 : ℝ) = √3 / 3 := by
  have h : √(3:ℝ) * √3 = 3 := mul_self_sqrt (by norm_num)
  rw [sqrt_div (by norm_num), sqrt_one]
  have : √(3:ℝ) ≠ 0 := by positivity
  field_simp; nlinarith

theorem z_deriv (a s : ℝ) (hs : s ≠ 0) : HasDerivAt (fun s => a / s) (-(a / s) / s) s := by
  refine ((hasDerivAt_const s a).fun_div (hasDerivAt_id s) hs).congr_deriv ?_
  simp only [id]; field_simp; ring

theorem N_neg_deriv (a s : ℝ) (hs : s ≠ 0) : HasDerivAt (fun s => N (-(a / s))) (n (a / s) * (a / s) / s) s := by
  have h := (N_deriv (-(a / s))).comp s (z_deriv a s hs).fun_neg
  refine h.congr_deriv ?_
  rw [n_eq, n_eq, neg_sq]; ring

theorem y_eq (x s : ℝ) : (√(1 / 3) * |x| / s) ^ 2 = (x / s) ^ 2 / 3 := by
  rw [div_pow, mul_pow, sq_sqrt (by norm_num), sq_abs, div_pow]; ring

/-- The first derivative reported by the lower map is that of `f` with respect to the price. -/
theorem fLower_deriv (x s : ℝ) (hs : 0 < s) :
    HasDerivAt (fun s => (fLowerMap x s).1) ((fLowerMap x s).2.1 * blackVega x s) s := by
  simp only [fLower_eq]
  have h := ((N_neg_deriv (√(1 / 3) * |x|) s hs.ne').fun_pow 3).const_mul (2 * π / √27 * |x|)
  refine h.congr_deriv ?_
  rw [fLower1_eq, n_eq, blackVega]
  have e : exp ((√(1 / 3) * |x| / s) ^ 2 + s ^ 2 / 8) * exp (-((x / s) ^ 2 + (s / 2) ^ 2) / 2) =
      exp (-(√(1 / 3) * |x| / s) ^ 2 / 2) := by
    rw [← exp_add, y_eq]; congr 1; ring
  have h3 : (√(3:ℝ)) ^ 2 = 3 := sq_sqrt (by norm_num)
  have h30 : √(3:ℝ) ≠ 0 := by positivity
  have hp := sqrt_two_pi_pos.ne'
  have key : 2 * π / √27 * |x| * 3 * (√(1 / 3) * |x| / s) / s = 2 * π * (√(1 / 3) * |x| / s) ^ 2 := by
    rw [sqrt27, sqrt_third]; field_simp; rw [h3]
  generalize N (-(√(1 / 3) * |x| / s)) = F at *
  push_cast
  rw [← e]
  linear_combination (F ^ 2 * (√(2 * π))⁻¹ * (exp ((√(1 / 3) * |x| / s) ^ 2 + s ^ 2 / 8) *
    exp (-((x / s) ^ 2 + (s / 2) ^ 2) / 2))) * key

theorem fLower2_eq (x s : ℝ) (hs : 0 < s) : (fLowerMap x s).2.2 * blackVega x s =
    π / 6 * (√(1 / 3) * |x| / s) ^ 2 / s ^ 3 * N (-(√(1 / 3) * |x| / s)) * exp ((√(1 / 3) * |x| / s) ^ 2 + s ^ 2 / 8) *
      (8 * √3 * s * |x| * n (√(1 / 3) * |x| / s) +
        (3 * s ^ 2 * (s ^ 2 - 8) - 8 * x ^ 2) * N (-(√(1 / 3) * |x| / s))) := by
  have e0 : exp (2 * ((√(1 / 3) * |x| / s) * (√(1 / 3) * |x| / s)) + 0.25 * (s * s)) * blackVega x s =
      exp ((√(1 / 3) * |x| / s) ^ 2 + s ^ 2 / 8) * n (√(1 / 3) * |x| / s) := by
    rw [blackVega, n_eq, mul_div_assoc', ← exp_add, div_eq_inv_mul, mul_left_comm (exp _), ← exp_add]
    congr 2
    have := y_eq x s
    rw [← pow_two, this]
    norm_num; ring
  have hn := (n_pos (√(1 / 3) * |x| / s)).ne'
  simp only [fLowerMap]
  rw [mul_assoc, e0]
  generalize N (-(√(1 / 3) * |x| / s)) = F at *
  generalize n (√(1 / 3) * |x| / s) = f at *
  generalize exp ((√(1 / 3) * |x| / s) ^ 2 + s ^ 2 / 8) = E at *
  field_simp

/-- The second derivative reported by the lower map. -/
theorem fLower1_deriv (x s : ℝ) (hs : 0 < s) :
    HasDerivAt (fun s => (fLowerMap x s).2.1) ((fLowerMap x s).2.2 * blackVega x s) s := by
  rw [fLower2_eq x s hs]
  simp only [fLower1_eq]
  have hz := z_deriv (√(1 / 3) * |x|) s hs.ne'
  have h := (((hz.fun_pow 2).const_mul (2 * π)).fun_mul ((N_neg_deriv (√(1 / 3) * |x|) s hs.ne').fun_pow 2)).fun_mul
    (((hz.fun_pow 2).fun_add (((hasDerivAt_id s).fun_pow 2).div_const 8)).exp)
  refine h.congr_deriv ?_
  simp only [id]
  have ez : x ^ 2 = 3 * (√(1 / 3) * |x| / s) ^ 2 * s ^ 2 := by rw [y_eq]; field_simp
  have ea : √3 * |x| = 3 * (√(1 / 3) * |x| / s) * s := by rw [sqrt_third]; field_simp
  have e8 : 8 * √3 * s * |x| = 24 * (√(1 / 3) * |x| / s) * s ^ 2 := by linear_combination 8 * s * ea
  rw [ez, e8]
  generalize √(1 / 3) * |x| / s = z
  generalize N (-z) = F
  generalize n z = f
  generalize exp (z ^ 2 + s ^ 2 / 8) = E
  push_cast
  field_simp
  ring

theorem fUpper_eq (x s : ℝ) : (fUpperMap x s).1 = N (-(s / 2)) := by
  simp only [fUpperMap, not_below, not_false_eq_true, if_true]
  congr 1; norm_num; ring

theorem fUpper1_eq (x s : ℝ) : (fUpperMap x s).2.1 = -(1 / 2) * exp ((x / s) ^ 2 / 2) := by
  simp only [fUpperMap, not_below, not_false_eq_true, if_true]
  rw [show (0.5:ℝ) * (x / s) ^ 2 = (x / s) ^ 2 / 2 by norm_num; ring]; norm_num

theorem fUpper_deriv (x s : ℝ) : HasDerivAt (fun s => (fUpperMap x s).1) ((fUpperMap x s).2.1 * blackVega x s) s := by
  simp only [fUpper_eq]
  have h := (N_deriv (-(s / 2))).comp s ((hasDerivAt_id s).div_const 2).fun_neg
  refine h.congr_deriv ?_
  rw [fUpper1_eq, n_eq, blackVega, neg_sq]
  have e : exp ((x / s) ^ 2 / 2) * exp (-((x / s) ^ 2 + (s / 2) ^ 2) / 2) = exp (-(s / 2) ^ 2 / 2) := by
    rw [← exp_add]; congr 1; ring
  rw [← e]; ring

theorem fUpper1_deriv (x s : ℝ) (hs : 0 < s) :
    HasDerivAt (fun s => (fUpperMap x s).2.1) ((fUpperMap x s).2.2 * blackVega x s) s := by
  have e2 : (fUpperMap x s).2.2 * blackVega x s = 1 / 2 * ((x / s) ^ 2 / s) * exp ((x / s) ^ 2 / 2) := by
    simp only [fUpperMap, not_below, not_false_eq_true, if_true, blackVega]
    have e : exp ((x / s) ^ 2 + 0.125 * s * s) * exp (-((x / s) ^ 2 + (s / 2) ^ 2) / 2) = exp ((x / s) ^ 2 / 2) := by
      rw [← exp_add]; congr 1; norm_num; ring
    have hr : √(π / 2) / √(2 * π) = 1 / 2 := by
      rw [← sqrt_div (by positivity), show π / 2 / (2 * π) = (1 / 2) ^ 2 by field_simp, sqrt_sq (by norm_num)]
    rw [← e, ← hr]; ring
  rw [e2]
  simp only [fUpper1_eq]
  have h := (((z_deriv x s hs.ne').fun_pow 2).div_const 2).exp.const_mul (-(1 / 2))
  refine h.congr_deriv ?_
  push_cast; ring

theorem inverse_lower (x s : ℝ) (hx : x ≠ 0) (hs : 0 < s) : inverseFLowerMap x (fLowerMap x s).1 = s := by
  rw [inverseFLowerMap, if_neg (not_below _), fLower_eq]
  have hc : 2 * π / √27 * |x| ≠ 0 := by have := abs_pos.2 hx; positivity
  rw [mul_div_cancel_left₀ _ hc, ← rpow_natCast, ← rpow_mul (N_pos _).le]
  norm_num
  rw [invN_N]
  have h3 : √(3:ℝ) ≠ 0 := by positivity
  have hx' : |x| ≠ 0 := abs_ne_zero.2 hx
  rw [show √3 * -((√3)⁻¹ * |x| / s) = -(|x| / s) by field_simp, div_neg, abs_neg, abs_div, abs_div, abs_abs,
    abs_of_pos hs]
  field_simp

theorem inverse_upper (x s : ℝ) : inverseFUpperMap (fUpperMap x s).1 = s := by
  rw [inverseFUpperMap, fUpper_eq, invN_N]; ring

end Verif.ImpliedVol
