import Verif.Float.SplinePow

/-!
# C111: cases
-/

namespace Verif.Float.Spline

open X64 Nan Verif.Float.Sorting
open Verif.Math.BSpline (Spline)
open Verif.Float.Curves (dyadic grid_round fine_mu)
open Verif.Float.Sim (F64.real)
open Verif.Float.Activation (grid)
open Verif.Float.Fft (ur mu top ur_pos mu_pos ur_le)

/-- A small integer. -/
def small (m : ℤ) (h : |m| < 2 ^ 53 := by decide) : F64 := dyadic m 0 h (by omega)

/-- A quadratic spline with seven knots. -/
def quad : Data := ⟨[small 0, small 1, small 2, small 3, small 4, small 5, small 6], [small (-1), small 2, small 0, small (-1)], 2⟩

/-- The point 5/2. -/
def middle : F64 := dyadic 5 1 (by decide) (by omega)

theorem quad_valid : quad.Valid := ⟨by decide +kernel, rfl⟩

theorem quad_moderate : quad.Moderate := ⟨by decide +kernel, by decide +kernel⟩

example := C111_total quad.spline (fin middle) rfl
example := C111_total ⟨[inf true, nan, fin (small 1)], [nan], 1, false⟩ nan rfl
example := C111_errors quad_valid middle

example := C111_spline_error quad_valid quad_moderate (show 2 ≤ 50 by omega) (p := middle) (M := 2) (v := 11 / 8) (by norm_num)
  (le_self_pow₀ (by norm_num) (by norm_num))
  (fun i c h => (by decide +kernel : ∀ c ∈ quad.ctrl, |c.val| ≤ 2) c (List.mem_of_getElem? h.1)) (by decide +kernel)

example := (C111_new (fun n => insertionSorter_correct n) quad.knots quad.ctrl 2).2 rfl
example := C111_add_point quad_valid middle (small 7)
example := C111_point_not_finite quad_valid (p := nan) (by simp)
example := C111_point_not_finite quad_valid (p := inf false) (by simp)

/-- The spline with NaN as its last control point has values. -/
example : interpolate { quad.spline with ctrl := [fin (small 1), fin (small 1), fin (small 1), nan] } (fin middle) = some (.ok nan) := by
  decide +kernel

example : interpolate { quad.spline with ctrl := [fin (small 1), fin (small 1), fin (small 1), inf false] } (fin middle) = some (.ok nan) := by
  decide +kernel

example (r : X64) (h : interpolate { quad.spline with ctrl := [fin (small 1), fin (small 1), fin (small 1), inf false] } (fin middle) = some (.ok r)) :=
  C111_inf_control_defect quad_valid quad_moderate (show 2 ≤ 50 by omega) (ctrl := [fin (small 1), fin (small 1), fin (small 1), inf false]) rfl (i := 3)
    rfl (p := middle) (le_trans (b := 3) (by decide +kernel) ((by norm_num : (3 : ℚ) ≤ 2 ^ 2).trans (pow_le_pow_right₀ (by norm_num) (by norm_num))))
    (Or.inl (by decide +kernel)) h

/-- After a NaN the spline still gives values, all of them NaN. -/
example : interpolate (addPoint quad.spline nan (fin (small 1))) (fin middle) = some (.ok nan) := by decide +kernel

/-- A power function, rounded. -/
noncomputable def goodPow : X64 → X64 → X64
  | fin y, fin e => ofQ (grid (F64.real y ^ F64.real e))
  | _, _ => nan

theorem goodPow_good : GoodPow goodPow (2 ^ (-50 : ℤ)) := by
  intro y e h1 h2 h3 h4
  have hu := ur_pos
  have hur := ur_le
  have hy : 0 < F64.real y := lt_of_lt_of_le (by positivity) h1
  have hp : 0 < F64.real y ^ F64.real e := Real.rpow_pos_of_pos hy _
  have l1 : (2 : ℝ) ^ (-500 : ℤ) ≤ F64.real y ^ F64.real e := by
    have h0 : (0 : ℝ) < 2 ^ (-500 : ℤ) := by positivity
    refine le_trans ?_ (Real.rpow_le_rpow h0.le h1 h3)
    calc (2 : ℝ) ^ (-500 : ℤ) = (2 ^ (-500 : ℤ)) ^ (1 : ℝ) := (Real.rpow_one _).symm
      _ ≤ _ := Real.rpow_le_rpow_of_exponent_ge h0 (zpow_le_one_of_nonpos₀ (by norm_num) (by norm_num)) h4
  have l2 : F64.real y ^ F64.real e ≤ 2 ^ 990 := by
    refine (Real.rpow_le_rpow hy.le h2 h3).trans ?_
    have h0 : (1 : ℝ) ≤ 2 ^ (500 : ℤ) := one_le_zpow₀ (by norm_num) (by norm_num)
    refine (Real.rpow_le_rpow_of_exponent_le h0 h4).trans ?_
    rw [Real.rpow_one, ← zpow_natCast]
    exact zpow_le_zpow_right₀ (by norm_num) (by norm_num)
  obtain ⟨r, r1, r2⟩ := grid_round hp.le l2
  refine ⟨r, r1, r2.trans ?_⟩
  rw [Verif.Float.Curves.eight]
  have hf := fine_mu
  have hm : mu ≤ ur * F64.real y ^ F64.real e := by
    have e1 : mu = 2 ^ (-522 : ℤ) * (ur * 2 ^ (-500 : ℤ)) := by
      unfold mu ur
      rw [← zpow_add₀ (by norm_num), ← zpow_add₀ (by norm_num)]
      norm_num
    rw [e1]
    have e2 : (2 : ℝ) ^ (-522 : ℤ) ≤ 1 := zpow_le_one_of_nonpos₀ (by norm_num) (by norm_num)
    have e3 : 0 ≤ ur * (2 : ℝ) ^ (-500 : ℤ) := mul_nonneg hu.le (zpow_nonneg (by norm_num) _)
    exact (mul_le_of_le_one_left e3 e2).trans (mul_le_mul_of_nonneg_left l1 hu.le)
  have hm0 := mu_pos
  have hs0 : (0 : ℝ) < 2 ^ (-1200 : ℤ) := by positivity
  generalize (2 : ℝ) ^ (-1200 : ℤ) = s at *
  generalize F64.real y ^ F64.real e = Y at *
  have : ur * s ≤ 1 * s := mul_le_mul_of_nonneg_right (by linarith) hs0.le
  nlinarith

theorem small_real (m : ℤ) (h : |m| < 2 ^ 53) : F64.real (small m h) = m := by
  unfold small dyadic F64.real
  simp

/-- Half way between (2, 10) and (3, 30). -/
example := C111_exponential_error goodPow_good (by positivity) (zpow_le_zpow_right₀ (by norm_num) (by norm_num)) (p := middle) (xl := small 2) (xr := small 3)
  (yl := small 10) (yr := small 30) (by decide +kernel) (by decide +kernel) (by decide +kernel) (by decide +kernel)
  (by
    rw [small_real]
    exact ⟨(zpow_le_one_of_nonpos₀ (by norm_num) (by norm_num)).trans (by norm_num),
      le_trans (b := (2 : ℝ) ^ (10 : ℤ)) (by norm_num) (zpow_le_zpow_right₀ (by norm_num) (by norm_num))⟩)
  (by
    rw [small_real]
    exact ⟨(zpow_le_one_of_nonpos₀ (by norm_num) (by norm_num)).trans (by norm_num),
      le_trans (b := (2 : ℝ) ^ (10 : ℤ)) (by norm_num) (zpow_le_zpow_right₀ (by norm_num) (by norm_num))⟩)

end Verif.Float.Spline
