import Verif.Float.ActivationsProps

/-!
# C109: the Gaussian error linear unit in double precision
-/

namespace Verif.Float.Activation

open X64 Nan Verif.Float.Sim Verif.Float.Bsm Verif.Float.Laws Fft
open Verif.ML (Act)

theorem erf_Phi (y : ℝ) : Distributions.erf y = 2 * Phi (√2 * y) - 1 := by
  have := Distributions.Gaussian.erf_eq y
  rw [Phi_eq]
  linarith

theorem gelu_Phi (x : ℝ) : Act.gelu.math x = x * Phi x := by
  rw [← Verif.ML.gelu_eq]
  change 0.5 * x * (1 + Autodiff.erf (x / √2)) = _
  rw [Verif.ML.erf_agree, erf_Phi]
  have : √2 * (x / √2) = x := by
    have : √(2 : ℝ) ≠ 0 := by positivity
    field_simp
  rw [this]
  ring

/-- C109: `gelu` has an error that is small relative to its argument. -/
theorem C109_gelu_error (l : Lib) (ε : ℝ) (hε0 : 0 ≤ ε) (hε : ε ≤ 1 / 16) (hl : l.Good ε) (a : F64) (ha : |F64.real a| ≤ 2 ^ 1000) :
    ∃ c : F64, gelu l (fin a) = fin c ∧
      |F64.real c - Act.gelu.math (F64.real a)| ≤ (2 * ε + 6 * 2 ^ (-53 : ℤ)) * |F64.real a| + 2 ^ (-1070 : ℤ) := by
  have hu := ur_pos
  have hu1 := ur_le
  have hmu := mu_pos
  have hmu1 : mu ≤ ur / 4 := mu_ur
  rw [gelu_Phi]
  obtain ⟨h, h1, h2⟩ := half_fin
  obtain ⟨i, i1, i2⟩ := one_fin
  have hr : F64.real h = 1 / 2 := by unfold F64.real; rw [h2]; norm_num
  have ir : F64.real i = 1 := by unfold F64.real; rw [i2]; norm_num
  obtain ⟨s, s1, s2⟩ := hl.sqrt_two
  have hs2 : (7 / 5 : ℝ) ≤ √2 := Real.le_sqrt_of_sq_le (by norm_num)
  have hs2' : √2 ≤ 3 / 2 := Real.sqrt_le_iff.2 ⟨by norm_num, by norm_num⟩
  have hεs : ε * √2 ≤ 1 / 16 * √2 := mul_le_mul_of_nonneg_right hε (by positivity)
  have sb := abs_le.1 s2
  have hs1 : 1 ≤ F64.real s := by linarith
  have hspos : 0 < F64.real s := by linarith
  set x := F64.real a with hx
  have hx0 := abs_nonneg x
  have htop : |x| ≤ top / 16 := by
    refine ha.trans ?_
    have : (2 : ℝ) ^ 1004 ≤ top := pow_le_pow_right₀ (by norm_num) (by norm_num)
    have h6 : (2 : ℝ) ^ 1004 = 16 * 2 ^ 1000 := by rw [pow_add (2 : ℝ) 1000 4]; ring
    rw [h6] at this
    clear h6
    generalize (2 : ℝ) ^ 1000 = T at *
    linarith
  have htop1 : (1024 : ℝ) ≤ top := by have := top_ge; norm_num at this; exact this
  -- half the argument
  obtain ⟨m, m1, m2⟩ := mulR (a := h) (b := a) (by rw [hr, abs_mul, ← hx]; norm_num; linarith)
  rw [hr, ← hx, abs_mul, abs_of_pos (by norm_num : (0 : ℝ) < 1 / 2)] at m2
  -- the quotient
  obtain ⟨q, q1, q2⟩ := divR (a := a) (b := s) (by linarith) (by
    rw [← hx, abs_div, abs_of_pos hspos]
    exact (div_le_self hx0 hs1).trans (by linarith))
  rw [← hx] at q2
  have hs0 : s.val ≠ 0 := by
    intro h0
    have : F64.real s = 0 := by unfold F64.real; rw [h0]; norm_num
    linarith
  -- its distance from the mathematical quotient
  have hrat : |√2 / F64.real s - 1| ≤ 8 / 7 * ε := by
    rw [div_sub_one (by linarith), abs_div, abs_of_pos hspos, div_le_iff₀ hspos, abs_sub_comm]
    refine s2.trans ?_
    have : √2 ≤ 8 / 7 * F64.real s := by linarith [sb.1]
    nlinarith
  have e1 : |√2 * F64.real q - x| ≤ (5 / 4 * ε + 9 / 8 * ur) * |x| + 3 / 2 * mu := by
    have h3 : √2 * F64.real q - x = √2 * (F64.real q - x / F64.real s) + x * (√2 / F64.real s - 1) := by field_simp; ring
    rw [h3]
    refine (abs_add_le _ _).trans ?_
    rw [abs_mul, abs_mul, abs_of_nonneg (Real.sqrt_nonneg 2)]
    have h4 : √2 * |F64.real q - x / F64.real s| ≤ √2 * (ur * |x / F64.real s| + mu) := mul_le_mul_of_nonneg_left q2 (Real.sqrt_nonneg 2)
    have h5 : √2 * |x / F64.real s| ≤ 15 / 14 * |x| + 1 / 28 * |x| := by
      rw [abs_div, abs_of_pos hspos, ← mul_div_assoc, div_le_iff₀ hspos]
      have : √2 ≤ 31 / 28 * F64.real s := by linarith [sb.1]
      nlinarith
    have h6 : ur * (√2 * |x / F64.real s|) ≤ ur * (15 / 14 * |x| + 1 / 28 * |x|) := mul_le_mul_of_nonneg_left h5 hu.le
    have h7 : |x| * |√2 / F64.real s - 1| ≤ |x| * (8 / 7 * ε) := mul_le_mul_of_nonneg_left hrat hx0
    have h8 : √2 * mu ≤ 3 / 2 * mu := mul_le_mul_of_nonneg_right hs2' hmu.le
    have h9 : 0 ≤ ur * |x| := by positivity
    have h10 : 0 ≤ ε * |x| := by positivity
    linarith
  have e2 := Phi_move (by positivity) (by linarith) (by positivity) e1
  obtain ⟨f, f1, f2⟩ := hl.erf_near q
  rw [erf_Phi] at f2
  have hP := Phi_mem (√2 * F64.real q)
  have hPx := Phi_mem x
  have fb := abs_le.1 f2
  -- one plus the error function
  have hsum : |F64.real i + F64.real f| ≤ 33 / 16 := by
    rw [ir, abs_le]; constructor <;> linarith
  obtain ⟨b, b1, b2⟩ := addR (a := i) (b := f) (hsum.trans (by linarith))
  have e3 : |F64.real b - 2 * Phi x| ≤ 2 * ε + 4 * ur := by
    rw [show F64.real b - 2 * Phi x = (F64.real b - (F64.real i + F64.real f)) +
      (F64.real f - (2 * Phi (√2 * F64.real q) - 1)) + 2 * (Phi (√2 * F64.real q) - Phi x) by rw [ir]; ring]
    refine (abs_add_le _ _).trans (_root_.add_le_add (abs_add_le _ _) le_rfl |>.trans ?_)
    rw [abs_mul, abs_two]
    have h3 : ur * |F64.real i + F64.real f| ≤ ur * (33 / 16) := mul_le_mul_of_nonneg_left hsum hu.le
    linarith
  have hb : |F64.real b| ≤ 5 / 2 := by
    have := abs_le.1 e3
    rw [abs_le]; constructor <;> linarith
  have hm : |F64.real m| ≤ |x| + mu := by
    have h3 : |F64.real m| ≤ |F64.real m - 1 / 2 * x| + |1 / 2 * x| := by
      have := abs_add_le (F64.real m - 1 / 2 * x) (1 / 2 * x)
      rwa [sub_add_cancel] at this
    rw [abs_mul, abs_of_pos (by norm_num : (0 : ℝ) < 1 / 2)] at h3
    have h4 : ur * (1 / 2 * |x|) ≤ 1 / 2 * |x| := mul_le_of_le_one_left (by positivity) (by linarith)
    linarith
  have hprod : |F64.real m * F64.real b| ≤ top := by
    rw [abs_mul]
    have : |F64.real m| * |F64.real b| ≤ (|x| + mu) * (5 / 2) := mul_le_mul hm hb (abs_nonneg _) (by positivity)
    linarith
  obtain ⟨c, c1, c2⟩ := mulR hprod
  refine ⟨c, ?_, ?_⟩
  · unfold gelu
    have k1 : (fin h).mul (fin a) = fin m := fin_of m1
    have k2 : (fin a).div (fin s) = fin q := by
      change (if s.val = 0 then _ else ofQ (a.val / s.val)) = _
      unfold F64.div at q1
      rw [if_neg hs0] at q1 ⊢
      exact fin_of q1
    have k3 : (fin i).add (fin f) = fin b := fin_of b1
    rw [h1, k1, s1, k2, f1, i1, k3]
    exact fin_of c1
  · -- the products
    have h3 : |F64.real m * F64.real b - x * Phi x| ≤ |x| * (ε + 2 * ur) + 5 / 4 * (ur * |x|) + 5 / 2 * mu := by
      rw [show F64.real m * F64.real b - x * Phi x = 1 / 2 * x * (F64.real b - 2 * Phi x) + (F64.real m - 1 / 2 * x) * F64.real b by ring]
      refine (abs_add_le _ _).trans ?_
      rw [abs_mul, abs_mul, abs_mul, abs_of_pos (by norm_num : (0 : ℝ) < 1 / 2)]
      have g1 : 1 / 2 * |x| * |F64.real b - 2 * Phi x| ≤ 1 / 2 * |x| * (2 * ε + 4 * ur) := mul_le_mul_of_nonneg_left e3 (by positivity)
      have g2 : |F64.real m - 1 / 2 * x| * |F64.real b| ≤ (ur * (1 / 2 * |x|) + mu) * (5 / 2) := mul_le_mul m2 hb (abs_nonneg _) (by positivity)
      linarith
    have h4 : ur * |F64.real m * F64.real b| ≤ ur * ((|x| + mu) * (5 / 2)) := by
      refine mul_le_mul_of_nonneg_left ?_ hu.le
      rw [abs_mul]
      exact mul_le_mul hm hb (abs_nonneg _) (by positivity)
    have h5 : ur * mu ≤ 1 / 1000 * mu := mul_le_mul_of_nonneg_right hu1 hmu.le
    have h6 : 4 * mu ≤ (2 : ℝ) ^ (-1070 : ℤ) := by
      unfold mu
      rw [show (4 : ℝ) = 2 ^ (2 : ℤ) by norm_num, ← zpow_add₀ (by norm_num)]
      exact zpow_le_zpow_right₀ (by norm_num) (by norm_num)
    change _ ≤ (2 * ε + 6 * ur) * |x| + _
    refine le_trans ?_ (_root_.add_le_add le_rfl h6)
    rw [show F64.real c - x * Phi x = (F64.real c - F64.real m * F64.real b) + (F64.real m * F64.real b - x * Phi x) by ring]
    refine (abs_add_le _ _).trans ?_
    have h7 : 0 ≤ ε * |x| := by positivity
    have h8 : 0 ≤ ur * |x| := by positivity
    linarith

/-- C109 (defect): `gelu` of minus infinity is NaN, although the mathematical function tends to zero there. -/
theorem C109_gelu_infinite (l : Lib) (ε : ℝ) (hε : ε ≤ 1 / 16) (hl : l.Good ε) :
    gelu l (inf true) = nan ∧ gelu l (inf false) = inf false := by
  obtain ⟨s, s1, s2⟩ := hl.sqrt_two
  have hs2 : (7 / 5 : ℝ) ≤ √2 := Real.le_sqrt_of_sq_le (by norm_num)
  have hεs : ε * √2 ≤ 1 / 16 * √2 := mul_le_mul_of_nonneg_right hε (by positivity)
  have hs : 0 < F64.real s := by linarith [(abs_le.1 s2).1]
  have hs' : 0 < s.val := by unfold F64.real at hs; exact_mod_cast hs
  obtain ⟨h, h1, h2⟩ := half_fin
  obtain ⟨i, i1, i2⟩ := one_fin
  obtain ⟨w, w1, w2⟩ := two_fin
  have hd : ∀ t, (inf t).div (fin s) = inf t := by
    intro t
    have : ¬ s.val < 0 := not_lt.2 hs'.le
    cases t <;> simp [X64.div, this]
  have hm : ∀ t, (fin h).mul (inf t) = inf t := by
    intro t
    cases t <;> simp [X64.mul, h2]
  unfold gelu
  rw [s1, h1, hd, hd, hm, hm, hl.erf_bottom, hl.erf_top]
  constructor
  · have : (ofQ 1).add (ofQ (-1)) = zero := by
      obtain ⟨m, m1, m2⟩ := X64.neg_fin i
      have : ofQ (-1) = fin m := ofQ_of_eq m (by rw [m2, i2])
      rw [this, i1]
      exact ofQ_of_eq F64.zero (by rw [m2, Laws.zero_val]; ring)
    rw [this]
    simp [X64.mul, zero, Laws.zero_val]
  · have : (ofQ 1).add (ofQ 1) = fin w := by
      rw [i1]
      exact ofQ_of_eq w (by rw [i2, w2]; norm_num)
    rw [this]
    simp [X64.mul, w2]

end Verif.Float.Activation
