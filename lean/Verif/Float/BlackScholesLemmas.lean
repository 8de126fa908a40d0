import Verif.Float.BlackScholesSpec
import Verif.Float.SimulationLemmas
import Verif.Distributions.GaussianLemmas
import Mathlib.Analysis.Real.Pi.Bounds
import Mathlib.Analysis.SpecialFunctions.Log.Deriv
import Mathlib.Analysis.Complex.ExponentialBounds

/-! Helper lemmas: the rounded Black-Scholes-Merton formula, term by term. -/

namespace Verif.Float.Bsm

open Real Verif.Float.Sim Verif.Options
open Verif.Float.Fft (ur mu top rnd_real toF64_total ur_pos mu_pos)

/-- Between `2^-i` and `2^i`. -/
def Box (i : ℕ) (x : ℝ) : Prop := ((2 : ℝ) ^ i)⁻¹ ≤ x ∧ x ≤ 2 ^ i

theorem Box.pos {i : ℕ} {x : ℝ} (h : Box i x) : 0 < x := lt_of_lt_of_le (by positivity) h.1

theorem Box.mono {i j : ℕ} {x : ℝ} (h : Box i x) (hij : i ≤ j) : Box j x := by
  have : (2 : ℝ) ^ i ≤ 2 ^ j := pow_le_pow_right₀ (by norm_num) hij
  exact ⟨le_trans (inv_anti₀ (by positivity) this) h.1, h.2.trans this⟩

theorem Box.mul {i j : ℕ} {x y : ℝ} (h : Box i x) (h' : Box j y) : Box (i + j) (x * y) := by
  have hx := h.pos
  have hy := h'.pos
  constructor
  · rw [pow_add, mul_inv]
    exact mul_le_mul h.1 h'.1 (by positivity) hx.le
  · rw [pow_add]
    exact mul_le_mul h.2 h'.2 hy.le (by positivity)

theorem Box.inv {i : ℕ} {x : ℝ} (h : Box i x) : Box i x⁻¹ := by
  have hx := h.pos
  constructor
  · exact inv_anti₀ hx h.2
  · have := inv_anti₀ (by positivity) h.1
    rwa [inv_inv] at this

theorem Box.div {i j : ℕ} {x y : ℝ} (h : Box i x) (h' : Box j y) : Box (i + j) (x / y) := by
  rw [div_eq_mul_inv]; exact h.mul h'.inv

theorem Box.of {i : ℕ} {x : ℝ} (h : (2 : ℝ) ^ (-(i : ℤ)) ≤ x ∧ x ≤ 2 ^ i) : Box i x := by
  refine ⟨?_, h.2⟩
  have := h.1
  rwa [zpow_neg, zpow_natCast] at this

theorem Box.sqrt {i : ℕ} {x : ℝ} (h : Box (i + i) x) : Box i √x := by
  constructor
  · apply Real.le_sqrt_of_sq_le
    have := h.1
    rwa [pow_add, mul_inv, ← sq] at this
  · apply Real.sqrt_le_iff.2 ⟨by positivity, ?_⟩
    have := h.2
    rwa [pow_add, ← sq] at this

theorem box_one : Box 0 1 := ⟨by norm_num, by norm_num⟩

/-- The underflow term against the roundoff. -/
theorem mu_small {x : ℝ} (h : Box 1000 x) : mu ≤ ur / 4 * x := by
  have h1 := h.1
  have h2 : mu ≤ ur / 4 * ((2 : ℝ) ^ 1000)⁻¹ := by
    unfold mu ur
    rw [show ((2 : ℝ) ^ 1000)⁻¹ = 2 ^ (-1000 : ℤ) by rw [zpow_neg]; norm_cast, show (4 : ℝ) = 2 ^ (2 : ℤ) by norm_num,
      ← zpow_sub₀ (by norm_num), ← zpow_add₀ (by norm_num)]
    exact zpow_le_zpow_right₀ (by norm_num) (by norm_num)
  have := ur_pos
  exact h2.trans (by gcongr)

theorem top_large {x y : ℝ} (h : x ≤ 2 ^ 1000) (h' : y ≤ 4 * x) : y ≤ top := by
  refine h'.trans ((mul_le_mul_of_nonneg_left h (by norm_num)).trans ?_)
  unfold top
  rw [show (4 : ℝ) = 2 ^ 2 by norm_num, ← pow_add]
  exact pow_le_pow_right₀ (by norm_num) (by norm_num)

theorem divR {a b : F64} (hb : F64.real b ≠ 0) (h : |F64.real a / F64.real b| ≤ top) :
    ∃ r, a.div b = some r ∧ |F64.real r - F64.real a / F64.real b| ≤ ur * |F64.real a / F64.real b| + mu := by
  have e : ((a.val / b.val : ℚ) : ℝ) = F64.real a / F64.real b := by unfold F64.real; push_cast; rfl
  have hb' : b.val ≠ 0 := by
    intro hc
    apply hb
    unfold F64.real
    rw [hc]; norm_num
  rw [← e] at h ⊢
  obtain ⟨r, h1, h2⟩ := toF64_total h
  refine ⟨r, by unfold F64.div; rw [if_neg hb']; exact h1, ?_⟩
  unfold F64.real
  rw [h2]
  exact rnd_real _

theorem real_neg (x : F64) : F64.real (neg x) = -F64.real x := by unfold F64.real neg; push_cast; rfl

/-- Products of numbers known up to relative errors. -/
theorem mulN {a b : F64} {A B α β : ℝ} (ha : |F64.real a - A| ≤ α * |A|) (hb : |F64.real b - B| ≤ β * |B|) (hα : 0 ≤ α)
    (hα1 : α ≤ 1 / 8) (hβ : 0 ≤ β) (hβ1 : β ≤ 1 / 8) (h : Box 1000 |A * B|) :
    ∃ p, a.mul b = some p ∧ |F64.real p - A * B| ≤ (α + β + α * β + 2 * ur) * |A * B| := by
  have hm := mu_small h
  have hX := h.pos
  have e : |F64.real a * F64.real b - A * B| ≤ (α + β + α * β) * |A * B| := by
    rw [show F64.real a * F64.real b - A * B = (F64.real a - A) * (F64.real b - B) + (F64.real a - A) * B + A * (F64.real b - B) by ring]
    refine (abs_add_le _ _).trans (_root_.add_le_add ((abs_add_le _ _).trans le_rfl) le_rfl |>.trans ?_)
    rw [abs_mul, abs_mul, abs_mul, abs_mul]
    have h1 : |F64.real a - A| * |F64.real b - B| ≤ (α * |A|) * (β * |B|) := by gcongr
    have h2 : |F64.real a - A| * |B| ≤ (α * |A|) * |B| := by gcongr
    have h3 : |A| * |F64.real b - B| ≤ |A| * (β * |B|) := by gcongr
    calc _ ≤ (α * |A|) * (β * |B|) + (α * |A|) * |B| + |A| * (β * |B|) := by linarith
      _ = _ := by ring
  have hc : α + β + α * β ≤ 17 / 64 := by nlinarith
  have hs : |F64.real a * F64.real b| ≤ 81 / 64 * |A * B| := by
    rw [show F64.real a * F64.real b = (F64.real a * F64.real b - A * B) + A * B by ring]
    refine (abs_add_le _ _).trans ?_
    nlinarith
  obtain ⟨p, h1, h2⟩ := mulR (a := a) (b := b) (top_large h.2 (by linarith))
  refine ⟨p, h1, ?_⟩
  rw [show F64.real p - A * B = (F64.real p - F64.real a * F64.real b) + (F64.real a * F64.real b - A * B) by ring]
  refine (abs_add_le _ _).trans ?_
  have hu := ur_pos
  have h3 := mul_le_mul_of_nonneg_left hs hu.le
  nlinarith

/-- Quotients of numbers known up to relative errors. -/
theorem divN {a b : F64} {A B α β : ℝ} (ha : |F64.real a - A| ≤ α * |A|) (hb : |F64.real b - B| ≤ β * |B|) (hα : 0 ≤ α)
    (hα1 : α ≤ 1 / 8) (hβ : 0 ≤ β) (hβ1 : β ≤ 1 / 8) (hB : B ≠ 0) (h : Box 1000 |A / B|) :
    ∃ p, a.div b = some p ∧ |F64.real p - A / B| ≤ (8 / 7 * (α + β) + 2 * ur) * |A / B| := by
  have hm := mu_small h
  have hX := h.pos
  have hB' : 0 < |B| := abs_pos.2 hB
  have hb2 : 7 / 8 * |B| ≤ |F64.real b| := by
    have h1 : |B| ≤ |F64.real b| + |F64.real b - B| := by
      calc |B| = |F64.real b - (F64.real b - B)| := by congr 1; ring
        _ ≤ _ := abs_sub _ _
    have : β * |B| ≤ 1 / 8 * |B| := by gcongr
    linarith
  have hb0 : F64.real b ≠ 0 := by
    intro hc
    rw [hc, abs_zero] at hb2
    linarith
  have e : |F64.real a / F64.real b - A / B| ≤ 8 / 7 * (α + β) * |A / B| := by
    rw [show F64.real a / F64.real b - A / B = ((F64.real a - A) * B - A * (F64.real b - B)) / (F64.real b * B) by field_simp; ring,
      abs_div, abs_mul, div_le_iff₀ (by positivity), abs_div]
    have h1 : |(F64.real a - A) * B - A * (F64.real b - B)| ≤ (α + β) * |A| * |B| := by
      refine (abs_sub _ _).trans ?_
      rw [abs_mul, abs_mul]
      have h2 : |F64.real a - A| * |B| ≤ (α * |A|) * |B| := by gcongr
      have h3 : |A| * |F64.real b - B| ≤ |A| * (β * |B|) := by gcongr
      linarith
    refine h1.trans ?_
    rw [show 8 / 7 * (α + β) * (|A| / |B|) * (|F64.real b| * |B|) = 8 / 7 * ((α + β) * |A|) * |F64.real b| by field_simp]
    have h0 : 0 ≤ (α + β) * |A| := by positivity
    have := mul_le_mul_of_nonneg_left hb2 h0
    linarith
  have hs : |F64.real a / F64.real b| ≤ 9 / 7 * |A / B| := by
    rw [show F64.real a / F64.real b = (F64.real a / F64.real b - A / B) + A / B by ring]
    refine (abs_add_le _ _).trans ?_
    nlinarith
  obtain ⟨p, h1, h2⟩ := divR hb0 (top_large h.2 (by linarith : |F64.real a / F64.real b| ≤ 4 * |A / B|))
  refine ⟨p, h1, ?_⟩
  rw [show F64.real p - A / B = (F64.real p - F64.real a / F64.real b) + (F64.real a / F64.real b - A / B) by ring]
  refine (abs_add_le _ _).trans ?_
  have hu := ur_pos
  have h3 := mul_le_mul_of_nonneg_left hs hu.le
  nlinarith

/-- The accuracy of the platform's functions: at least as coarse as the roundoff, and fine. -/
structure Fine (δ : ℝ) : Prop where
  coarse : 2 ^ (-52 : ℤ) ≤ δ
  fine : δ ≤ 2 ^ (-20 : ℤ)

theorem Fine.ur {δ : ℝ} (h : Fine δ) : 2 * ur ≤ δ := by
  refine le_trans (le_of_eq ?_) h.coarse
  unfold Fft.ur
  rw [show (-52 : ℤ) = 1 + -53 by norm_num, zpow_add₀ (by norm_num), zpow_one]

theorem Fine.pos {δ : ℝ} (h : Fine δ) : 0 < δ := lt_of_lt_of_le (by positivity) h.coarse

theorem Fine.le {δ : ℝ} (h : Fine δ) : δ ≤ 1 / 1000000 := h.fine.trans (by norm_num)

theorem toF64_exact {q : ℚ} (x : F64) (h : x.val = q) : toF64 q = some x := by rw [← h]; exact toF64_val x

theorem one_some : ∃ x, toF64 1 = some x ∧ F64.real x = 1 := by
  have : (toF64 1).isSome = true := by decide +kernel
  obtain ⟨x, hx⟩ := Option.isSome_iff_exists.1 this
  refine ⟨x, hx, ?_⟩
  have hv : (toF64 1).map F64.val = some 1 := by decide +kernel
  rw [hx] at hv
  unfold F64.real
  rw [Option.some.inj hv]; norm_num

theorem half_some : ∃ x, toF64 (1 / 2) = some x ∧ F64.real x = 1 / 2 := by
  have : (toF64 (1 / 2)).isSome = true := by decide +kernel
  obtain ⟨x, hx⟩ := Option.isSome_iff_exists.1 this
  refine ⟨x, hx, ?_⟩
  have hv : (toF64 (1 / 2)).map F64.val = some (1 / 2) := by decide +kernel
  rw [hx] at hv
  unfold F64.real
  rw [Option.some.inj hv]; norm_num

theorem sqrt2_some {δ : ℝ} (hδ : Fine δ) : ∃ x, sqrt2 = some x ∧ |F64.real x - √2| ≤ δ * √2 := by
  have h0 : (sqrt2).isSome = true := by decide +kernel
  obtain ⟨x, hx⟩ := Option.isSome_iff_exists.1 h0
  refine ⟨x, hx, ?_⟩
  have hv : (sqrt2.map F64.val) = some (6369051672525773 / 4503599627370496) := by decide +kernel
  rw [hx] at hv
  have hv' : F64.real x = 6369051672525773 / 4503599627370496 := by
    unfold F64.real
    rw [Option.some.inj hv]; norm_num
  have h1 : (1.4142135623730950487 : ℝ) ≤ √2 := Real.le_sqrt_of_sq_le (by norm_num)
  have h2 : √2 ≤ 1.4142135623730950489 := Real.sqrt_le_iff.2 ⟨by norm_num, by norm_num⟩
  have h3 := mul_le_mul_of_nonneg_right hδ.coarse (Real.sqrt_nonneg 2)
  refine le_trans ?_ h3
  rw [hv', abs_le]
  norm_num at h1 h2 ⊢
  constructor <;> linarith

/-! ### The normal distribution function -/

theorem Phi_eq (x : ℝ) : Phi x = Distributions.Gaussian.std.cdf x := (Distributions.Gaussian.std_cdf_law x).symm

theorem Phi_mem (x : ℝ) : 0 < Phi x ∧ Phi x < 1 := by
  rw [Phi_eq]; exact ⟨Distributions.Gaussian.std_cdf_pos x, Distributions.Gaussian.std_cdf_lt_one x⟩

theorem Phi_neg (x : ℝ) : Phi (-x) = 1 - Phi x := by rw [Phi_eq, Phi_eq]; exact Distributions.Gaussian.std_cdf_neg x

theorem pdf_le (x : ℝ) : ‖Distributions.Gaussian.std.pdf x‖ ≤ 2 / 5 := by
  rw [Real.norm_of_nonneg (Distributions.Gaussian.std_pdf_pos x).le, Distributions.Gaussian.std_pdf]
  have h1 : (5 / 2 : ℝ) ≤ √(2 * π) := by
    apply Real.le_sqrt_of_sq_le
    nlinarith [Real.pi_gt_d2]
  have h2 : exp (-x ^ 2 / 2) ≤ 1 := Real.exp_le_one_iff.2 (by nlinarith [sq_nonneg x])
  have h3 : (√(2 * π))⁻¹ ≤ 2 / 5 := by
    rw [inv_le_comm₀ (by positivity) (by norm_num)]; norm_num at h1 ⊢; exact h1
  have h4 : (0 : ℝ) < (√(2 * π))⁻¹ := by positivity
  have := exp_pos (-x ^ 2 / 2)
  nlinarith

theorem Phi_lip (x y : ℝ) : |Phi x - Phi y| ≤ 2 / 5 * |x - y| := by
  rw [Phi_eq, Phi_eq]
  exact convex_univ.norm_image_sub_le_of_norm_hasDerivWithin_le (f := Distributions.Gaussian.std.cdf)
    (fun z _ => (Distributions.Gaussian.std_cdf_hasDerivAt z).hasDerivWithinAt) (fun z _ => pdf_le z) (Set.mem_univ y) (Set.mem_univ x)

theorem erfc_eq (y : ℝ) : Distributions.erfc y = 2 * Phi (-(√2 * y)) := by
  have := Distributions.Gaussian.erf_eq y
  rw [Phi_neg, Phi_eq]
  unfold Distributions.erf at this
  linarith

end Verif.Float.Bsm
