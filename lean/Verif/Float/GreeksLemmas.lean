import Verif.Float.GreeksSpec
import Verif.Float.BlackScholesRun

/-! Helper lemmas: the density of the normal distribution, and products and quotients with factors of at most one. -/

namespace Verif.Float.Bsm

open Real Verif.Float.Sim Verif.Options
open Verif.Float.Fft (ur mu top rnd_real toF64_total ur_pos mu_pos)

/-- The standard normal density. -/
noncomputable def density (x : ℝ) : ℝ := (√(2 * π))⁻¹ * exp (-(x ^ 2 / 2))

theorem root_two_pi : (5 / 2 : ℝ) ≤ √(2 * π) ∧ √(2 * π) ≤ 13 / 5 := by
  constructor
  · apply Real.le_sqrt_of_sq_le
    nlinarith [Real.pi_gt_d2]
  · rw [Real.sqrt_le_left (by norm_num)]
    nlinarith [Real.pi_lt_d2]

theorem inv_root : (√(2 * π))⁻¹ ≤ 2 / 5 ∧ 5 / 13 ≤ (√(2 * π))⁻¹ := by
  obtain ⟨h1, h2⟩ := root_two_pi
  constructor
  · rw [inv_le_comm₀ (by linarith) (by norm_num), show ((2 : ℝ) / 5)⁻¹ = 5 / 2 by norm_num]; exact h1
  · rw [le_inv_comm₀ (by norm_num) (by linarith), show ((5 : ℝ) / 13)⁻¹ = 13 / 5 by norm_num]; exact h2

theorem density_nonneg (x : ℝ) : 0 ≤ density x := by unfold density; positivity

theorem density_le (x : ℝ) : density x ≤ 2 / 5 := by
  have h1 := inv_root.1
  have h2 : exp (-(x ^ 2 / 2)) ≤ 1 := Real.exp_le_one_iff.2 (by nlinarith [sq_nonneg x])
  have h3 : 0 < exp (-(x ^ 2 / 2)) := exp_pos _
  unfold density
  have : 0 ≤ (√(2 * π))⁻¹ := by positivity
  nlinarith

theorem density_eq (x : ℝ) : density x = Distributions.Gaussian.std.pdf x := by
  rw [Distributions.Gaussian.std_pdf]
  unfold density
  congr 2
  ring

/-- `z exp (-z)` is at most one half, for `z ≥ 0`. -/
theorem z_exp (z : ℝ) (hz : 0 ≤ z) : z * exp (-z) ≤ 1 / 2 := by
  have h1 : 1 + z + z ^ 2 / 2 ≤ exp z := Real.quadratic_le_exp_of_nonneg hz
  have h2 : exp (-z) * exp z = 1 := by rw [← exp_add]; simp
  have h3 := exp_pos (-z)
  have h4 : exp (-z) * (2 * z) ≤ exp (-z) * exp z := mul_le_mul_of_nonneg_left (by nlinarith [sq_nonneg (z - 1)]) h3.le
  linarith

theorem density_deriv (x : ℝ) : HasDerivAt density (-x * density x) x := by
  have h : HasDerivAt (fun x : ℝ => -(x ^ 2 / 2)) (-x) x := by
    refine (((hasDerivAt_id x).pow 2).div_const 2).neg.congr_deriv ?_
    simp
  refine (h.exp.const_mul (√(2 * π))⁻¹).congr_deriv ?_
  unfold density
  ring

theorem density_slope (x : ℝ) : ‖-x * density x‖ ≤ 3 / 10 := by
  rw [Real.norm_eq_abs, abs_mul, abs_neg, abs_of_nonneg (density_nonneg x)]
  have h1 := inv_root.1
  have hx := abs_nonneg x
  have h5 : |x| * exp (-(x ^ 2 / 2)) ≤ 3 / 4 := by
    have h2 : 1 + x ^ 2 / 2 ≤ exp (x ^ 2 / 2) := by have := Real.add_one_le_exp (x ^ 2 / 2); linarith
    have h3 : exp (-(x ^ 2 / 2)) * exp (x ^ 2 / 2) = 1 := by rw [← exp_add]; simp
    have h4 := exp_pos (-(x ^ 2 / 2))
    have h6 : 4 / 3 * |x| ≤ 1 + x ^ 2 / 2 := by rw [← sq_abs]; nlinarith [sq_nonneg (|x| - 4 / 3)]
    have := mul_le_mul_of_nonneg_left (h6.trans h2) h4.le
    linarith
  unfold density
  have h0 : 0 ≤ |x| * exp (-(x ^ 2 / 2)) := by positivity
  have h7 : 0 ≤ (√(2 * π))⁻¹ := by positivity
  nlinarith

theorem density_lip (x y : ℝ) : |density x - density y| ≤ 3 / 10 * |x - y| :=
  convex_univ.norm_image_sub_le_of_norm_hasDerivWithin_le (f := density)
    (fun z _ => (density_deriv z).hasDerivWithinAt) (fun z _ => density_slope z) (Set.mem_univ y) (Set.mem_univ x)

section

variable {m : Libm} {δ : ℝ}

theorem pi_some {δ : ℝ} (hδ : Fine δ) : ∃ x, pi = some x ∧ |F64.real x - π| ≤ δ * π := by
  have h0 : pi.isSome = true := by decide +kernel
  obtain ⟨x, hx⟩ := Option.isSome_iff_exists.1 h0
  refine ⟨x, hx, ?_⟩
  have hv : (pi.map F64.val) = some (884279719003555 / 281474976710656) := by decide +kernel
  rw [hx] at hv
  have hv' : F64.real x = 884279719003555 / 281474976710656 := by
    have := Option.some.inj hv
    unfold F64.real
    rw [this]; norm_num
  rw [hv']
  have h1 := Real.pi_gt_d20
  have h2 := Real.pi_lt_d20
  have h3 := hδ.coarse
  have h4 : (2 : ℝ) ^ (-52 : ℤ) * 3 ≤ δ * π := mul_le_mul h3 (by linarith) (by norm_num) hδ.pos.le
  refine le_trans ?_ h4
  rw [abs_le]
  norm_num at h1 h2 ⊢
  constructor <;> linarith

theorem two_some : ∃ x, toF64 2 = some x ∧ F64.real x = 2 := by
  have : (toF64 2).isSome = true := by decide +kernel
  obtain ⟨x, hx⟩ := Option.isSome_iff_exists.1 this
  refine ⟨x, hx, ?_⟩
  have hv : (toF64 2).map F64.val = some 2 := by decide +kernel
  rw [hx] at hv
  unfold F64.real
  rw [Option.some.inj hv]; norm_num

theorem mhalf_some : ∃ x, toF64 (-1 / 2) = some x ∧ F64.real x = -1 / 2 := by
  have : (toF64 (-1 / 2)).isSome = true := by decide +kernel
  obtain ⟨x, hx⟩ := Option.isSome_iff_exists.1 this
  refine ⟨x, hx, ?_⟩
  have hv : (toF64 (-1 / 2)).map F64.val = some (-1 / 2) := by decide +kernel
  rw [hx] at hv
  unfold F64.real
  rw [Option.some.inj hv]; norm_num

theorem mul_one_some {x one : F64} (h : F64.real one = 1) : x.mul one = some x := by
  have : one.val = 1 := by unfold F64.real at h; exact_mod_cast h
  unfold F64.mul
  rw [this, mul_one]
  exact toF64_val x

theorem div_one_some {x one : F64} (h : F64.real one = 1) : x.div one = some x := by
  have : one.val = 1 := by unfold F64.real at h; exact_mod_cast h
  unfold F64.div
  rw [this, if_neg one_ne_zero, div_one]
  exact toF64_val x

/-- `1 / √(2π)`. -/
theorem front_near (hm : m.Accurate δ) (hδ : Fine δ) {one two p : F64} (h1 : F64.real one = 1) (h2 : F64.real two = 2)
    (hp : |F64.real p - π| ≤ δ * π) :
    ∃ a s t, two.mul p = some a ∧ m.sqrt a = some s ∧ one.div s = some t ∧ |F64.real t - (√(2 * π))⁻¹| ≤ 4 * δ := by
  have hδ0 := hδ.pos
  have hδ1 := hδ.le
  have hδu := hδ.ur
  have hu := ur_pos
  have hpi := Real.pi_gt_three
  have hpi4 := Real.pi_le_four
  obtain ⟨a, e1, r1⟩ := mulN (a := two) (b := p) (A := 2) (B := π) (α := 0) (β := δ) (by rw [h2]; simp)
    (by rw [abs_of_pos Real.pi_pos]; exact hp) le_rfl (by norm_num) hδ0.le (by linarith)
    (by rw [abs_of_pos (by positivity)]; exact Box.mono (i := 3) ⟨by norm_num; linarith, by norm_num; linarith⟩ (by norm_num))
  rw [abs_of_pos (show 0 < 2 * π by positivity)] at r1
  have r1' : |F64.real a - 2 * π| ≤ 2 * δ * (2 * π) := r1.trans (mul_le_mul_of_nonneg_right (by linarith) (by positivity))
  have ha : 0 < F64.real a := by
    have := (abs_le.1 r1').1
    nlinarith
  obtain ⟨s, e2, r2⟩ := hm.sqrt a ha
  obtain ⟨g1, g2⟩ := root_two_pi
  have hsq : |√(F64.real a) - √(2 * π)| ≤ 2 * δ * √(2 * π) := by
    have hs1 := Real.mul_self_sqrt ha.le
    have hs2 := Real.mul_self_sqrt (show 0 ≤ 2 * π by positivity)
    have h0 := Real.sqrt_nonneg (F64.real a)
    have hmul : |√(F64.real a) - √(2 * π)| * √(2 * π) ≤ |F64.real a - 2 * π| := by
      rw [show F64.real a - 2 * π = (√(F64.real a) - √(2 * π)) * (√(F64.real a) + √(2 * π)) by nlinarith, abs_mul]
      refine mul_le_mul_of_nonneg_left ?_ (abs_nonneg _)
      rw [abs_of_pos (by linarith)]
      linarith
    have h3 : |√(F64.real a) - √(2 * π)| * √(2 * π) ≤ (2 * δ * √(2 * π)) * √(2 * π) := by
      refine hmul.trans (r1'.trans (le_of_eq ?_))
      rw [mul_assoc (2 * δ), hs2]
    exact le_of_mul_le_mul_right h3 (by linarith)
  have hs : |F64.real s - √(2 * π)| ≤ 31 / 10 * δ * |√(2 * π)| := by
    rw [abs_of_nonneg (Real.sqrt_nonneg _)]
    rw [show F64.real s - √(2 * π) = (F64.real s - √(F64.real a)) + (√(F64.real a) - √(2 * π)) by ring]
    refine (abs_add_le _ _).trans ?_
    have e : √(F64.real a) ≤ 101 / 100 * √(2 * π) := by
      have := (abs_le.1 hsq).2
      nlinarith
    have := mul_le_mul_of_nonneg_left e hδ0.le
    have : 0 < δ * √(2 * π) := by positivity
    linarith
  obtain ⟨t, e3, r3⟩ := divN (a := one) (b := s) (A := 1) (B := √(2 * π)) (α := 0) (β := 31 / 10 * δ) (by rw [h1]; simp) hs le_rfl
    (by norm_num) (by linarith) (by linarith) (by linarith)
    (by
      rw [abs_of_pos (by positivity)]
      exact (box_one.div (Box.mono (i := 2) (x := √(2 * π)) ⟨le_trans (by norm_num) g1, g2.trans (by norm_num)⟩ le_rfl)).mono (by norm_num))
  refine ⟨a, s, t, e1, e2, e3, ?_⟩
  rw [one_div, abs_of_pos (show 0 < (√(2 * π))⁻¹ by positivity)] at r3
  have := inv_root.1
  have h0 : 0 ≤ (√(2 * π))⁻¹ := by positivity
  refine r3.trans ?_
  nlinarith

/-- The exponential of a rounded `-x² / 2`. -/
theorem bell_near (hm : m.Accurate δ) (ht : m.Tail δ) (hδ : Fine δ) {y : F64} {z : ℝ} (hz : 0 ≤ z) (hy : |F64.real y + z| ≤ 11 / 10 * (δ * z) + δ) :
    ∃ w, m.exp y = some w ∧ |F64.real w - exp (-z)| ≤ 4 * δ := by
  have hδ0 := hδ.pos
  have hδ1 := hδ.le
  have hy' := abs_le.1 hy
  have hneg : F64.real y ≤ 1 / 1000 := by nlinarith
  have hE1 : exp (F64.real y) ≤ 101 / 100 := by
    have := Real.abs_exp_sub_one_le (x := 1 / 1000) (by norm_num)
    have h2 := (abs_le.1 this).2
    rw [abs_of_pos (by norm_num)] at h2
    exact (exp_le_exp.2 hneg).trans (by linarith)
  have hdiff : |exp (F64.real y) - exp (-z)| ≤ 29 / 10 * δ := by
    by_cases hs : 11 / 10 * (δ * z) + δ ≤ 1
    · have h1 := Real.abs_exp_sub_one_le (x := F64.real y + z) (by linarith)
      rw [show exp (F64.real y) = exp (F64.real y + z) * exp (-z) by rw [← exp_add]; congr 1; ring,
        show exp (F64.real y + z) * exp (-z) - exp (-z) = (exp (F64.real y + z) - 1) * exp (-z) by ring, abs_mul, abs_of_pos (exp_pos _)]
      have h2 : |exp (F64.real y + z) - 1| * exp (-z) ≤ 2 * (11 / 10 * (δ * z) + δ) * exp (-z) :=
        mul_le_mul_of_nonneg_right (by linarith) (exp_pos _).le
      refine h2.trans ?_
      have h3 := z_exp z hz
      have h4 : exp (-z) ≤ 1 := Real.exp_le_one_iff.2 (by linarith)
      have h5 : (z + 1) * exp (-z) ≤ 1 := by
        have h6 : 1 + z + z ^ 2 / 2 ≤ exp z := Real.quadratic_le_exp_of_nonneg hz
        have h7 : exp (-z) * exp z = 1 := by rw [← exp_add]; simp
        nlinarith [mul_le_mul_of_nonneg_left (show z + 1 ≤ exp z by nlinarith [sq_nonneg z]) (exp_pos (-z)).le]
      nlinarith
    · have hz2 : 9 / 10 ≤ δ * z := by linarith
      have hzl : 900000 ≤ z := by nlinarith
      have h1 : F64.real y ≤ -(z / 2) := by nlinarith
      have h2 : exp (F64.real y) ≤ exp (-(z / 2)) := exp_le_exp.2 h1
      have h3 : exp (-z) ≤ exp (-(z / 2)) := exp_le_exp.2 (by linarith)
      have h4 : exp (-(z / 2)) ≤ δ := by
        have h5 := z_exp (z / 4) (by linarith)
        have h6 : exp (-(z / 2)) = exp (-(z / 4)) * exp (-(z / 4)) := by rw [← exp_add]; congr 1; ring
        have h7 := exp_pos (-(z / 4))
        have h8 : exp (-(z / 4)) ≤ 2 / z := by rw [le_div_iff₀ (by linarith)]; linarith
        have h9 : 1 / z ≤ δ * (10 / 9) := by
          rw [div_le_iff₀ (by linarith)]
          nlinarith
        have h10 : 2 / z ≤ 1 / 1000 := by rw [div_le_iff₀ (by linarith)]; linarith
        rw [h6]
        have h11 : 2 / z = 2 * (1 / z) := by ring
        nlinarith
      have := exp_pos (F64.real y)
      have := exp_pos (-z)
      rw [abs_le]
      constructor <;> linarith
  have hw : ∃ w, m.exp y = some w ∧ |F64.real w - exp (F64.real y)| ≤ 11 / 10 * δ := by
    by_cases h5 : F64.real y ≤ -500
    · obtain ⟨w, h1, h2⟩ := ht y h5
      exact ⟨w, h1, by linarith⟩
    · obtain ⟨w, h1, h2⟩ := hm.exp y (by rw [abs_le]; constructor <;> linarith)
      refine ⟨w, h1, h2.trans ?_⟩
      nlinarith
  obtain ⟨w, h1, h2⟩ := hw
  refine ⟨w, h1, ?_⟩
  rw [show F64.real w - exp (-z) = (F64.real w - exp (F64.real y)) + (exp (F64.real y) - exp (-z)) by ring]
  exact (abs_add_le _ _).trans (by linarith)

/-- The density, at an argument that is known exactly. -/
theorem pdf_near (hm : m.Accurate δ) (ht : m.Tail δ) (hδ : Fine δ) {x : F64} (hx : |F64.real x| ≤ 2 ^ 60) :
    ∃ c, pdf m x = some c ∧ |F64.real c - density (F64.real x)| ≤ 7 * δ := by
  have hδ0 := hδ.pos
  have hδ1 := hδ.le
  have hδu := hδ.ur
  have hu := ur_pos
  have hmu := mu_pos
  have hmu4 := mu_ur
  obtain ⟨one, h1, r1⟩ := one_some
  obtain ⟨two, h2, r2⟩ := two_some
  obtain ⟨mh, h3, r3⟩ := mhalf_some
  obtain ⟨p, h4, r4⟩ := pi_some hδ
  obtain ⟨a, s, t, h5, h6, h7, r7⟩ := front_near hm hδ r1 r2 r4
  have hsq : |F64.real x * F64.real x| ≤ 2 ^ 120 := by
    rw [abs_mul, show (2 : ℝ) ^ 120 = 2 ^ 60 * 2 ^ 60 by rw [← pow_add]]
    exact mul_le_mul hx hx (abs_nonneg _) (by positivity)
  have hsq0 : 0 ≤ F64.real x * F64.real x := mul_self_nonneg _
  obtain ⟨q, h8, r8⟩ := mulR (a := x) (b := x) (top_of 120 (by norm_num) hsq)
  rw [abs_of_nonneg hsq0] at r8 hsq
  have hq : |F64.real q - F64.real x * F64.real x| ≤ ur * (F64.real x * F64.real x) + ur / 4 := by linarith
  have hqb : |F64.real mh * F64.real q| ≤ 2 ^ 121 := by
    rw [r3]
    have := abs_le.1 hq
    have h9 : ur * (F64.real x * F64.real x) ≤ 1 * (F64.real x * F64.real x) := mul_le_mul_of_nonneg_right (by linarith) hsq0
    rw [abs_le, show (2 : ℝ) ^ 121 = 2 * 2 ^ 120 by norm_num]
    have hB : (1 : ℝ) ≤ 2 ^ 120 := by norm_num
    generalize (2 : ℝ) ^ 120 = B at hsq hB ⊢
    constructor <;> linarith
  obtain ⟨y, h9, r9⟩ := mulR (a := mh) (b := q) (top_of 121 (by norm_num) hqb)
  have hy : |F64.real y + F64.real x ^ 2 / 2| ≤ 11 / 10 * (δ * (F64.real x ^ 2 / 2)) + δ := by
    have e1 : |F64.real mh * F64.real q + F64.real x ^ 2 / 2| ≤ ur * (F64.real x ^ 2 / 2) + ur / 8 := by
      rw [r3, show (-1 / 2 : ℝ) * F64.real q + F64.real x ^ 2 / 2 = -(1 / 2) * (F64.real q - F64.real x * F64.real x) by ring, abs_mul]
      rw [show |(-(1 / 2) : ℝ)| = 1 / 2 by norm_num]
      nlinarith
    have e2 : |F64.real mh * F64.real q| ≤ 99 / 100 * (F64.real x ^ 2) + 1 := by
      have := abs_le.1 e1
      have hu2 : ur * (F64.real x ^ 2 / 2) ≤ 1 / 100 * (F64.real x ^ 2 / 2) := mul_le_mul_of_nonneg_right (by linarith) (by positivity)
      have : 0 ≤ F64.real x ^ 2 := by positivity
      rw [abs_le]
      constructor <;> linarith
    rw [show F64.real y + F64.real x ^ 2 / 2 = (F64.real y - F64.real mh * F64.real q) + (F64.real mh * F64.real q + F64.real x ^ 2 / 2) by ring]
    refine (abs_add_le _ _).trans ?_
    have e3 := mul_le_mul_of_nonneg_left e2 hu.le
    have e4 : 2 * ur * F64.real x ^ 2 ≤ δ * F64.real x ^ 2 := mul_le_mul_of_nonneg_right hδu (by positivity)
    have e5 : 0 ≤ ur * F64.real x ^ 2 := by positivity
    have e6 : |F64.real y - F64.real mh * F64.real q| ≤ ur * (51 / 100 * F64.real x ^ 2 + 1) + mu := by
      refine r9.trans ?_
      have : |F64.real mh * F64.real q| ≤ 51 / 100 * (F64.real x ^ 2) + 1 := by
        have := abs_le.1 e1
        have hu2 : ur * (F64.real x ^ 2 / 2) ≤ 1 / 100 * (F64.real x ^ 2 / 2) := mul_le_mul_of_nonneg_right (by linarith) (by positivity)
        have : 0 ≤ F64.real x ^ 2 := by positivity
        rw [abs_le]
        constructor <;> linarith
      have := mul_le_mul_of_nonneg_left this hu.le
      linarith
    nlinarith
  have hy' : |F64.real y + F64.real x ^ 2 / 2| ≤ 11 / 10 * (δ * (F64.real x ^ 2 / 2)) + δ := hy
  obtain ⟨w, h10, r10⟩ := bell_near hm ht hδ (y := y) (z := F64.real x ^ 2 / 2) (by positivity) hy'
  have hE0 := exp_pos (-(F64.real x ^ 2 / 2))
  have hE1 : exp (-(F64.real x ^ 2 / 2)) ≤ 1 := Real.exp_le_one_iff.2 (by nlinarith [sq_nonneg (F64.real x)])
  obtain ⟨i1, i2⟩ := inv_root
  have ht' := abs_le.1 r7
  have hw' := abs_le.1 r10
  have htb : |F64.real t| ≤ 41 / 100 := by rw [abs_le]; constructor <;> linarith
  have hwb : |F64.real w| ≤ 101 / 100 := by rw [abs_le]; constructor <;> linarith
  have hprod : |F64.real t * F64.real w| ≤ 1 / 2 := by
    rw [abs_mul]
    have := mul_le_mul htb hwb (abs_nonneg _) (by norm_num)
    linarith
  obtain ⟨c, h11, r11⟩ := mulR (a := t) (b := w) (top_of 1 (by norm_num) (hprod.trans (by norm_num)))
  refine ⟨c, ?_, ?_⟩
  · simp only [pdf, sub_zero_some, h1, h2, h3, h4, h5, h6, h7, h8, h9, h10, h11, mul_one_some r1, div_one_some r1, Option.bind_eq_bind,
      Option.bind_some]
  · unfold density
    rw [show F64.real c - (√(2 * π))⁻¹ * exp (-(F64.real x ^ 2 / 2)) = (F64.real c - F64.real t * F64.real w) +
      (F64.real t - (√(2 * π))⁻¹) * F64.real w + (√(2 * π))⁻¹ * (F64.real w - exp (-(F64.real x ^ 2 / 2))) by ring]
    refine (abs_add_le _ _).trans (_root_.add_le_add (abs_add_le _ _) le_rfl |>.trans ?_)
    rw [abs_mul (F64.real t - _), abs_mul (√(2 * π))⁻¹, abs_of_nonneg (show 0 ≤ (√(2 * π))⁻¹ by positivity)]
    have e1 := mul_le_mul r7 hwb (abs_nonneg _) (by linarith)
    have e2 := mul_le_mul i1 r10 (abs_nonneg _) (by norm_num)
    have e3 := mul_le_mul_of_nonneg_left hprod hu.le
    linarith

/-- The density, at an argument that carries an error. -/
theorem pdf_at (hm : m.Accurate δ) (ht : m.Tail δ) (hδ : Fine δ) {x : F64} {X Q : ℝ} (hQ : 0 ≤ Q) (hQ1 : δ * Q ≤ 2 ^ (-10 : ℤ))
    (hX : |X| ≤ 3 * Q) (hx : |F64.real x - X| ≤ 16 * (δ * Q)) :
    ∃ c, pdf m x = some c ∧ |F64.real c - density X| ≤ δ * (7 + 5 * Q) := by
  have hδ0 := hδ.pos
  have hδ1 := hδ.le
  have h1 : |F64.real x| ≤ 3 * Q + 16 * (δ * Q) := by
    rw [show F64.real x = (F64.real x - X) + X by ring]
    refine (abs_add_le _ _).trans (by linarith)
  have hQb : Q ≤ 2 ^ 42 := by
    have h2 : 2 ^ (-52 : ℤ) * Q ≤ 2 ^ (-10 : ℤ) := (mul_le_mul_of_nonneg_right hδ.coarse hQ).trans hQ1
    have e : (2 : ℝ) ^ (-10 : ℤ) = 2 ^ (-52 : ℤ) * 2 ^ 42 := by norm_num
    rw [e] at h2
    exact le_of_mul_le_mul_left h2 (by positivity)
  have hδQ : δ * Q ≤ 1 / 1000000 * Q := mul_le_mul_of_nonneg_right hδ1 hQ
  obtain ⟨c, h2, h3⟩ := pdf_near hm ht hδ (x := x) (by
    refine h1.trans ?_
    norm_num at hQb ⊢
    linarith)
  refine ⟨c, h2, ?_⟩
  rw [show F64.real c - density X = (F64.real c - density (F64.real x)) + (density (F64.real x) - density X) by ring]
  refine (abs_add_le _ _).trans ?_
  have h4 := density_lip (F64.real x) X
  have h7 : 0 ≤ δ * Q := mul_nonneg hδ0.le hQ
  linarith

/-- A number near `F N`, with `N` of at most one, times a factor with a relative error. -/
theorem mulS {p g : F64} {F N G ε γ : ℝ} (hp : |F64.real p - F * N| ≤ ε * |F|) (hN : |N| ≤ 1) (hε : 0 ≤ ε) (hε1 : ε ≤ 1 / 8)
    (hg : |F64.real g - G| ≤ γ * |G|) (hγ : 0 ≤ γ) (hγ1 : γ ≤ 1 / 8) (h : Box 1000 |F * G|) :
    ∃ r, p.mul g = some r ∧ |F64.real r - F * G * N| ≤ (ε + 9 / 8 * γ + 2 * ur) * |F * G| := by
  have hm := mu_small h
  have hX := h.pos
  have hu := ur_pos
  have hF := abs_nonneg F
  have hG := abs_nonneg G
  have hpb : |F64.real p| ≤ 9 / 8 * |F| := by
    rw [show F64.real p = (F64.real p - F * N) + F * N by ring]
    refine (abs_add_le _ _).trans ?_
    rw [abs_mul F N]
    have h1 : |F| * |N| ≤ |F| * 1 := by gcongr
    have h2 : ε * |F| ≤ 1 / 8 * |F| := by gcongr
    linarith
  have e : |F64.real p * F64.real g - F * G * N| ≤ (ε + 9 / 8 * γ) * |F * G| := by
    rw [show F64.real p * F64.real g - F * G * N = F64.real p * (F64.real g - G) + (F64.real p - F * N) * G by ring]
    refine (abs_add_le _ _).trans ?_
    rw [abs_mul, abs_mul, abs_mul]
    have h1 : |F64.real p| * |F64.real g - G| ≤ (9 / 8 * |F|) * (γ * |G|) := by gcongr
    have h2 : |F64.real p - F * N| * |G| ≤ (ε * |F|) * |G| := by gcongr
    linarith
  have hb : |F64.real p * F64.real g| ≤ 13 / 10 * |F * G| := by
    have hgb : |F64.real g| ≤ 9 / 8 * |G| := by
      rw [show F64.real g = (F64.real g - G) + G by ring]
      refine (abs_add_le _ _).trans ?_
      have : γ * |G| ≤ 1 / 8 * |G| := by gcongr
      linarith
    rw [abs_mul, abs_mul]
    have : |F64.real p| * |F64.real g| ≤ (9 / 8 * |F|) * (9 / 8 * |G|) := by gcongr
    have : 0 ≤ |F| * |G| := by positivity
    linarith
  obtain ⟨r, h1, r1⟩ := mulR (a := p) (b := g) (top_large h.2 (by linarith))
  refine ⟨r, h1, ?_⟩
  rw [show F64.real r - F * G * N = (F64.real r - F64.real p * F64.real g) + (F64.real p * F64.real g - F * G * N) by ring]
  refine (abs_add_le _ _).trans ?_
  have := mul_le_mul_of_nonneg_left hb hu.le
  have := mul_pos hu hX
  linarith

/-- A number near `F N`, with `N` of at most one, over a factor with a relative error. -/
theorem divS {p g : F64} {F N G ε γ : ℝ} (hp : |F64.real p - F * N| ≤ ε * |F|) (hN : |N| ≤ 1) (hε : 0 ≤ ε) (hε1 : ε ≤ 1 / 8)
    (hg : |F64.real g - G| ≤ γ * |G|) (hγ : 0 ≤ γ) (hγ1 : γ ≤ 1 / 8) (hG0 : G ≠ 0) (h : Box 1000 |F / G|) :
    ∃ r, p.div g = some r ∧ |F64.real r - F / G * N| ≤ (8 / 7 * ε + 8 / 7 * γ + 2 * ur) * |F / G| := by
  have hm := mu_small h
  have hX := h.pos
  have hu := ur_pos
  have hF := abs_nonneg F
  have hG : 0 < |G| := abs_pos.2 hG0
  have hgl : 7 / 8 * |G| ≤ |F64.real g| := by
    have h1 : |G| ≤ |F64.real g| + |F64.real g - G| := by
      rw [show G = F64.real g - (F64.real g - G) by ring]
      refine (abs_sub _ _).trans (le_of_eq ?_)
      congr 2
      ring
    have h2 : γ * |G| ≤ 1 / 8 * |G| := by gcongr
    linarith
  have hg0 : 0 < |F64.real g| := by linarith
  have hg0' : F64.real g ≠ 0 := abs_pos.1 hg0
  have hinv : 1 / |F64.real g| ≤ 8 / 7 * (1 / |G|) := by
    rw [div_le_iff₀ hg0, show 8 / 7 * (1 / |G|) * |F64.real g| = (8 / 7 * |F64.real g|) / |G| by ring, le_div_iff₀ hG]
    linarith
  have eFG : |F / G| = |F| * (1 / |G|) := by rw [abs_div]; ring
  have e : |F64.real p / F64.real g - F / G * N| ≤ (8 / 7 * ε + 8 / 7 * γ) * |F / G| := by
    have eq : F64.real p / F64.real g - F / G * N = (F64.real p - F * N) * (1 / F64.real g) + F / G * N * ((G - F64.real g) * (1 / F64.real g)) := by
      field_simp
      ring
    rw [eq]
    refine (abs_add_le _ _).trans ?_
    rw [abs_mul, abs_mul (F / G * N), abs_mul (F / G), abs_mul (G - _), abs_div, abs_one, abs_sub_comm G, eFG]
    have h1 : |F64.real p - F * N| * (1 / |F64.real g|) ≤ (ε * |F|) * (8 / 7 * (1 / |G|)) :=
      mul_le_mul hp hinv (by positivity) (by positivity)
    have h2 : |F64.real g - G| * (1 / |F64.real g|) ≤ (γ * |G|) * (8 / 7 * (1 / |G|)) :=
      mul_le_mul hg hinv (by positivity) (by positivity)
    have h3 : (γ * |G|) * (8 / 7 * (1 / |G|)) = 8 / 7 * γ := by field_simp
    rw [h3] at h2
    have h4 : |F| * (1 / |G|) * |N| * (|F64.real g - G| * (1 / |F64.real g|)) ≤ |F| * (1 / |G|) * 1 * (8 / 7 * γ) := by
      gcongr
    linarith
  have hb : |F64.real p / F64.real g| ≤ 3 * |F / G| := by
    rw [show F64.real p / F64.real g = (F64.real p / F64.real g - F / G * N) + F / G * N by ring]
    refine (abs_add_le _ _).trans ?_
    rw [abs_mul (F / G) N]
    have h1 : |F / G| * |N| ≤ |F / G| * 1 := by gcongr
    have h2 : (8 / 7 * ε + 8 / 7 * γ) * |F / G| ≤ 1 * |F / G| := by gcongr; linarith
    linarith
  have hb2 : |F64.real p / F64.real g| ≤ 3 / 2 * |F / G| := by
    rw [show F64.real p / F64.real g = (F64.real p / F64.real g - F / G * N) + F / G * N by ring]
    refine (abs_add_le _ _).trans ?_
    rw [abs_mul (F / G) N]
    have h1 : |F / G| * |N| ≤ |F / G| * 1 := by gcongr
    have h2 : (8 / 7 * ε + 8 / 7 * γ) * |F / G| ≤ 2 / 7 * |F / G| := by gcongr; linarith
    linarith
  obtain ⟨r, h1, r1⟩ := divR (a := p) (b := g) hg0' (top_large h.2 (by linarith))
  refine ⟨r, h1, ?_⟩
  rw [show F64.real r - F / G * N = (F64.real r - F64.real p / F64.real g) + (F64.real p / F64.real g - F / G * N) by ring]
  refine (abs_add_le _ _).trans ?_
  have := mul_le_mul_of_nonneg_left hb2 hu.le
  have := mul_pos hu hX
  linarith

end

end Verif.Float.Bsm
