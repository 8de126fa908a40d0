import Verif.Float.BlackScholesLemmas

/-! Helper lemmas: the errors of `d1`, `d2`, the distribution function and the discount factors. -/

namespace Verif.Float.Bsm

open Real Verif.Float.Sim Verif.Options
open Verif.Float.Fft (ur mu top rnd_real toF64_total ur_pos mu_pos)

theorem sub_zero_some (q : F64) : q.sub F64.zero = some q := by
  unfold F64.sub
  rw [show q.val - F64.zero.val = q.val from _root_.sub_zero _]
  exact toF64_val q

theorem top_of {y : ℝ} (i : ℕ) (hi : i ≤ 1000) (h : y ≤ 2 ^ i) : y ≤ top :=
  h.trans (by unfold top; exact pow_le_pow_right₀ (by norm_num) (by omega))

theorem mu_ur : mu ≤ ur / 4 := by
  have := mu_small (box_one.mono (by norm_num))
  linarith

theorem rel_self (x : ℝ) : |x - x| ≤ 0 * |x| := by simp

section

variable {m : Libm} {δ : ℝ}

theorem cdf_arg {x den a : ℝ} {δ u μ : ℝ} (hδ : 0 < δ) (hδ1 : δ ≤ 1 / 1000000) (hu : 2 * u ≤ δ) (hu0 : 0 < u) (hμ : 0 ≤ μ)
    (hd : |den - √2| ≤ 4 * δ * √2) (ha : |a - -x / den| ≤ u * |-x / den| + μ) :
    |-(√2 * a) - x| ≤ 5 * δ * |x| + 2 * μ := by
  have h1 : (141421 / 100000 : ℝ) ≤ √2 := Real.le_sqrt_of_sq_le (by norm_num)
  have h2 : √2 ≤ (141422 / 100000) := Real.sqrt_le_iff.2 ⟨by norm_num, by norm_num⟩
  have hden : 7 / 5 ≤ den := by
    have := (abs_le.1 hd).1
    nlinarith
  have hx := abs_nonneg x
  have e1 : |-x / den| ≤ |x| * (5 / 7) := by
    rw [abs_div, abs_neg, abs_of_pos (by linarith : 0 < den), div_le_iff₀ (by linarith)]
    nlinarith
  have e2 : |x - √2 * (x / den)| ≤ 41 / 10 * δ * |x| := by
    rw [show x - √2 * (x / den) = x * ((den - √2) / den) by field_simp, abs_mul, abs_div, abs_of_pos (by linarith : 0 < den)]
    have : |den - √2| / den ≤ 41 / 10 * δ := by
      rw [div_le_iff₀ (by linarith)]
      nlinarith
    nlinarith
  rw [show -(√2 * a) - x = -(√2 * (a - -x / den)) - (x - √2 * (x / den)) by ring]
  refine (abs_sub _ _).trans ?_
  rw [abs_neg, abs_mul, abs_of_nonneg (Real.sqrt_nonneg 2)]
  have e3 : u * |-x / den| ≤ δ / 2 * (|x| * (5 / 7)) := by
    have := abs_nonneg (-x / den)
    nlinarith
  have e4 : √2 * |a - -x / den| ≤ (141422 / 100000) * (δ / 2 * (|x| * (5 / 7)) + μ) := by
    have := abs_nonneg (a - -x / den)
    nlinarith
  have e5 : 0 ≤ δ * |x| := by positivity
  nlinarith

/-- The normal distribution function, at an argument that is known exactly. -/
theorem cdf_near (hm : m.Accurate δ) (hδ : Fine δ) {x : F64} (hx : |F64.real x| ≤ 2 ^ 60) :
    ∃ c, cdf m x = some c ∧ |F64.real c - Phi (F64.real x)| ≤ 2 * δ + 2 * δ * |F64.real x| := by
  have hδ0 := hδ.pos
  have hδ1 := hδ.le
  have hδu := hδ.ur
  have hu := ur_pos
  have hmu := mu_pos
  have hmu4 := mu_ur
  obtain ⟨one, h1, r1⟩ := one_some
  obtain ⟨half, h2, r2⟩ := half_some
  obtain ⟨s2, h3, r3⟩ := sqrt2_some hδ
  obtain ⟨s1, h4, r4⟩ := hm.sqrt one (by rw [r1]; norm_num)
  rw [r1, Real.sqrt_one] at r4
  have hs2 : (7 / 5 : ℝ) ≤ √2 := Real.le_sqrt_of_sq_le (by norm_num)
  have hs2' : √2 ≤ 3 / 2 := Real.sqrt_le_iff.2 ⟨by norm_num, by norm_num⟩
  obtain ⟨den, h5, r5⟩ := mulN (a := s2) (b := s1) (A := √2) (B := 1) (α := δ) (β := δ)
    (by rw [abs_of_nonneg (Real.sqrt_nonneg 2)]; exact r3) (by rw [abs_one]; exact r4) hδ0.le (by linarith) hδ0.le (by linarith)
    (by
      rw [mul_one, abs_of_nonneg (Real.sqrt_nonneg 2)]
      exact Box.mono (i := 1) ⟨by rw [pow_one]; linarith, by rw [pow_one]; linarith⟩ (by norm_num))
  rw [mul_one, abs_of_nonneg (Real.sqrt_nonneg 2)] at r5
  have r5' : |F64.real den - √2| ≤ 4 * δ * √2 := by
    refine r5.trans (mul_le_mul_of_nonneg_right ?_ (Real.sqrt_nonneg 2))
    nlinarith
  have hden : 1 ≤ F64.real den := by
    have := (abs_le.1 r5').1
    nlinarith
  have hq : |F64.real (neg x) / F64.real den| ≤ |F64.real x| := by
    rw [real_neg, abs_div, abs_neg, abs_of_pos (by linarith : 0 < F64.real den)]
    exact div_le_self (abs_nonneg _) hden
  obtain ⟨a, h6, r6⟩ := divR (a := neg x) (b := den) (by linarith) (top_of 60 (by norm_num) (hq.trans hx))
  rw [real_neg] at r6
  have e1 := cdf_arg hδ0 hδ1 hδu hu hmu.le r5' r6
  obtain ⟨f, h7, r7⟩ := hm.erfc a
  rw [erfc_eq] at r7
  have hP := Phi_mem (-(√2 * F64.real a))
  have hf : |F64.real half * F64.real f| ≤ (11 / 10) := by
    rw [r2, abs_le]
    have := abs_le.1 r7
    constructor <;> linarith
  obtain ⟨c, h8, r8⟩ := mulR (a := half) (b := f) (top_of 1 (by norm_num) (hf.trans (by norm_num)))
  refine ⟨c, ?_, ?_⟩
  · simp only [cdf, sub_zero_some, h1, h2, h3, h4, h5, h6, h7, h8, Option.bind_eq_bind, Option.bind_some]
  · have hl := Phi_lip (-(√2 * F64.real a)) (F64.real x)
    rw [show F64.real c - Phi (F64.real x) = (F64.real c - F64.real half * F64.real f) +
      (F64.real half * F64.real f - Phi (-(√2 * F64.real a))) + (Phi (-(√2 * F64.real a)) - Phi (F64.real x)) by ring]
    refine (abs_add_le _ _).trans (_root_.add_le_add (abs_add_le _ _) le_rfl |>.trans ?_)
    have e2 : |F64.real half * F64.real f - Phi (-(√2 * F64.real a))| ≤ δ / 2 := by
      rw [r2, abs_le]
      have := abs_le.1 r7
      constructor <;> linarith
    have e3 : ur * |F64.real half * F64.real f| ≤ ur * (11 / 10) := mul_le_mul_of_nonneg_left hf hu.le
    have e4 : 0 ≤ δ * |F64.real x| := by positivity
    linarith

/-- The normal distribution function, at an argument that carries an error. -/
theorem cdf_at (hm : m.Accurate δ) (hδ : Fine δ) {x : F64} {X Q : ℝ} (hQ : 0 ≤ Q) (hQ1 : δ * Q ≤ 2 ^ (-10 : ℤ)) (hX : |X| ≤ 3 * Q)
    (hx : |F64.real x - X| ≤ 16 * (δ * Q)) :
    ∃ c, cdf m x = some c ∧ |F64.real c - Phi X| ≤ δ * (2 + 13 * Q) := by
  have hδ0 := hδ.pos
  have hδ1 := hδ.le
  have h1 : |F64.real x| ≤ 3 * Q + 16 * (δ * Q) := by
    rw [show F64.real x = (F64.real x - X) + X by ring]
    refine (abs_add_le _ _).trans (by linarith)
  have hQb : Q ≤ 2 ^ 42 := by
    have h2 : 2 ^ (-52 : ℤ) * Q ≤ 2 ^ (-10 : ℤ) := (mul_le_mul_of_nonneg_right hδ.coarse hQ).trans hQ1
    have e : (2 : ℝ) ^ (-10 : ℤ) = 2 ^ (-52 : ℤ) * 2 ^ 42 := by norm_num
    rw [e] at h2
    exact le_of_mul_le_mul_left h2 (by positivity)
  have hδQ : δ * Q ≤ 1 / 1000000 * Q := mul_le_mul_of_nonneg_right hδ1 hQ
  obtain ⟨c, h2, h3⟩ := cdf_near hm hδ (x := x) (by
    refine h1.trans ?_
    norm_num at hQb ⊢
    linarith)
  refine ⟨c, h2, ?_⟩
  rw [show F64.real c - Phi X = (F64.real c - Phi (F64.real x)) + (Phi (F64.real x) - Phi X) by ring]
  refine (abs_add_le _ _).trans ?_
  have h4 := Phi_lip (F64.real x) X
  have h5 : |F64.real x| ≤ 31 / 10 * Q := by linarith
  have h6 := mul_le_mul_of_nonneg_left h5 hδ0.le
  have h7 : 0 ≤ δ * Q := mul_nonneg hδ0.le hQ
  linarith

/-- The exponential of `d * T`. -/
theorem expo (hm : m.Accurate δ) (hδ : Fine δ) {d t : F64} {D E : ℝ} (hd : |F64.real d - D| ≤ ur * |D|) (ht : 0 ≤ F64.real t)
    (hE : |D| * F64.real t ≤ E) (hE1 : E ≤ 300) :
    ∃ y z, d.mul t = some y ∧ m.exp y = some z ∧
      |F64.real z - exp (D * F64.real t)| ≤ δ * (2 + 3 * E) * exp (D * F64.real t) := by
  have hδ0 := hδ.pos
  have hδ1 := hδ.le
  have hδu := hδ.ur
  have hu := ur_pos
  have hmu := mu_pos
  have hmu4 := mu_ur
  have hDt : |D * F64.real t| ≤ E := by rw [abs_mul, abs_of_nonneg ht]; exact hE
  have hE0 : 0 ≤ E := (abs_nonneg _).trans hDt
  have e1 : |F64.real d * F64.real t - D * F64.real t| ≤ ur * E := by
    rw [show F64.real d * F64.real t - D * F64.real t = (F64.real d - D) * F64.real t by ring, abs_mul, abs_of_nonneg ht]
    have := mul_le_mul_of_nonneg_right hd ht
    have := mul_le_mul_of_nonneg_left hE hu.le
    linarith
  have hu1 : ur ≤ 1 / 1000000 := by linarith
  have huE : ur * E ≤ 1 / 1000000 * E := mul_le_mul_of_nonneg_right hu1 hE0
  have huE0 : 0 ≤ ur * E := by positivity
  have e2 : |F64.real d * F64.real t| ≤ 101 / 100 * E := by
    rw [show F64.real d * F64.real t = (F64.real d * F64.real t - D * F64.real t) + D * F64.real t by ring]
    refine (abs_add_le _ _).trans (by linarith)
  obtain ⟨y, h1, r1⟩ := mulR (a := d) (b := t) (top_of 9 (by norm_num) (e2.trans (by norm_num; linarith)))
  have e3 : |F64.real y - D * F64.real t| ≤ δ * (21 / 20 * E + 1 / 8) := by
    rw [show F64.real y - D * F64.real t = (F64.real y - F64.real d * F64.real t) + (F64.real d * F64.real t - D * F64.real t) by ring]
    refine (abs_add_le _ _).trans ?_
    have := mul_le_mul_of_nonneg_left e2 hu.le
    have : 2 * ur * E ≤ δ * E := mul_le_mul_of_nonneg_right hδu hE0
    linarith
  have e4 : δ * (21 / 20 * E + 1 / 8) ≤ 1 / 1000 := by nlinarith
  obtain ⟨z, h2, r2⟩ := hm.exp y (by
    rw [show F64.real y = (F64.real y - D * F64.real t) + D * F64.real t by ring]
    refine (abs_add_le _ _).trans ?_
    linarith)
  refine ⟨y, z, h1, h2, ?_⟩
  set Y := D * F64.real t
  have e5 : exp (F64.real y) = exp Y * exp (F64.real y - Y) := by rw [← Real.exp_add]; congr 1; ring
  have e6 := Real.abs_exp_sub_one_le (x := F64.real y - Y) (by linarith)
  have hY := exp_pos Y
  have e7 : |exp (F64.real y) - exp Y| ≤ 2 * (δ * (21 / 20 * E + 1 / 8)) * exp Y := by
    rw [e5, show exp Y * exp (F64.real y - Y) - exp Y = (exp (F64.real y - Y) - 1) * exp Y by ring, abs_mul, abs_of_pos hY]
    refine mul_le_mul_of_nonneg_right (e6.trans ?_) hY.le
    linarith
  have e8 : exp (F64.real y) ≤ 101 / 100 * exp Y := by
    have := (abs_le.1 e7).2
    nlinarith
  rw [show F64.real z - exp Y = (F64.real z - exp (F64.real y)) + (exp (F64.real y) - exp Y) by ring]
  refine (abs_add_le _ _).trans ?_
  have e9 : δ * exp (F64.real y) ≤ δ * (101 / 100 * exp Y) := mul_le_mul_of_nonneg_left e8 hδ0.le
  have e10 : 0 ≤ δ * exp Y := by positivity
  have e11 : 0 ≤ δ * E * exp Y := by positivity
  nlinarith

theorem exp_box {x : ℝ} (h : |x| ≤ 300) : Box 600 (exp x) := by
  have h1 : exp 300 ≤ (2 : ℝ) ^ 600 := by
    rw [show (300 : ℝ) = ((300 : ℕ) : ℝ) * 1 by norm_num, Real.exp_nat_mul]
    have : exp 1 ≤ (2 : ℝ) ^ 2 := by have := Real.exp_one_lt_d9; norm_num at this ⊢; linarith
    calc exp 1 ^ 300 ≤ ((2 : ℝ) ^ 2) ^ 300 := by gcongr
      _ = 2 ^ 600 := by rw [← pow_mul]
  have h2 := abs_le.1 h
  refine ⟨?_, (exp_le_exp.2 h2.2).trans h1⟩
  have h3 : exp (-300) ≤ exp x := exp_le_exp.2 h2.1
  rw [Real.exp_neg] at h3
  exact (inv_anti₀ (exp_pos _) h1).trans h3

/-- A factor with a relative error times a number of at most one with an absolute error. -/
theorem term {f c : F64} {F N φ κ : ℝ} (hF : Box 1000 |F|) (hf : |F64.real f - F| ≤ φ * |F|) (hφ : 0 ≤ φ) (hφ1 : φ ≤ 1 / 8)
    (hc : |F64.real c - N| ≤ κ) (hκ1 : κ ≤ 1 / 8) (hN : |N| ≤ 1) :
    ∃ p, f.mul c = some p ∧ |F64.real p - F * N| ≤ (9 / 8 * φ + κ + 2 * ur) * |F| := by
  have hX := hF.pos
  have hu := ur_pos
  have hm := mu_small hF
  have hκ : 0 ≤ κ := (abs_nonneg _).trans hc
  have hc1 : |F64.real c| ≤ 9 / 8 := by
    rw [show F64.real c = (F64.real c - N) + N by ring]
    exact (abs_add_le _ _).trans (by linarith)
  have e1 : |F64.real f * F64.real c - F * N| ≤ (9 / 8 * φ + κ) * |F| := by
    rw [show F64.real f * F64.real c - F * N = (F64.real f - F) * F64.real c + F * (F64.real c - N) by ring]
    refine (abs_add_le _ _).trans ?_
    rw [abs_mul, abs_mul]
    have h1 : |F64.real f - F| * |F64.real c| ≤ (φ * |F|) * (9 / 8) := by gcongr
    have h2 : |F| * |F64.real c - N| ≤ |F| * κ := by gcongr
    linarith
  have e2 : |F64.real f * F64.real c| ≤ 13 / 10 * |F| := by
    have hf1 : |F64.real f| ≤ 9 / 8 * |F| := by
      rw [show F64.real f = (F64.real f - F) + F by ring]
      refine (abs_add_le _ _).trans ?_
      have : φ * |F| ≤ 1 / 8 * |F| := by gcongr
      linarith
    rw [abs_mul]
    have : |F64.real f| * |F64.real c| ≤ (9 / 8 * |F|) * (9 / 8) := by gcongr
    linarith
  obtain ⟨p, h1, r1⟩ := mulR (a := f) (b := c) (top_large hF.2 (by linarith))
  refine ⟨p, h1, ?_⟩
  rw [show F64.real p - F * N = (F64.real p - F64.real f * F64.real c) + (F64.real f * F64.real c - F * N) by ring]
  refine (abs_add_le _ _).trans ?_
  have := mul_le_mul_of_nonneg_left e2 hu.le
  have := mul_pos hu hX
  linarith

theorem log_near {q q' δ : ℝ} (hq : 0 < q) (hδ : 0 ≤ δ) (hδ1 : δ ≤ 1 / 2) (h : |q' - q| ≤ δ * |q|) : 0 < q' ∧ |log q' - log q| ≤ 2 * δ := by
  rw [abs_of_pos hq] at h
  have h1 := abs_le.1 h
  have hδq : δ * q ≤ 1 / 2 * q := by gcongr
  have hq' : 0 < q' := by linarith
  refine ⟨hq', ?_⟩
  have hlo : 1 - δ ≤ q' / q := by rw [le_div_iff₀ hq]; linarith
  have hhi : q' / q ≤ 1 + δ := by rw [div_le_iff₀ hq]; linarith
  rw [← Real.log_div hq'.ne' hq.ne', abs_le]
  have hp : 0 < q' / q := div_pos hq' hq
  constructor
  · have h2 := Real.one_sub_inv_le_log_of_pos hp
    have h3 : (q' / q)⁻¹ ≤ 1 + 2 * δ := by
      rw [inv_le_iff_one_le_mul₀ hp]
      nlinarith
    linarith
  · have h2 := Real.log_le_sub_one_of_pos hp
    linarith

end

end Verif.Float.Bsm
