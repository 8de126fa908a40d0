import Verif.Float.SimulationSpec
import Verif.Float.FftLemmas
import Verif.Float.SeqProps

/-! Helper lemmas: one rounded Euler-Maruyama step. -/

namespace Verif.Float.Sim

open Verif.Float.Fft (ur mu top rnd_real add_real sub_real toF64_total ur_pos mu_pos)

/-- The smallest positive number. -/
noncomputable def nu : ℝ := 2 ^ (-1074 : ℤ)

theorem nu_pos : 0 < nu := by unfold nu; positivity

theorem nu_eq : nu = mu + mu := by
  unfold nu mu
  rw [show (-1074 : ℤ) = 1 + -1075 by norm_num, zpow_add₀ (by norm_num), zpow_one]; ring

theorem mulR {a b : F64} (h : |F64.real a * F64.real b| ≤ top) :
    ∃ r, a.mul b = some r ∧ |F64.real r - F64.real a * F64.real b| ≤ ur * |F64.real a * F64.real b| + mu := by
  have e : ((a.val * b.val : ℚ) : ℝ) = F64.real a * F64.real b := by unfold F64.real; push_cast; rfl
  rw [← e] at h ⊢
  obtain ⟨r, h1, h2⟩ := toF64_total h
  refine ⟨r, h1, ?_⟩
  unfold F64.real
  rw [h2]
  exact rnd_real _

theorem addR {a b : F64} (h : |F64.real a + F64.real b| ≤ top) :
    ∃ r, a.add b = some r ∧ |F64.real r - (F64.real a + F64.real b)| ≤ ur * |F64.real a + F64.real b| := by
  have e : ((a.val + b.val : ℚ) : ℝ) = F64.real a + F64.real b := by unfold F64.real; push_cast; rfl
  rw [← e] at h
  obtain ⟨r, h1, h2⟩ := toF64_total h
  refine ⟨r, h1, ?_⟩
  have := add_real a.rep b.rep
  unfold F64.real
  rw [h2]
  exact this

theorem subR {a b : F64} (h : |F64.real a - F64.real b| ≤ top) :
    ∃ r, a.sub b = some r ∧ |F64.real r - (F64.real a - F64.real b)| ≤ ur * |F64.real a - F64.real b| := by
  have e : ((a.val - b.val : ℚ) : ℝ) = F64.real a - F64.real b := by unfold F64.real; push_cast; rfl
  rw [← e] at h
  obtain ⟨r, h1, h2⟩ := toF64_total h
  refine ⟨r, h1, ?_⟩
  have := sub_real a.rep b.rep
  unfold F64.real
  rw [h2]
  exact this

theorem add_zero_some (q : F64) : q.add F64.zero = some q := by
  unfold F64.add
  rw [show q.val + F64.zero.val = q.val from _root_.add_zero _]
  exact toF64_val q

/-- The drift term. -/
theorem term1 {a b p dt η B P μ v : ℝ} (hv : 0 ≤ v) (hv1 : v ≤ 1 / 1000) (hη : 0 ≤ η) (hη1 : η ≤ 1 / 1000) (hμ : 0 ≤ μ)
    (ha : |a - b| ≤ η * B + μ) (hb : |b| ≤ B) (hdt : 0 ≤ dt) (hdt1 : dt ≤ 2 ^ 20) (hP : B * dt ≤ P)
    (hp : |p - a * dt| ≤ v * |a * dt| + μ) :
    |p - b * dt| ≤ η * P + 2 * (v * P) + 2 ^ 21 * μ ∧ |p| ≤ 2 * P + 2 ^ 21 * μ := by
  have hB : 0 ≤ B := (abs_nonneg _).trans hb
  have h0 : 0 ≤ B * dt := mul_nonneg hB hdt
  have hμd : μ * dt ≤ 2 ^ 20 * μ := by nlinarith
  have hμd0 : 0 ≤ μ * dt := mul_nonneg hμ hdt
  have hηP : η * (B * dt) ≤ η * P := mul_le_mul_of_nonneg_left hP hη
  have hηP1 : η * P ≤ 1 / 1000 * P := mul_le_mul_of_nonneg_right hη1 (h0.trans hP)
  have e1 : |(a - b) * dt| ≤ η * P + 2 ^ 20 * μ := by
    rw [abs_mul, abs_of_nonneg hdt]
    have := mul_le_mul_of_nonneg_right ha hdt
    nlinarith
  have e2 : |b * dt| ≤ P := by
    rw [abs_mul, abs_of_nonneg hdt]
    exact (mul_le_mul_of_nonneg_right hb hdt).trans hP
  have e3 : |a * dt| ≤ 1001 / 1000 * P + 2 ^ 20 * μ := by
    rw [show a * dt = (a - b) * dt + b * dt by ring]
    refine (abs_add_le _ _).trans ?_
    linarith
  have e4 : v * |a * dt| ≤ 1001 / 1000 * (v * P) + 1 / 1000 * (2 ^ 20 * μ) := by
    have h1 := mul_le_mul_of_nonneg_left e3 hv
    have h2 : v * (2 ^ 20 * μ) ≤ 1 / 1000 * (2 ^ 20 * μ) := mul_le_mul_of_nonneg_right hv1 (by positivity)
    nlinarith
  have hvP : 0 ≤ v * P := mul_nonneg hv (h0.trans hP)
  have hvP1 : v * P ≤ 1 / 1000 * P := mul_le_mul_of_nonneg_right hv1 (h0.trans hP)
  have e5 : |p - b * dt| ≤ η * P + 2 * (v * P) + 2 ^ 21 * μ := by
    rw [show p - b * dt = (p - a * dt) + (a - b) * dt by ring]
    refine (abs_add_le _ _).trans ?_
    linarith
  refine ⟨e5, ?_⟩
  rw [show p = (p - b * dt) + b * dt by ring]
  refine (abs_add_le _ _).trans ?_
  linarith

/-- The diffusion term: two products. -/
theorem term2 {c s p q sc z η S Q μ v : ℝ} (hv : 0 ≤ v) (hv1 : v ≤ 1 / 1000) (hη : 0 ≤ η) (hη1 : η ≤ 1 / 1000) (hμ : 0 ≤ μ)
    (hc : |c - s| ≤ η * S + μ) (hs : |s| ≤ S) (hsc : 0 ≤ sc) (hsc1 : sc ≤ 2 ^ 20) (hz : |z| ≤ 2 ^ 20) (hQ : S * sc * |z| ≤ Q)
    (hp : |p - c * sc| ≤ v * |c * sc| + μ) (hq : |q - p * z| ≤ v * |p * z| + μ) :
    |q - s * sc * z| ≤ η * Q + 4 * (v * Q) + 2 ^ 43 * μ ∧ |q| ≤ 2 * Q + 2 ^ 43 * μ := by
  obtain ⟨h1, h2⟩ := term1 (P := S * sc) hv hv1 hη hη1 hμ hc hs hsc hsc1 le_rfl hp
  have hS : 0 ≤ S := (abs_nonneg _).trans hs
  have hz0 := abs_nonneg z
  have h0 : 0 ≤ S * sc * |z| := by positivity
  have hQ0 := h0.trans hQ
  have hηQ : η * (S * sc * |z|) ≤ η * Q := mul_le_mul_of_nonneg_left hQ hη
  have hηQ1 : η * Q ≤ 1 / 1000 * Q := mul_le_mul_of_nonneg_right hη1 hQ0
  have hvQ : v * (S * sc * |z|) ≤ v * Q := mul_le_mul_of_nonneg_left hQ hv
  have hvQ1 : v * Q ≤ 1 / 1000 * Q := mul_le_mul_of_nonneg_right hv1 hQ0
  have hvQ0 : 0 ≤ v * Q := mul_nonneg hv hQ0
  have hμz : μ * |z| ≤ 2 ^ 20 * μ := by nlinarith
  have e1 : |(p - s * sc) * z| ≤ η * Q + 2 * (v * Q) + 2 ^ 41 * μ := by
    rw [abs_mul]
    have := mul_le_mul_of_nonneg_right h1 hz0
    nlinarith
  have e2 : |s * sc * z| ≤ Q := by
    rw [abs_mul, abs_mul, abs_of_nonneg hsc]
    refine le_trans ?_ hQ
    gcongr
  have e3 : |p * z| ≤ 101 / 100 * Q + 2 ^ 41 * μ := by
    rw [show p * z = (p - s * sc) * z + s * sc * z by ring]
    refine (abs_add_le _ _).trans ?_
    linarith
  have e4 : v * |p * z| ≤ 101 / 100 * (v * Q) + 1 / 1000 * (2 ^ 41 * μ) := by
    have h1 := mul_le_mul_of_nonneg_left e3 hv
    have h2 : v * (2 ^ 41 * μ) ≤ 1 / 1000 * (2 ^ 41 * μ) := mul_le_mul_of_nonneg_right hv1 (by positivity)
    nlinarith
  have e5 : |q - s * sc * z| ≤ η * Q + 4 * (v * Q) + 2 ^ 43 * μ := by
    rw [show q - s * sc * z = (q - p * z) + (p - s * sc) * z by ring]
    refine (abs_add_le _ _).trans ?_
    linarith
  refine ⟨e5, ?_⟩
  rw [show q = (q - s * sc * z) + s * sc * z by ring]
  refine (abs_add_le _ _).trans ?_
  linarith

/-- The two sums. -/
theorem sums {x d e p q r w m P Q η μ v : ℝ} (hv : 0 ≤ v) (hv1 : v ≤ 1 / 1000) (hη : 0 ≤ η) (hμ : 0 ≤ μ)
    (hP0 : 0 ≤ P) (hQ0 : 0 ≤ Q)
    (hp : |p - d| ≤ η * P + 2 * (v * P) + 2 ^ 21 * μ) (hp' : |p| ≤ 2 * P + 2 ^ 21 * μ)
    (hq : |q - e| ≤ η * Q + 4 * (v * Q) + 2 ^ 43 * μ) (hq' : |q| ≤ 2 * Q + 2 ^ 43 * μ)
    (hx : |x| ≤ m) (hm : 2 ^ 45 * μ ≤ v * m)
    (hr : |r - (x + p)| ≤ v * |x + p|) (hw : |w - (r + q)| ≤ v * |r + q|) :
    |w - (x + d + e)| ≤ (η + 10 * v) * (m + P + Q) := by
  have hm0 : 0 ≤ m := (abs_nonneg _).trans hx
  have e1 : |x + p| ≤ m + 2 * P + 2 ^ 21 * μ := (abs_add_le _ _).trans (by linarith)
  have e2 : v * |x + p| ≤ v * m + 2 * (v * P) + 1 / 1000 * (2 ^ 21 * μ) := by
    have h1 := mul_le_mul_of_nonneg_left e1 hv
    have h2 : v * (2 ^ 21 * μ) ≤ 1 / 1000 * (2 ^ 21 * μ) := mul_le_mul_of_nonneg_right hv1 (by positivity)
    nlinarith
  have hvm : v * m ≤ 1 / 1000 * m := mul_le_mul_of_nonneg_right hv1 hm0
  have hvP : v * P ≤ 1 / 1000 * P := mul_le_mul_of_nonneg_right hv1 hP0
  have hvQ : v * Q ≤ 1 / 1000 * Q := mul_le_mul_of_nonneg_right hv1 hQ0
  have hvm0 : 0 ≤ v * m := mul_nonneg hv hm0
  have hvP0 : 0 ≤ v * P := mul_nonneg hv hP0
  have hvQ0 : 0 ≤ v * Q := mul_nonneg hv hQ0
  have hηm : 0 ≤ η * m := mul_nonneg hη hm0
  have e3 : |r + q| ≤ 101 / 100 * m + 201 / 100 * P + 2 * Q + 2 ^ 44 * μ := by
    rw [show r + q = (r - (x + p)) + ((x + p) + q) by ring]
    refine (abs_add_le _ _).trans ?_
    have := abs_add_le (x + p) q
    linarith
  have e4 : v * |r + q| ≤ 101 / 100 * (v * m) + 201 / 100 * (v * P) + 2 * (v * Q) + 1 / 1000 * (2 ^ 44 * μ) := by
    have h1 := mul_le_mul_of_nonneg_left e3 hv
    have h2 : v * (2 ^ 44 * μ) ≤ 1 / 1000 * (2 ^ 44 * μ) := mul_le_mul_of_nonneg_right hv1 (by positivity)
    nlinarith
  rw [show w - (x + d + e) = (w - (r + q)) + ((r - (x + p)) + ((p - d) + (q - e))) by ring]
  have a1 := abs_add_le (w - (r + q)) ((r - (x + p)) + ((p - d) + (q - e)))
  have a2 := abs_add_le (r - (x + p)) ((p - d) + (q - e))
  have a3 := abs_add_le (p - d) (q - e)
  have : (η + 10 * v) * (m + P + Q) = η * m + η * P + η * Q + 10 * (v * m) + 10 * (v * P) + 10 * (v * Q) := by ring
  rw [this]
  linarith

end Verif.Float.Sim
