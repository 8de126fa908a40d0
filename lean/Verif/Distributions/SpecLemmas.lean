import Verif.Distributions.Spec
import Mathlib.Tactic.Linarith
import Mathlib.Tactic.Ring
import Mathlib.Tactic.FieldSimp

/-! Central moments from raw moments. -/

namespace Verif.Distributions.Spec

open MeasureTheory

theorem central_of_raw (μ : Measure ℝ) [IsProbabilityMeasure μ] {m1 m2 m3 m4 : ℝ}
    (i1 : Integrable (fun x => x) μ) (i2 : Integrable (fun x => x ^ 2) μ)
    (i3 : Integrable (fun x => x ^ 3) μ) (i4 : Integrable (fun x => x ^ 4) μ)
    (h1 : ∫ x, x ∂μ = m1) (h2 : ∫ x, x ^ 2 ∂μ = m2) (h3 : ∫ x, x ^ 3 ∂μ = m3)
    (h4 : ∫ x, x ^ 4 ∂μ = m4) :
    mean μ = m1 ∧ centralMoment μ 2 = m2 - m1 ^ 2 ∧
    centralMoment μ 3 = m3 - 3 * m1 * m2 + 2 * m1 ^ 3 ∧
    centralMoment μ 4 = m4 - 4 * m1 * m3 + 6 * m1 ^ 2 * m2 - 3 * m1 ^ 4 := by
  have hm : mean μ = m1 := h1
  have ic : ∀ c : ℝ, Integrable (fun _ : ℝ => c) μ := fun c => integrable_const c
  have e : ∀ a0 a1 a2 a3 a4 : ℝ,
      ∫ x, (a0 + a1 * x + a2 * x ^ 2 + a3 * x ^ 3 + a4 * x ^ 4) ∂μ =
        a0 + a1 * m1 + a2 * m2 + a3 * m3 + a4 * m4 := by
    intro a0 a1 a2 a3 a4
    rw [integral_add (f := fun x => a0 + a1 * x + a2 * x ^ 2 + a3 * x ^ 3)
      ((((ic a0).add (i1.const_mul a1)).add (i2.const_mul a2)).add (i3.const_mul a3))
      (i4.const_mul a4),
      integral_add (f := fun x => a0 + a1 * x + a2 * x ^ 2)
      (((ic a0).add (i1.const_mul a1)).add (i2.const_mul a2)) (i3.const_mul a3),
      integral_add (f := fun x => a0 + a1 * x) ((ic a0).add (i1.const_mul a1)) (i2.const_mul a2),
      integral_add (f := fun _ => a0) (ic a0) (i1.const_mul a1)]
    simp only [integral_const_mul, integral_const_mul a1 (fun x : ℝ => x), h1, h2, h3, h4, integral_const, probReal_univ, smul_eq_mul,
      one_mul]
  refine ⟨hm, ?_, ?_, ?_⟩
  · unfold centralMoment; rw [hm]
    rw [show (fun x : ℝ => (x - m1) ^ 2) = fun x => m1 ^ 2 + (-2 * m1) * x + 1 * x ^ 2 + 0 * x ^ 3
      + 0 * x ^ 4 by funext x; ring, e]
    ring
  · unfold centralMoment; rw [hm]
    rw [show (fun x : ℝ => (x - m1) ^ 3) = fun x => -m1 ^ 3 + (3 * m1 ^ 2) * x + (-3 * m1) * x ^ 2
      + 1 * x ^ 3 + 0 * x ^ 4 by funext x; ring, e]
    ring
  · unfold centralMoment; rw [hm]
    rw [show (fun x : ℝ => (x - m1) ^ 4) = fun x => m1 ^ 4 + (-4 * m1 ^ 3) * x
      + (6 * m1 ^ 2) * x ^ 2 + (-4 * m1) * x ^ 3 + 1 * x ^ 4 by funext x; ring, e]
    ring

/-- Assembles the four moment values. -/
theorem moments_of_raw (μ : Measure ℝ) [IsProbabilityMeasure μ] {m1 m2 m3 m4 v c3 c4 : ℝ}
    (i1 : Integrable (fun x => x) μ) (i2 : Integrable (fun x => x ^ 2) μ)
    (i3 : Integrable (fun x => x ^ 3) μ) (i4 : Integrable (fun x => x ^ 4) μ)
    (h1 : ∫ x, x ∂μ = m1) (h2 : ∫ x, x ^ 2 ∂μ = m2) (h3 : ∫ x, x ^ 3 ∂μ = m3)
    (h4 : ∫ x, x ^ 4 ∂μ = m4)
    (e2 : m2 - m1 ^ 2 = v) (e3 : m3 - 3 * m1 * m2 + 2 * m1 ^ 3 = c3)
    (e4 : m4 - 4 * m1 * m3 + 6 * m1 ^ 2 * m2 - 3 * m1 ^ 4 = c4) :
    mean μ = m1 ∧ variance μ = v ∧ skewness μ = c3 / √v ^ 3 ∧
    excessKurtosis μ = c4 / v ^ 2 - 3 := by
  obtain ⟨a, b, c, d⟩ := central_of_raw μ i1 i2 i3 i4 h1 h2 h3 h4
  unfold variance skewness excessKurtosis variance
  rw [b, c, d, e2, e3, e4]
  exact ⟨a, rfl, rfl, rfl⟩

end Verif.Distributions.Spec
