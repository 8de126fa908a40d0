import Verif.Distributions.SpecLemmas
import Mathlib.Probability.Distributions.Gamma
import Mathlib.Probability.Distributions.Exponential
import Mathlib.Probability.Moments.ComplexMGF

/-! Integrals against the gamma law. -/

namespace Verif.Distributions

open MeasureTheory ProbabilityTheory Real

theorem gamma_integral {E : Type*} [NormedAddCommGroup E] [NormedSpace ℝ E] {a r : ℝ} (ha : 0 < a)
    (hr : 0 < r) (f : ℝ → E) : ∫ x, f x ∂gammaMeasure a r =
      ∫ x in Set.Ioi 0, (r ^ a / Real.Gamma a * x ^ (a - 1) * exp (-(r * x))) • f x := by
  rw [gammaMeasure, integral_withDensity_eq_integral_toReal_smul
    (by unfold gammaPDF; exact (measurable_gammaPDFReal a r).ennreal_ofReal)
    (Filter.Eventually.of_forall fun x => by simp [gammaPDF])]
  rw [← integral_Ici_eq_integral_Ioi, ← integral_indicator measurableSet_Ici]
  congr 1
  funext x
  by_cases hx : 0 ≤ x
  · rw [Set.indicator_of_mem (by exact hx), gammaPDF,
      ENNReal.toReal_ofReal (gammaPDFReal_nonneg ha hr x), gammaPDFReal, if_pos hx]
  · rw [Set.indicator_of_notMem (by simpa using hx), gammaPDF, gammaPDFReal, if_neg hx]
    simp

/-- The moments of the gamma law, exponentially tilted. -/
theorem gamma_tilted {a r t : ℝ} (ha : 0 < a) (hr : 0 < r) (ht : t < r) (n : ℕ) :
    ∫ x, x ^ n * exp (t * x) ∂gammaMeasure a r =
      r ^ a / Real.Gamma a * ((1 / (r - t)) ^ (a + n) * Real.Gamma (a + n)) := by
  rw [gamma_integral ha hr, ← Real.integral_rpow_mul_exp_neg_mul_Ioi (by positivity)
    (by linarith : 0 < r - t), ← integral_const_mul]
  refine setIntegral_congr_fun measurableSet_Ioi fun x hx => ?_
  have hx' : (0:ℝ) < x := hx
  have e1 : x ^ (a + n - 1) = x ^ (a - 1) * x ^ n := by
    rw [← rpow_natCast x n, ← rpow_add hx']; congr 1; ring
  have e2 : exp (-((r - t) * x)) = exp (-(r * x)) * exp (t * x) := by
    rw [← exp_add]; congr 1; ring
  simp only [smul_eq_mul]
  rw [e1, e2]; ring

theorem gamma_tilted_integrable {a r t : ℝ} (ha : 0 < a) (hr : 0 < r) (ht : t < r) (n : ℕ) :
    Integrable (fun x => x ^ n * exp (t * x)) (gammaMeasure a r) := by
  refine Integrable.of_integral_ne_zero ?_
  rw [gamma_tilted ha hr ht n]
  have : 0 < r - t := by linarith
  have := Gamma_pos_of_pos ha
  have : 0 < Real.Gamma (a + n) := Gamma_pos_of_pos (by positivity)
  positivity

theorem gamma_raw {a r : ℝ} (ha : 0 < a) (hr : 0 < r) (n : ℕ) :
    Integrable (fun x => x ^ n) (gammaMeasure a r) ∧
    ∫ x, x ^ n ∂gammaMeasure a r = Real.Gamma (a + n) / Real.Gamma a / r ^ n := by
  have h1 := gamma_tilted_integrable ha hr hr n
  have h2 := gamma_tilted ha hr hr n
  simp only [zero_mul, exp_zero, mul_one] at h1 h2
  refine ⟨h1, ?_⟩
  rw [h2, sub_zero, rpow_add (by positivity), rpow_natCast, one_div, inv_rpow hr.le]
  have := (Gamma_pos_of_pos ha).ne'
  have : r ^ a ≠ 0 := by positivity
  field_simp
  rw [← mul_pow, one_div_mul_cancel hr.ne', one_pow]

theorem gamma_prob {a r : ℝ} (ha : 0 < a) (hr : 0 < r) :
    IsProbabilityMeasure (gammaMeasure a r) := isProbabilityMeasure_gammaMeasure ha hr

theorem gamma_ratio {a : ℝ} (ha : 0 < a) :
    Real.Gamma (a + (1:ℕ)) / Real.Gamma a = a ∧
    Real.Gamma (a + (2:ℕ)) / Real.Gamma a = a * (a + 1) ∧
    Real.Gamma (a + (3:ℕ)) / Real.Gamma a = a * (a + 1) * (a + 2) ∧
    Real.Gamma (a + (4:ℕ)) / Real.Gamma a = a * (a + 1) * (a + 2) * (a + 3) := by
  have g0 := (Gamma_pos_of_pos ha).ne'
  have g1 : Real.Gamma (a + 1) = a * Real.Gamma a := Real.Gamma_add_one (by positivity)
  have g2 : Real.Gamma (a + 2) = (a + 1) * Real.Gamma (a + 1) := by
    rw [← Real.Gamma_add_one (by positivity)]; congr 1; ring
  have g3 : Real.Gamma (a + 3) = (a + 2) * Real.Gamma (a + 2) := by
    rw [← Real.Gamma_add_one (by positivity)]; congr 1; ring
  have g4 : Real.Gamma (a + 4) = (a + 3) * Real.Gamma (a + 3) := by
    rw [← Real.Gamma_add_one (by positivity)]; congr 1; ring
  push_cast
  rw [g4, g3, g2, g1]
  refine ⟨?_, ?_, ?_, ?_⟩ <;> field_simp

theorem gamma_moments {a r : ℝ} (ha : 0 < a) (hr : 0 < r) :
    Spec.mean (gammaMeasure a r) = a / r ∧ Spec.variance (gammaMeasure a r) = a / r ^ 2 ∧
    Spec.skewness (gammaMeasure a r) = 2 / √a ∧
    Spec.excessKurtosis (gammaMeasure a r) = 6 / a := by
  have := gamma_prob ha hr
  obtain ⟨i1, h1⟩ := gamma_raw ha hr 1
  obtain ⟨i2, h2⟩ := gamma_raw ha hr 2
  obtain ⟨i3, h3⟩ := gamma_raw ha hr 3
  obtain ⟨i4, h4⟩ := gamma_raw ha hr 4
  obtain ⟨r1, r2, r3, r4⟩ := gamma_ratio ha
  rw [r1] at h1; rw [r2] at h2; rw [r3] at h3; rw [r4] at h4
  simp only [pow_one] at i1 h1
  obtain ⟨e1, e2, e3, e4⟩ := Spec.moments_of_raw (gammaMeasure a r) (v := a / r ^ 2)
    (c3 := 2 * a / r ^ 3) (c4 := (3 * a ^ 2 + 6 * a) / r ^ 4) i1 i2 i3 i4 h1 h2 h3 h4
    (by field_simp; ring) (by field_simp; ring) (by field_simp; ring)
  refine ⟨e1, e2, e3.trans ?_, e4.trans ?_⟩
  · have hs : √(a / r ^ 2) = √a / r := by
      rw [sqrt_div ha.le, sqrt_sq hr.le]
    rw [hs, div_pow]
    have hq : √a ^ 3 = a * √a := by
      rw [pow_succ, sq_sqrt ha.le]
    rw [hq]
    have : 0 < √a := by positivity
    field_simp
  · field_simp
    ring

theorem gamma_mgf {a r t : ℝ} (ha : 0 < a) (hr : 0 < r) (ht : t < r) :
    Spec.mgf (gammaMeasure a r) t = (1 - t / r) ^ (-a) := by
  have h2 := gamma_tilted ha hr ht 0
  simp only [pow_zero, one_mul, Nat.cast_zero, add_zero] at h2
  unfold Spec.mgf
  rw [h2]
  have hrt : 0 < r - t := by linarith
  have := (Gamma_pos_of_pos ha).ne'
  rw [show (1 - t / r) = (r - t) / r by field_simp, rpow_neg (by positivity),
    div_rpow hrt.le hr.le, one_div, inv_rpow hrt.le]
  field_simp

theorem cf_eq_charFun (μ : Measure ℝ) (t : ℝ) : Spec.cf μ t = charFun μ t := by
  rw [charFun_apply_real]
  unfold Spec.cf
  congr 1
  funext x
  congr 1
  ring

theorem gamma_cf {a r : ℝ} (ha : 0 < a) (hr : 0 < r) (t : ℝ) :
    Spec.cf (gammaMeasure a r) t = (1 - Complex.I * t / r) ^ (-a : ℂ) := by
  rw [cf_eq_charFun, ← complexMGF_id_mul_I]
  have hsub : Set.Iio r ⊆ interior (integrableExpSet id (gammaMeasure a r)) := by
    refine interior_maximal (fun t ht => ?_) isOpen_Iio
    have := gamma_tilted_integrable ha hr ht 0
    simpa [integrableExpSet] using this
  have hX : AnalyticOnNhd ℂ (complexMGF id (gammaMeasure a r)) {z | z.re < r} :=
    fun z hz => analyticAt_complexMGF (hsub hz)
  have hslit : ∀ z : ℂ, z.re < r → (1 - z / r : ℂ) ∈ Complex.slitPlane := by
    intro z hz
    left
    have : (1 - z / r : ℂ).re = 1 - z.re / r := by simp
    rw [this, sub_pos, div_lt_one hr]; exact hz
  have hY : AnalyticOnNhd ℂ (fun z : ℂ => (1 - z / r) ^ (-a : ℂ)) {z | z.re < r} := by
    refine DifferentiableOn.analyticOnNhd (fun z hz => ?_)
      (isOpen_Iio.preimage Complex.continuous_re)
    refine DifferentiableAt.differentiableWithinAt ?_
    refine DifferentiableAt.cpow_const (f := fun z : ℂ => 1 - z / r) (by fun_prop)
      (hslit z hz)
  have hconn : IsPreconnected {z : ℂ | z.re < r} :=
    ((convex_Iio r).linear_preimage Complex.reLm).isPreconnected
  have key := AnalyticOnNhd.eqOn_of_preconnected_of_frequently_eq hX hY hconn (z₀ := ((0:ℝ) : ℂ))
    (by simpa using hr) (by
      have h_real : ∃ᶠ (x : ℝ) in nhdsWithin 0 {0}ᶜ,
          complexMGF id (gammaMeasure a r) x = (1 - (x:ℂ) / r) ^ (-a : ℂ) := by
        refine Filter.Eventually.frequently ?_
        have : ∀ᶠ x : ℝ in nhds 0, x < r := Iio_mem_nhds hr
        filter_upwards [nhdsWithin_le_nhds this] with x hx
        rw [complexMGF_ofReal]
        have := gamma_mgf ha hr hx
        unfold Spec.mgf at this
        have e : mgf id (gammaMeasure a r) x = (1 - x / r) ^ (-a) := by
          rw [← this]; simp [mgf]
        rw [e, Complex.ofReal_cpow (by rw [sub_nonneg, div_le_one hr]; exact hx.le)]
        push_cast; rfl
      rw [Filter.frequently_iff_seq_forall] at h_real ⊢
      obtain ⟨xs, hx_tendsto, hx_eq⟩ := h_real
      refine ⟨fun n ↦ xs n, ?_, fun n ↦ hx_eq n⟩
      rw [tendsto_nhdsWithin_iff] at hx_tendsto ⊢
      constructor
      · exact (Complex.continuous_ofReal.tendsto _).comp hx_tendsto.1
      · simpa using hx_tendsto.2)
  have h := key (x := (t : ℂ) * Complex.I) (by simpa using hr)
  rw [h]
  ring_nf

end Verif.Distributions
