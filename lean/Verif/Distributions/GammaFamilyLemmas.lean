import Verif.Distributions.GammaLemmas
import Verif.Distributions.GammaFamily
import Mathlib.Probability.Distributions.Gaussian.Real
import Mathlib.MeasureTheory.Integral.Pi

/-! Distribution function, logarithmic moment and chi-squared form of the gamma law. -/

namespace Verif.Distributions

open MeasureTheory ProbabilityTheory Real

theorem gamma_ae_pos {a r : ℝ} : ∀ᵐ x ∂gammaMeasure a r, 0 < x := by
  have hm : Measurable (gammaPDF a r) := by
    unfold gammaPDF; exact (measurable_gammaPDFReal a r).ennreal_ofReal
  rw [gammaMeasure, ae_withDensity_iff hm]
  have : ∀ᵐ x : ℝ, x ≠ 0 := by simp [ae_iff]
  filter_upwards [this] with x hx h
  by_contra hn
  apply h
  have : ¬ 0 ≤ x := fun h0 => hn (lt_of_le_of_ne h0 (Ne.symm hx))
  simp [gammaPDF, gammaPDFReal, this]

theorem li_integrable {a : ℝ} (ha : 0 < a) {x y : ℝ} (hx : 0 ≤ x) (hy : 0 ≤ y) :
    IntervalIntegrable (fun t => t ^ (a - 1) * exp (-t)) volume x y := by
  have h := Real.GammaIntegral_convergent ha
  have h' : IntegrableOn (fun t => t ^ (a - 1) * exp (-t)) (Set.Ioi 0) :=
    h.congr_fun (fun t _ => mul_comm _ _) measurableSet_Ioi
  refine ⟨h'.mono_set fun t ht => ?_, h'.mono_set fun t ht => ?_⟩
  · exact lt_of_le_of_lt hx ht.1
  · exact lt_of_le_of_lt hy ht.1

theorem gammaLi_zero (a : ℝ) : gammaLi a 0 = 0 := by simp [gammaLi]

theorem gammaLi_lt {a x y : ℝ} (ha : 0 < a) (hx : 0 ≤ x) (hxy : x < y) :
    gammaLi a x < gammaLi a y := by
  unfold gammaLi
  rw [← sub_pos, intervalIntegral.integral_interval_sub_left
    (li_integrable ha le_rfl (hx.trans hxy.le)) (li_integrable ha le_rfl hx)]
  refine intervalIntegral.intervalIntegral_pos_of_pos_on
    (li_integrable ha hx (hx.trans hxy.le)) (fun t ht => ?_) hxy
  have : 0 < t := lt_of_le_of_lt hx ht.1
  positivity

theorem gamma_cdf {a r x : ℝ} (ha : 0 < a) (hr : 0 < r) (hx : 0 ≤ x) :
    Spec.cdf (gammaMeasure a r) x = gammaLi a (r * x) / Real.Gamma a := by
  have := gamma_prob ha hr
  unfold Spec.cdf
  rw [← cdf_eq_real, cdf_gammaMeasure_eq_integral ha hr]
  rw [setIntegral_eq_of_subset_of_forall_diff_eq_zero (s := Set.Icc 0 x) (t := Set.Iic x)
    measurableSet_Iic (fun t ht => ht.2) (fun t ht => ?_)]
  swap
  · have : ¬ 0 ≤ t := fun h0 => ht.2 ⟨h0, ht.1⟩
    simp [gammaPDFReal, this]
  rw [integral_Icc_eq_integral_Ioc, ← intervalIntegral.integral_of_le hx]
  have hsub := intervalIntegral.integral_comp_mul_left (a := 0) (b := x)
    (fun s => s ^ (a - 1) * exp (-s)) hr.ne'
  rw [mul_zero] at hsub
  have hg := (Gamma_pos_of_pos ha).ne'
  rw [gammaLi, ← mul_inv_cancel_left₀ hr.ne' (∫ t in (0:ℝ)..r * x, t ^ (a - 1) * exp (-t)),
    ← smul_eq_mul (r⁻¹), ← hsub, ← intervalIntegral.integral_const_mul,
    ← intervalIntegral.integral_div]
  refine intervalIntegral.integral_congr fun t ht => ?_
  rw [Set.uIcc_of_le hx] at ht
  simp only [gammaPDFReal, if_pos ht.1]
  rw [mul_rpow hr.le ht.1]
  have : r ^ a = r * r ^ (a - 1) := by
    rw [rpow_sub hr, rpow_one]; field_simp
  rw [this]
  field_simp

theorem gamma_cdf_neg {a r x : ℝ} (hx : x ≤ 0) :
    Spec.cdf (gammaMeasure a r) x = 0 := by
  unfold Spec.cdf
  have := measure_mono_null (μ := gammaMeasure a r) (s := Set.Iic x) (t := {t | ¬ 0 < t})
    (fun t ht => by simpa using le_trans ht hx) (gamma_ae_pos (a := a) (r := r))
  rw [measureReal_def, this]; simp

/-- The logarithmic moment before scaling: the derivative of the Gamma function. -/
theorem gamma_log_base {a : ℝ} (ha : 0 < a) :
    IntegrableOn (fun t => t ^ (a - 1) * exp (-t) * log t) (Set.Ioi 0) ∧
    ∫ t in Set.Ioi (0:ℝ), t ^ (a - 1) * exp (-t) * log t = Real.Gamma a * digamma a := by
  have hre : 0 < (a : ℂ).re := by simpa using ha
  have hd := Complex.hasDerivAt_GammaIntegral hre
  have hcongr : ∀ t ∈ Set.Ioi (0:ℝ), ((t:ℂ) ^ ((a:ℂ) - 1) * (log t * exp (-t))) =
      ((t ^ (a - 1) * exp (-t) * log t : ℝ) : ℂ) := by
    intro t ht
    have e : ((t:ℂ) ^ ((a:ℂ) - 1)) = ((t ^ (a - 1) : ℝ) : ℂ) := by
      rw [Complex.ofReal_cpow (le_of_lt ht)]; push_cast; rfl
    rw [e]; push_cast; ring
  rw [setIntegral_congr_fun measurableSet_Ioi hcongr, integral_complex_ofReal] at hd
  have hG : HasDerivAt Complex.Gamma
      ((∫ t in Set.Ioi (0:ℝ), t ^ (a - 1) * exp (-t) * log t : ℝ) : ℂ) (a:ℂ) := by
    refine hd.congr_of_eventuallyEq ?_
    have : IsOpen {s : ℂ | 0 < s.re} := Complex.continuous_re.isOpen_preimage _ isOpen_Ioi
    filter_upwards [this.mem_nhds hre] with s hs using Complex.Gamma_eq_integral hs
  have hR := hG.real_of_complex
  have hfun : (fun x : ℝ => (Complex.Gamma x).re) = Real.Gamma := by
    funext x; rfl
  rw [hfun, Complex.ofReal_re] at hR
  constructor
  · have hm := (mellin_hasDerivAt_of_isBigO_rpow (E := ℂ) (f := fun x => ((exp (-x) : ℝ) : ℂ))
      (a := a + 1) (b := 0) (s := (a:ℂ)) ?_ ?_ (by simp) ?_ (by simpa using ha)).1
    · unfold MellinConvergent at hm
      have h2 := hm.re
      refine IntegrableOn.congr_fun h2 (fun t ht => ?_) measurableSet_Ioi
      have := hcongr t ht
      simp only [Complex.real_smul, smul_eq_mul, RCLike.re_eq_complex_re] at *
      rw [this, Complex.ofReal_re]
    · refine (Continuous.continuousOn ?_).locallyIntegrableOn measurableSet_Ioi
      exact Complex.continuous_ofReal.comp (Real.continuous_exp.comp continuous_neg)
    · rw [← Asymptotics.isBigO_norm_left]
      simp_rw [Complex.norm_real, Asymptotics.isBigO_norm_left]
      simpa only [neg_one_mul] using (isLittleO_exp_neg_mul_rpow_atTop zero_lt_one _).isBigO
    · simp_rw [neg_zero, rpow_zero]
      refine Asymptotics.isBigO_const_of_tendsto (?_ : Filter.Tendsto _ _ (nhds (1 : ℂ)))
        one_ne_zero
      rw [show (1 : ℂ) = ((Real.exp (-0) : ℝ) : ℂ) by simp]
      exact (Complex.continuous_ofReal.comp (Real.continuous_exp.comp continuous_neg)).continuousWithinAt
  · unfold digamma
    rw [logDeriv_apply, hR.deriv]
    have := (Gamma_pos_of_pos ha).ne'
    field_simp

theorem gamma_log {a r : ℝ} (ha : 0 < a) (hr : 0 < r) :
    Integrable (fun x => log x) (gammaMeasure a r) ∧
    ∫ x, log x ∂gammaMeasure a r = digamma a - log r := by
  have hg := Gamma_pos_of_pos ha
  obtain ⟨hi, hv⟩ := gamma_log_base ha
  have hconv : IntegrableOn (fun t => t ^ (a - 1) * exp (-t)) (Set.Ioi 0) :=
    (Real.GammaIntegral_convergent ha).congr_fun (fun t _ => mul_comm _ _) measurableSet_Ioi
  have hval : ∫ t in Set.Ioi (0:ℝ), t ^ (a - 1) * exp (-t) = Real.Gamma a := by
    rw [Real.Gamma_eq_integral ha]
    exact setIntegral_congr_fun measurableSet_Ioi fun t _ => mul_comm _ _
  -- the integrand after scaling
  let g : ℝ → ℝ := fun s => s ^ (a - 1) * exp (-s) * log s - log r * (s ^ (a - 1) * exp (-s))
  have hgi : IntegrableOn g (Set.Ioi 0) := hi.sub (hconv.const_mul _)
  have hgv : ∫ s in Set.Ioi (0:ℝ), g s = Real.Gamma a * digamma a - log r * Real.Gamma a := by
    simp only [g]
    rw [integral_sub hi (hconv.const_mul _), hv, integral_const_mul, hval]
  have hpt : ∀ x ∈ Set.Ioi (0:ℝ),
      (r ^ a / Real.Gamma a * x ^ (a - 1) * exp (-(r * x))) • log x =
        r / Real.Gamma a * g (r * x) := by
    intro x hx
    have hx' : (0:ℝ) < x := hx
    simp only [g, smul_eq_mul]
    rw [mul_rpow hr.le hx'.le, log_mul hr.ne' hx'.ne']
    have : r ^ a = r * r ^ (a - 1) := by
      rw [rpow_sub hr, rpow_one]; field_simp
    rw [this]
    field_simp
    ring
  have hgi' : IntegrableOn (fun x => g (r * x)) (Set.Ioi 0) := by
    rw [integrableOn_Ioi_comp_mul_left_iff g 0 hr]; simpa using hgi
  have hgv' : ∫ x in Set.Ioi (0:ℝ), g (r * x) = r⁻¹ * ∫ s in Set.Ioi (0:ℝ), g s := by
    have := integral_comp_mul_left_Ioi g 0 hr
    simpa using this
  constructor
  · have hm : Measurable (gammaPDF a r) := by
      unfold gammaPDF; exact (measurable_gammaPDFReal a r).ennreal_ofReal
    rw [gammaMeasure, integrable_withDensity_iff_integrable_smul' hm
      (Filter.Eventually.of_forall fun x => by simp [gammaPDF])]
    have h1 : IntegrableOn (fun x => (gammaPDF a r x).toReal • log x) (Set.Ioi 0) := by
      refine IntegrableOn.congr_fun (hgi'.const_mul (r / Real.Gamma a)) (fun x hx => ?_)
        measurableSet_Ioi
      have hx0 : (0:ℝ) ≤ x := le_of_lt hx
      rw [← hpt x hx, gammaPDF, ENNReal.toReal_ofReal (gammaPDFReal_nonneg ha hr x), gammaPDFReal,
        if_pos hx0]
    have h2 : IntegrableOn (fun x => (gammaPDF a r x).toReal • log x) (Set.Iic 0) := by
      refine IntegrableOn.congr_fun (f := fun _ => (0:ℝ)) integrableOn_zero (fun x hx => ?_)
        measurableSet_Iic
      rcases eq_or_lt_of_le (show x ≤ 0 from hx) with h | h
      · simp [h]
      · simp [gammaPDF, gammaPDFReal, not_le.2 h]
    have := h2.union h1
    rwa [Set.Iic_union_Ioi, integrableOn_univ] at this
  · rw [gamma_integral ha hr, setIntegral_congr_fun measurableSet_Ioi hpt, integral_const_mul,
      hgv', hgv]
    field_simp

/-- The characteristic function of the square of a standard normal variable. -/
theorem square_cf (t : ℝ) :
    ∫ z, Complex.exp (Complex.I * t * ((z ^ 2 : ℝ) : ℂ)) ∂gaussianReal 0 1 =
      (1 - 2 * Complex.I * t) ^ (-(1/2) : ℂ) := by
  rw [integral_gaussianReal_eq_integral_smul (by norm_num)]
  have hb : 0 < ((1 / 2 - Complex.I * t : ℂ)).re := by simp
  have hG := integral_gaussian_complex hb
  have hpt : ∀ z : ℝ, gaussianPDFReal 0 1 z • Complex.exp (Complex.I * t * ((z ^ 2 : ℝ) : ℂ)) =
      ((√(2 * π))⁻¹ : ℂ) * Complex.exp (-(1 / 2 - Complex.I * t) * (z:ℂ) ^ 2) := by
    intro z
    rw [gaussianPDFReal, Complex.real_smul]
    push_cast
    rw [mul_assoc, ← Complex.exp_add]
    congr 1
    · simp
    · congr 1; simp; ring
  simp_rw [hpt]
  rw [integral_const_mul, hG]
  have hw : (1 - 2 * Complex.I * t : ℂ) ≠ 0 := by
    intro h
    have := congrArg Complex.re h
    simp at this
  have harg : (1 - 2 * Complex.I * t : ℂ).arg ≠ π := by
    intro h
    have := (Complex.arg_eq_pi_iff.1 h).1
    simp at this
    linarith
  rw [show (π / (1 / 2 - Complex.I * t) : ℂ) = ((2 * π : ℝ) : ℂ) * (1 - 2 * Complex.I * t)⁻¹ by
    have : (1 / 2 - Complex.I * t : ℂ) = (1 - 2 * Complex.I * t) / 2 := by ring
    rw [this]; push_cast; field_simp]
  have h2 : ((2 * π : ℝ) : ℂ) ≠ 0 := by
    rw [Complex.ofReal_ne_zero]; positivity
  have hs : ((√(2 * π) : ℝ) : ℂ) = Complex.exp (Real.log (2 * π) * (1 / 2)) := by
    rw [sqrt_eq_rpow, Complex.ofReal_cpow (by positivity), Complex.cpow_def_of_ne_zero h2,
      ← Complex.ofReal_log (by positivity)]
    push_cast; rfl
  rw [Complex.cpow_def_of_ne_zero (mul_ne_zero h2 (inv_ne_zero hw)),
    Complex.log_ofReal_mul (by positivity) (inv_ne_zero hw), Complex.log_inv _ harg,
    Complex.cpow_def_of_ne_zero hw, hs, ← Complex.exp_neg, ← Complex.exp_add]
  congr 1
  ring

theorem sq_meas (k : ℕ) : Measurable fun z : Fin k → ℝ => ∑ i, z i ^ 2 := by fun_prop

instance (k : ℕ) : IsProbabilityMeasure (Spec.chiLaw k) :=
  Measure.isProbabilityMeasure_map (sq_meas k).aemeasurable

theorem chiLaw_eq {k : ℕ} (hk : 0 < k) : Spec.chiLaw k = gammaMeasure (k / 2) (1 / 2) := by
  have hk' : (0:ℝ) < k / 2 := by positivity
  have := gamma_prob hk' (show (0:ℝ) < 1 / 2 by norm_num)
  refine Measure.ext_of_charFun ?_
  funext t
  rw [← cf_eq_charFun, ← cf_eq_charFun, gamma_cf hk' (by norm_num)]
  unfold Spec.cf Spec.chiLaw
  rw [integral_map (sq_meas k).aemeasurable (by fun_prop)]
  have e : ∀ z : Fin k → ℝ, Complex.exp (Complex.I * t * ((∑ i, z i ^ 2 : ℝ) : ℂ)) =
      ∏ i, Complex.exp (Complex.I * t * ((z i ^ 2 : ℝ) : ℂ)) := by
    intro z
    rw [← Complex.exp_sum]
    congr 1
    push_cast
    rw [Finset.mul_sum]
  simp_rw [e]
  rw [integral_fintype_prod_eq_prod (f := fun _ z =>
    Complex.exp (Complex.I * t * ((z ^ 2 : ℝ) : ℂ)))]
  simp_rw [square_cf]
  rw [Finset.prod_const, Finset.card_univ, Fintype.card_fin, ← Complex.cpow_nat_mul]
  congr 1
  · push_cast; ring
  · push_cast; ring

end Verif.Distributions
