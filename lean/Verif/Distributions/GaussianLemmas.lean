import Verif.Distributions.Gaussian
import Mathlib.Probability.CDF
import Mathlib.Probability.Moments.MGFAnalytic
import Mathlib.MeasureTheory.Integral.IntervalIntegral.FundThmCalculus
import Mathlib.MeasureTheory.Measure.Lebesgue.Integral

/-! Helper lemmas about the Gaussian model. -/

namespace Verif.Distributions

open Real MeasureTheory ProbabilityTheory

namespace Gaussian

theorem new_some {m v : ℝ} {g : Gaussian} (h : new m v = some g) : 0 < v ∧ g = ⟨m, v⟩ := by
  unfold new at h
  split_ifs at h with h1
  exact ⟨h1, (Option.some.inj h).symm⟩

/-- The standard density. -/
theorem std_pdf (x : ℝ) : std.pdf x = (√(2 * π))⁻¹ * exp (-x ^ 2 / 2) := by
  simp only [pdf, std]; congr 2 <;> ring_nf

theorem std_pdf_eq (x : ℝ) : std.pdf x = gaussianPDFReal 0 1 x := by
  rw [std_pdf, gaussianPDFReal]; simp

theorem pdf_eq (m v : ℝ) (hv : 0 < v) (x : ℝ) :
    pdf ⟨m, v⟩ x = gaussianPDFReal m v.toNNReal x := by
  simp only [pdf, gaussianPDFReal, Real.coe_toNNReal v hv.le]
  congr 2
  field_simp; norm_num; ring

theorem std_pdf_pos (x : ℝ) : 0 < std.pdf x := by rw [std_pdf]; positivity

theorem std_pdf_neg (x : ℝ) : std.pdf (-x) = std.pdf x := by simp [std_pdf]

theorem std_pdf_continuous : Continuous std.pdf := by
  have : std.pdf = fun x => (√(2 * π))⁻¹ * exp (-x ^ 2 / 2) := funext std_pdf
  rw [this]; fun_prop

theorem std_pdf_integrable : Integrable std.pdf := by
  have : std.pdf = gaussianPDFReal 0 1 := funext std_pdf_eq
  rw [this]; exact integrable_gaussianPDFReal 0 1

theorem std_pdf_integral : ∫ x, std.pdf x = 1 := by
  have : std.pdf = gaussianPDFReal 0 1 := funext std_pdf_eq
  rw [this]; exact integral_gaussianPDFReal_eq_one 0 one_ne_zero

/-- The code's `erfc` formula is the integral of the density. -/
theorem std_cdf (x : ℝ) : std.cdf x = ∫ t in Set.Iic x, std.pdf t := by
  have h2 : (0:ℝ) < √2 := by positivity
  have e1 := integral_comp_mul_left_Ioi (fun t => exp (-t ^ 2)) (-x) (inv_pos.mpr h2)
  have e2 := integral_comp_neg_Iic x std.pdf
  simp only [std_pdf_neg] at e2
  rw [e2]
  have e3 : ∀ t : ℝ, std.pdf t = (√(2 * π))⁻¹ * exp (-((√2)⁻¹ * t) ^ 2) := by
    intro t
    rw [std_pdf]; congr 2; rw [mul_pow, inv_pow, Real.sq_sqrt (by norm_num)]; ring
  simp only [e3, integral_const_mul]
  rw [e1]
  simp only [std, cdf, erfc, smul_eq_mul, sub_zero, Real.sqrt_one, mul_one, inv_inv]
  rw [show -x / √2 = (√2)⁻¹ * -x by field_simp]
  rw [Real.sqrt_mul (by norm_num : (0:ℝ) ≤ 2)]
  have : (0:ℝ) < √π := by positivity
  field_simp; norm_num

theorem cdf_std (m v x : ℝ) : cdf ⟨m, v⟩ x = std.cdf ((x - m) / √v) := by
  simp only [cdf, std, sub_zero, Real.sqrt_one, mul_one]
  congr 2
  rw [neg_div, neg_div, mul_comm, div_div]

theorem pdf_std (m v x : ℝ) (hv : 0 < v) : pdf ⟨m, v⟩ x = std.pdf ((x - m) / √v) / √v := by
  rw [std_pdf]; simp only [pdf]
  rw [Real.sqrt_mul (by positivity), div_pow, Real.sq_sqrt hv.le]
  have : (0:ℝ) < √v := by positivity
  rw [show -0.5 * (x - m) ^ 2 / v = -((x - m) ^ 2 / v) / 2 by ring]
  field_simp

theorem std_cdf_hasDerivAt (x : ℝ) : HasDerivAt std.cdf (std.pdf x) x := by
  have h : std.cdf = fun x => std.cdf 0 + ∫ t in (0:ℝ)..x, std.pdf t := by
    funext y
    rw [std_cdf, std_cdf, ← intervalIntegral.integral_Iic_sub_Iic
      std_pdf_integrable.integrableOn std_pdf_integrable.integrableOn]
    ring
  rw [h]
  refine ((intervalIntegral.integral_hasDerivAt_right ?_ ?_ ?_).const_add _)
  · exact std_pdf_continuous.intervalIntegrable _ _
  · exact std_pdf_continuous.stronglyMeasurableAtFilter _ _
  · exact std_pdf_continuous.continuousAt

theorem std_cdf_strictMono : StrictMono std.cdf :=
  strictMono_of_deriv_pos (fun x => by rw [(std_cdf_hasDerivAt x).deriv]; exact std_pdf_pos x)

theorem std_cdf_continuous : Continuous std.cdf :=
  continuous_iff_continuousAt.mpr fun x => (std_cdf_hasDerivAt x).continuousAt

/-- Symmetry: `Φ(-x) = 1 - Φ(x)`. -/
theorem std_cdf_neg (x : ℝ) : std.cdf (-x) = 1 - std.cdf x := by
  have e := integral_comp_neg_Ioi x std.pdf
  simp only [std_pdf_neg] at e
  rw [std_cdf, std_cdf, ← e, ← std_pdf_integral]
  have := intervalIntegral.integral_Iic_add_Ioi (b := x) std_pdf_integrable.integrableOn
    std_pdf_integrable.integrableOn
  linarith

theorem std_cdf_zero : std.cdf 0 = 1 / 2 := by
  have := std_cdf_neg 0
  rw [neg_zero] at this; linarith

/-- The standard cdf is the distribution function of the standard normal law. -/
theorem std_cdf_law (x : ℝ) : std.cdf x = ProbabilityTheory.cdf (gaussianReal 0 1) x := by
  rw [ProbabilityTheory.cdf_eq_real, measureReal_def, gaussianReal_apply_eq_integral 0 one_ne_zero,
    ENNReal.toReal_ofReal, std_cdf]
  · simp only [std_pdf_eq]
  · exact integral_nonneg fun x => gaussianPDFReal_nonneg 0 1 x

theorem std_cdf_pos (x : ℝ) : 0 < std.cdf x := by
  have h1 := std_cdf_strictMono (show x - 1 < x by linarith)
  have h2 : 0 ≤ std.cdf (x - 1) := by rw [std_cdf_law]; exact ProbabilityTheory.cdf_nonneg _ _
  linarith

theorem std_cdf_lt_one (x : ℝ) : std.cdf x < 1 := by
  have := std_cdf_neg x
  have := std_cdf_pos (-x)
  linarith

theorem cdf_law (m v : ℝ) (hv : 0 < v) (x : ℝ) :
    cdf ⟨m, v⟩ x = ProbabilityTheory.cdf (gaussianReal m v.toNNReal) x := by
  have hs : (0:ℝ) < √v := by positivity
  rw [cdf_std, std_cdf_law, ProbabilityTheory.cdf_eq_real, ProbabilityTheory.cdf_eq_real]
  have e : gaussianReal m v.toNNReal = ((gaussianReal 0 1).map (√v * ·)).map (· + m) := by
    rw [gaussianReal_map_const_mul, gaussianReal_map_add_const]
    congr 1
    · simp
    · ext; simp [Real.sq_sqrt hv.le, Real.coe_toNNReal v hv.le]
  rw [e, measureReal_def, measureReal_def, Measure.map_apply (by fun_prop) measurableSet_Iic,
    Measure.map_apply (by fun_prop) (measurableSet_Iic.preimage (by fun_prop))]
  congr 2
  ext y
  simp only [Set.mem_Iic, Set.mem_preimage]
  rw [le_div_iff₀ hs]
  constructor <;> intro h <;> nlinarith

theorem std_cdf_surj (p : ℝ) (h0 : 0 < p) (h1 : p < 1) : ∃ x, std.cdf x = p := by
  have hb : Filter.Tendsto std.cdf Filter.atBot (nhds 0) := by
    rw [show std.cdf = ProbabilityTheory.cdf (gaussianReal 0 1) from funext std_cdf_law]
    exact ProbabilityTheory.tendsto_cdf_atBot _
  have ht : Filter.Tendsto std.cdf Filter.atTop (nhds 1) := by
    rw [show std.cdf = ProbabilityTheory.cdf (gaussianReal 0 1) from funext std_cdf_law]
    exact ProbabilityTheory.tendsto_cdf_atTop _
  obtain ⟨a, ha⟩ := (hb.eventually (gt_mem_nhds h0)).exists
  obtain ⟨b, hb⟩ := (ht.eventually (lt_mem_nhds h1)).exists
  exact mem_range_of_exists_le_of_exists_ge std_cdf_continuous ⟨a, ha.le⟩ ⟨b, hb.le⟩

theorem erf_eq (x : ℝ) : erf x = 2 * std.cdf (√2 * x) - 1 := by
  have h := std_cdf_neg (√2 * x)
  have h2 : (0:ℝ) < √2 := by positivity
  have : std.cdf (-(√2 * x)) = 0.5 * erfc x := by
    simp only [cdf, std, sub_zero, Real.sqrt_one, mul_one, neg_neg]
    rw [mul_div_cancel_left₀ _ h2.ne']
  rw [this] at h
  unfold erf
  linarith

theorem erf_injective : Function.Injective erf := by
  intro a b h
  rw [erf_eq, erf_eq] at h
  have h2 : (0:ℝ) < √2 := by positivity
  have := std_cdf_strictMono.injective (show std.cdf (√2 * a) = std.cdf (√2 * b) by linarith)
  exact mul_left_cancel₀ h2.ne' this

theorem erf_erfInv (y : ℝ) (h0 : -1 < y) (h1 : y < 1) : erf (erfInv y) = y := by
  obtain ⟨x, hx⟩ := std_cdf_surj ((y + 1) / 2) (by linarith) (by linarith)
  apply Function.invFun_eq
  refine ⟨x / √2, ?_⟩
  rw [erf_eq, mul_div_cancel₀ _ (by positivity), hx]; ring

theorem erfInv_erf (x : ℝ) : erfInv (erf x) = x := Function.leftInverse_invFun erf_injective x

/-! moments -/

theorem deriv_poly_exp (v : ℝ) (p p' : ℝ → ℝ) (hp : ∀ t, HasDerivAt p (p' t) t) :
    deriv (fun t => p t * exp (v * t ^ 2 / 2)) = fun t => (p' t + v * t * p t) * exp (v * t ^ 2 / 2) := by
  funext t
  have h : HasDerivAt (fun t => exp (v * t ^ 2 / 2)) (exp (v * t ^ 2 / 2) * (v * t)) t := by
    have := (((hasDerivAt_id t).pow 2).const_mul v).div_const 2
    simp only [id] at this
    refine (this.exp).congr_deriv ?_
    simp only [Pi.pow_apply, id]; push_cast; ring
  exact ((hp t).fun_mul h).deriv.trans (by ring)

theorem moments_zero_mean (v : NNReal) :
    ∫ x, x ^ 3 ∂gaussianReal 0 v = 0 ∧ ∫ x, x ^ 4 ∂gaussianReal 0 v = 3 * (v:ℝ) ^ 2 := by
  have hm : ProbabilityTheory.mgf id (gaussianReal 0 v) = fun t => 1 * exp ((v:ℝ) * t ^ 2 / 2) := by
    rw [mgf_id_gaussianReal]; funext t; simp
  have key : ∀ n : ℕ, iteratedDeriv n (ProbabilityTheory.mgf id (gaussianReal 0 v)) 0 = ∫ x, x ^ n ∂gaussianReal 0 v := by
    intro n
    rw [iteratedDeriv_mgf_zero]
    · simp
    · rw [integrableExpSet_id_gaussianReal]; simp
  have d1 := deriv_poly_exp v (fun _ => 1) (fun _ => 0) (fun t => hasDerivAt_const t 1)
  have d2 := deriv_poly_exp v (fun t => (v:ℝ) * t) (fun _ => v)
    (fun t => by simpa using (hasDerivAt_id t).const_mul (v:ℝ))
  have d3 := deriv_poly_exp v (fun t => (v:ℝ) + (v:ℝ) ^ 2 * t ^ 2) (fun t => 2 * (v:ℝ) ^ 2 * t)
    (fun t => by
      have := ((hasDerivAt_pow 2 t).const_mul ((v:ℝ) ^ 2)).const_add (v:ℝ)
      refine this.congr_deriv ?_; push_cast; ring)
  have d4 := deriv_poly_exp v (fun t => 3 * (v:ℝ) ^ 2 * t + (v:ℝ) ^ 3 * t ^ 3)
    (fun t => 3 * (v:ℝ) ^ 2 + 3 * (v:ℝ) ^ 3 * t ^ 2)
    (fun t => by
      have := ((hasDerivAt_id t).const_mul (3 * (v:ℝ) ^ 2)).add ((hasDerivAt_pow 3 t).const_mul ((v:ℝ) ^ 3))
      refine this.congr_deriv ?_; push_cast; ring)
  have i3 : iteratedDeriv 3 (ProbabilityTheory.mgf id (gaussianReal 0 v)) =
      fun t => (3 * (v:ℝ) ^ 2 * t + (v:ℝ) ^ 3 * t ^ 3) * exp ((v:ℝ) * t ^ 2 / 2) := by
    rw [iteratedDeriv_succ, iteratedDeriv_succ, iteratedDeriv_succ, iteratedDeriv_zero, hm, d1]
    rw [show (fun t : ℝ => (0 + (v:ℝ) * t * 1) * exp ((v:ℝ) * t ^ 2 / 2))
      = fun t => ((v:ℝ) * t) * exp ((v:ℝ) * t ^ 2 / 2) from by funext t; ring, d2]
    rw [show (fun t : ℝ => ((v:ℝ) + (v:ℝ) * t * ((v:ℝ) * t)) * exp ((v:ℝ) * t ^ 2 / 2))
      = fun t => ((v:ℝ) + (v:ℝ) ^ 2 * t ^ 2) * exp ((v:ℝ) * t ^ 2 / 2) from by funext t; ring, d3]
    funext t; ring
  refine ⟨?_, ?_⟩
  · rw [← key 3, i3]; simp
  · rw [← key 4, iteratedDeriv_succ, i3, d4]; simp

end Gaussian

end Verif.Distributions
