import Verif.Distributions.GaussianLemmas

/-!
# C57: the Gaussian distribution object describes the normal law

The specification is Mathlib's normal law `gaussianReal m v` (mean `m`, variance `v`) and its
standard attributes (`cdf`, `charFun`, `mgf`, moments).
-/

namespace Verif.Distributions

open Real MeasureTheory ProbabilityTheory

namespace Gaussian

/-- `new` accepts exactly the positive variances. -/
theorem C57_gaussian_new (m v : ℝ) : (new m v = none ↔ v ≤ 0) ∧
    ∀ g, new m v = some g → g.mean = m ∧ g.variance = v ∧ 0 < v := by
  refine ⟨?_, ?_⟩
  · unfold new; split_ifs with h <;> simp [h] <;> linarith
  · intro g h; obtain ⟨h1, rfl⟩ := new_some h; exact ⟨rfl, rfl, h1⟩

/-- `pdf` is the density of the normal law, `cdf` its distribution function and the antiderivative
of `pdf`. -/
theorem C57_gaussian_law (m v : ℝ) (g : Gaussian) (h : new m v = some g) :
    gaussianReal m v.toNNReal = volume.withDensity (fun x => ENNReal.ofReal (g.pdf x)) ∧
    (∀ x, g.cdf x = ProbabilityTheory.cdf (gaussianReal m v.toNNReal) x) ∧
    (∀ x, HasDerivAt g.cdf (g.pdf x) x) ∧ ∫ x, g.pdf x = 1 := by
  obtain ⟨hv, rfl⟩ := new_some h
  have hs : (0:ℝ) < √v := by positivity
  have hne : v.toNNReal ≠ 0 := by simpa using hv
  refine ⟨?_, fun x => cdf_law m v hv x, ?_, ?_⟩
  · rw [gaussianReal_of_var_ne_zero m hne]
    congr 1; funext x
    rw [pdf_eq m v hv]; rfl
  · intro x
    have e : cdf ⟨m, v⟩ = fun x => std.cdf ((x - m) / √v) := funext (cdf_std m v)
    rw [e, pdf_std m v x hv]
    have h1 : HasDerivAt (fun x => (x - m) / √v) (1 / √v) x :=
      ((hasDerivAt_id x).sub_const m).div_const _
    refine ((std_cdf_hasDerivAt _).comp x h1).congr_deriv ?_
    ring
  · simp only [pdf_eq m v hv]
    exact integral_gaussianPDFReal_eq_one m hne

example := C57_gaussian_law 1 4 ⟨1, 4⟩ (by simp [new])

/-- `inv_cdf` is the two-sided inverse of `cdf` on `(0,1)`; `cdf` is strictly increasing, within
`(0,1)` and symmetric about the mean. -/
theorem C57_gaussian_quantile (m v : ℝ) (g : Gaussian) (h : new m v = some g) :
    (∀ p, 0 < p → p < 1 → g.cdf (g.invCdf p) = p) ∧ (∀ x, g.invCdf (g.cdf x) = x) ∧
    StrictMono g.cdf ∧ (∀ x, 0 < g.cdf x ∧ g.cdf x < 1) ∧
    (∀ d, g.cdf (m - d) = 1 - g.cdf (m + d)) := by
  obtain ⟨hv, rfl⟩ := new_some h
  have hs : (0:ℝ) < √v := by positivity
  have h2 : (0:ℝ) < √2 := by positivity
  refine ⟨?_, ?_, ?_, ?_, ?_⟩
  · intro p h0 h1
    rw [cdf_std]
    simp only [invCdf]
    have e := erf_erfInv (2 * p - 1) (by linarith) (by linarith)
    rw [erf_eq] at e
    rw [show (m + √2 * √v * erfInv (2 * p - 1) - m) / √v = √2 * erfInv (2 * p - 1) by
      field_simp; ring]
    linarith
  · intro x
    rw [cdf_std]
    simp only [invCdf]
    have e : 2 * std.cdf ((x - m) / √v) - 1 = erf ((x - m) / √v / √2) := by
      rw [erf_eq, mul_div_cancel₀ _ h2.ne']
    rw [e, erfInv_erf]; field_simp; ring
  · intro a b hab
    rw [cdf_std m v a, cdf_std m v b]
    exact std_cdf_strictMono ((div_lt_div_iff_of_pos_right hs).mpr (by linarith))
  · intro x; rw [cdf_std]; exact ⟨std_cdf_pos _, std_cdf_lt_one _⟩
  · intro d
    rw [cdf_std m v (m - d), cdf_std m v (m + d), ← std_cdf_neg]; congr 1; ring

example := C57_gaussian_quantile 1 4 ⟨1, 4⟩ (by simp [new])

/-- The reported characteristics are those of the normal law: characteristic function, moment
generating function, mean, variance, third and fourth standardised central moment (skewness and
excess kurtosis). -/
theorem C57_gaussian_moments (m v : ℝ) (g : Gaussian) (h : new m v = some g) :
    (∀ t, g.cf t = charFun (gaussianReal m v.toNNReal) t) ∧
    (∀ t, g.mgf t = ProbabilityTheory.mgf id (gaussianReal m v.toNNReal) t) ∧
    g.mean = ∫ x, x ∂gaussianReal m v.toNNReal ∧
    g.variance = Var[id; gaussianReal m v.toNNReal] ∧
    g.skewness = (∫ x, ((x - m) / √v) ^ 3 ∂gaussianReal m v.toNNReal) ∧
    g.kurtosis = (∫ x, ((x - m) / √v) ^ 4 ∂gaussianReal m v.toNNReal) - 3 := by
  obtain ⟨hv, rfl⟩ := new_some h
  have hs : (0:ℝ) < √v := by positivity
  have hc : ((v.toNNReal : ℝ)) = v := Real.coe_toNNReal v hv.le
  have shift : ∀ n : ℕ, ∫ x, ((x - m) / √v) ^ n ∂gaussianReal m v.toNNReal
      = (∫ x, x ^ n ∂gaussianReal 0 v.toNNReal) / √v ^ n := by
    intro n
    have e : gaussianReal 0 v.toNNReal = (gaussianReal m v.toNNReal).map (fun x => x - m) := by
      rw [gaussianReal_map_sub_const]; simp
    rw [e, integral_map (by fun_prop) (by fun_prop)]
    simp only [div_pow, integral_div]
  refine ⟨?_, ?_, ?_, ?_, ?_, ?_⟩
  · intro t
    rw [charFun_gaussianReal]
    simp only [cf]
    congr 1
    have : ((v.toNNReal : ℝ) : ℂ) = v := by rw [hc]
    rw [show ((v.toNNReal : NNReal) : ℂ) = ((v.toNNReal : ℝ) : ℂ) from rfl, this]
    ring
  · intro t; rw [mgf_id_gaussianReal]; simp only [mgf, hc]; congr 1; ring
  · exact integral_id_gaussianReal.symm
  · rw [variance_id_gaussianReal, hc]
  · rw [shift, (moments_zero_mean _).1]; simp [skewness]
  · rw [shift, (moments_zero_mean _).2, hc, show √v ^ 4 = (√v ^ 2) ^ 2 by ring, Real.sq_sqrt hv.le]
    simp only [kurtosis]; field_simp; ring

example := C57_gaussian_moments 1 4 ⟨1, 4⟩ (by simp [new])

/-- `median`, `mode` and `entropy`: half the mass lies below the median, the density is largest
exactly at the mode, and the entropy is the expected negative log-density. -/
theorem C57_gaussian_centre (m v : ℝ) (g : Gaussian) (h : new m v = some g) :
    g.cdf g.median = 1 / 2 ∧ (∀ x, g.pdf x ≤ g.pdf g.mode) ∧
    (∀ x, g.pdf x = g.pdf g.mode → x = g.mode) ∧
    g.entropy = ∫ x, -log (g.pdf x) ∂gaussianReal m v.toNNReal := by
  obtain ⟨hv, rfl⟩ := new_some h
  have hs : (0:ℝ) < √v := by positivity
  have hc : ((v.toNNReal : ℝ)) = v := Real.coe_toNNReal v hv.le
  refine ⟨?_, ?_, ?_, ?_⟩
  · rw [cdf_std]; simp [median, std_cdf_zero]
  · intro x
    simp only [pdf, mode]
    apply mul_le_mul_of_nonneg_left _ (by positivity)
    apply exp_le_exp.mpr
    have : 0 ≤ (x - m) ^ 2 / v := by positivity
    have e : -0.5 * (x - m) ^ 2 / v = -0.5 * ((x - m) ^ 2 / v) := by ring
    rw [e]; simp; norm_num; positivity
  · intro x hx
    simp only [pdf, mode] at hx ⊢
    have hp : (√(2 * π * v))⁻¹ ≠ 0 := by positivity
    have := exp_injective (mul_left_cancel₀ hp hx)
    simp only [sub_self, ne_eq, OfNat.ofNat_ne_zero, not_false_eq_true, zero_pow, mul_zero, zero_div] at this
    have h3 : (x - m) ^ 2 = 0 := by
      field_simp at this
      norm_num at this
      nlinarith
    have := pow_eq_zero_iff (two_ne_zero) |>.mp h3
    linarith
  · have e : ∀ x, -log (pdf ⟨m, v⟩ x) = 0.5 * log (2 * π * v) + (x - m) ^ 2 / (2 * v) := by
      intro x
      simp only [pdf]
      rw [log_mul (by positivity) (by positivity), log_exp, log_inv, log_sqrt (by positivity)]
      ring
    simp only [e]
    have hvar := variance_id_gaussianReal (μ := m) (v := v.toNNReal)
    rw [variance_eq_integral (by fun_prop)] at hvar
    simp only [id, integral_id_gaussianReal, hc] at hvar
    have hint : Integrable (fun x : ℝ => (x - m) ^ 2) (gaussianReal m v.toNNReal) := by
      by_contra hn
      rw [integral_undef hn] at hvar
      linarith
    rw [integral_add (integrable_const _) (hint.div_const _), integral_const, integral_div, hvar]
    simp only [entropy, probReal_univ, one_smul]
    field_simp; norm_num; ring

/-- The hypotheses are met, e.g. by mean 1 and variance 4. -/
example : ∃ g, new 1 4 = some g ∧ g.mean = 1 ∧ g.variance = 4 ∧ g.cdf 1 = 1 / 2 := by
  refine ⟨⟨1, 4⟩, by simp [new], rfl, rfl, ?_⟩
  exact (C57_gaussian_centre 1 4 ⟨1, 4⟩ (by simp [new])).1

end Gaussian

end Verif.Distributions
