import Verif.Distributions.GammaFamilyLemmas

/-!
# C62: the exponential distribution

The law is `expMeasure λ`, defined in Mathlib by its density.
-/

namespace Verif.Distributions

open MeasureTheory ProbabilityTheory Real

namespace Exponential

theorem new_some {l : ℝ} {d : Exponential} (h : new l = some d) : 0 < l ∧ d = ⟨l⟩ := by
  unfold new at h
  split_ifs at h with h0
  exact ⟨h0, by simpa using h.symm⟩

end Exponential

open Exponential

/-- Construction panics exactly when the rate is not positive. -/
theorem C62_new (l : ℝ) : (Exponential.new l = none ↔ l ≤ 0) ∧
    ∀ d, Exponential.new l = some d → d.lambda = l := by
  refine ⟨?_, fun d h => ?_⟩
  · unfold Exponential.new; split_ifs with h <;> simp [h] <;> linarith
  · obtain ⟨_, rfl⟩ := Exponential.new_some h; rfl

/-- `pdf` and `cdf` answer exactly for non-negative arguments, with the density and the
distribution function of the law (both zero on the negative side, where the methods panic). -/
theorem C62_law (l : ℝ) (d : Exponential) (h : Exponential.new l = some d) :
    expMeasure l = volume.withDensity (fun x => ENNReal.ofReal ((d.pdf x).getD 0)) ∧
    (∀ x, d.pdf x = none ↔ x < 0) ∧
    (∀ x, 0 ≤ x → d.cdf x = some (Spec.cdf (expMeasure l) x)) ∧
    (∀ x, x < 0 → d.cdf x = none ∧ Spec.cdf (expMeasure l) x = 0) ∧
    (∀ x y c c' c'', d.cdf x = some c → d.cdf y = some c' → d.cdf (x + y) = some c'' →
      1 - c'' = (1 - c) * (1 - c')) := by
  obtain ⟨hl, rfl⟩ := Exponential.new_some h
  have := isProbabilityMeasure_expMeasure hl
  have hc : ∀ x, Spec.cdf (expMeasure l) x = if 0 ≤ x then 1 - exp (-(l * x)) else 0 := by
    intro x; rw [← cdf_expMeasure_eq hl, cdf_eq_real]; rfl
  refine ⟨?_, ?_, ?_, ?_, ?_⟩
  · rw [expMeasure, gammaMeasure]
    congr 1
    funext x
    rw [gammaPDF, gammaPDFReal]
    unfold Exponential.pdf
    split_ifs with hx
    · simp
    · simp
  · intro x; unfold Exponential.pdf; split_ifs with hx <;> simp <;> linarith
  · intro x hx; rw [hc, if_pos hx]; unfold Exponential.cdf; rw [if_pos hx]; simp
  · intro x hx; rw [hc, if_neg (not_le.2 hx)]; unfold Exponential.cdf
    rw [if_neg (not_le.2 hx)]; simp
  · intro x y c c' c'' h1 h2 h3
    unfold Exponential.cdf at h1 h2 h3
    split_ifs at h1 h2 h3
    simp only [Option.some.injEq] at h1 h2 h3
    subst h1 h2 h3
    rw [show -l * (x + y) = -l * x + -l * y by ring, exp_add]
    ring

example := C62_law 2 ⟨2⟩ (by simp [Exponential.new])

/-- `inv_cdf` is the quantile function on `(0,1)` and the inverse of `cdf`; it gives no finite
number from `1` on, and does not refuse a negative level: it answers with a negative number. -/
theorem C62_quantile (l : ℝ) (d : Exponential) (h : Exponential.new l = some d) :
    (∀ p, 0 < p → p < 1 → ∃ q, d.invCdf p = some q ∧ Spec.IsQuantile (expMeasure l) p q ∧
      d.cdf q = some p) ∧
    (∀ x c, d.cdf x = some c → d.invCdf c = some x) ∧
    (∀ p, d.invCdf p = none ↔ 1 ≤ p) ∧
    (∀ p q, d.invCdf p = some q → (q < 0 ↔ p < 0)) := by
  obtain ⟨_, _, h3, h4, _⟩ := C62_law l d h
  obtain ⟨hl, rfl⟩ := Exponential.new_some h
  have key : ∀ p, p < 1 → exp (-l * (-log (1 - p) / l)) = 1 - p := by
    intro p hp
    rw [show -l * (-log (1 - p) / l) = log (1 - p) by field_simp, exp_log (by linarith)]
  refine ⟨?_, ?_, ?_, ?_⟩
  · intro p h0 h1
    have hn : log (1 - p) < 0 := log_neg (by linarith) (by linarith)
    have hq : 0 ≤ -log (1 - p) / l := div_nonneg (by linarith) hl.le
    have hcq : Exponential.cdf ⟨l⟩ (-log (1 - p) / l) = some p := by
      unfold Exponential.cdf; rw [if_pos hq]; simp only [key p h1]; simp
    refine ⟨_, by unfold Exponential.invCdf; rw [if_neg (by linarith)], ⟨?_, ?_⟩, hcq⟩
    · rw [h3 _ hq] at hcq; simp only [Option.some.injEq] at hcq; exact hcq.ge
    · intro y hy
      by_cases hy0 : y < 0
      · rw [(h4 y hy0).2] at hy; linarith
      · push Not at hy0
        have hh := h3 y hy0
        unfold Exponential.cdf at hh
        rw [if_pos hy0] at hh
        simp only [Option.some.injEq] at hh
        rw [← hh] at hy
        have : exp (-l * y) ≤ 1 - p := by linarith
        have := (log_le_log (exp_pos _) this)
        rw [log_exp] at this
        rw [div_le_iff₀ hl]; linarith
  · intro x c hc
    unfold Exponential.cdf at hc
    split_ifs at hc with hx
    simp only [Option.some.injEq] at hc
    subst hc
    unfold Exponential.invCdf
    have := exp_pos (-l * x)
    rw [if_neg (by linarith)]
    rw [show 1 - (1 - exp (-l * x)) = exp (-l * x) by ring, log_exp]
    congr 1; field_simp
  · intro p; unfold Exponential.invCdf; split_ifs with hp <;> simp <;> linarith
  · intro p q hq
    unfold Exponential.invCdf at hq
    split_ifs at hq with hp
    simp only [Option.some.injEq] at hq
    subst hq
    push Not at hp
    rw [div_lt_iff₀ hl, zero_mul, neg_lt_zero]
    constructor
    · intro hh
      by_contra hn
      have := log_nonpos (x := 1 - p) (by linarith) (by linarith)
      linarith
    · intro hh; exact log_pos (by linarith)

example := C62_quantile 2 ⟨2⟩ (by simp [Exponential.new])

/-- The characteristic function, the moment generating function (on the half line where it is
finite; elsewhere the call panics), mean, variance, skewness and excess kurtosis. -/
theorem C62_moments (l : ℝ) (d : Exponential) (h : Exponential.new l = some d) :
    (∀ t, d.cf t = Spec.cf (expMeasure l) t) ∧
    (∀ t, t < l → d.mgf t = some (Spec.mgf (expMeasure l) t)) ∧
    (∀ t, d.mgf t = none ↔ l ≤ t) ∧
    d.mean = Spec.mean (expMeasure l) ∧ d.variance = Spec.variance (expMeasure l) ∧
    d.skewness = Spec.skewness (expMeasure l) ∧
    d.kurtosis = Spec.excessKurtosis (expMeasure l) := by
  obtain ⟨hl, rfl⟩ := Exponential.new_some h
  obtain ⟨e1, e2, e3, e4⟩ := gamma_moments one_pos hl
  refine ⟨?_, ?_, ?_, ?_, ?_, ?_, ?_⟩
  · intro t
    rw [expMeasure, gamma_cf one_pos hl]
    unfold Exponential.cf
    simp [Complex.cpow_neg_one]
  · intro t ht
    rw [expMeasure, gamma_mgf one_pos hl ht]
    unfold Exponential.mgf
    rw [if_pos ht, rpow_neg_one]
    congr 1
    have : l - t ≠ 0 := by linarith
    have : 1 - t / l ≠ 0 := by rw [show 1 - t / l = (l - t) / l by field_simp]; positivity
    rw [show 1 - t / l = (l - t) / l by field_simp]
    field_simp
  · intro t; unfold Exponential.mgf; split_ifs with ht <;> simp <;> linarith
  · rw [expMeasure, e1]; simp [Exponential.mean]
  · rw [expMeasure, e2]; simp [Exponential.variance]
  · rw [expMeasure, e3]; simp [Exponential.skewness]
  · rw [expMeasure, e4]; simp [Exponential.kurtosis]

example := C62_moments 2 ⟨2⟩ (by simp [Exponential.new])

/-- `median` is a median, `mode` maximises the density, `entropy` is the expectation of minus the
logarithm of the density. -/
theorem C62_centre (l : ℝ) (d : Exponential) (h : Exponential.new l = some d) :
    Spec.IsMedian (expMeasure l) d.median ∧ d.cdf d.median = some (1 / 2) ∧
    (∃ top, d.pdf d.mode = some top ∧ ∀ x v, d.pdf x = some v → v ≤ top ∧ (v = top → x = d.mode)) ∧
    d.entropy = ∫ x, -log ((d.pdf x).getD 0) ∂expMeasure l := by
  obtain ⟨_, _, h3, h4, _⟩ := C62_law l d h
  obtain ⟨hl, rfl⟩ := Exponential.new_some h
  have := isProbabilityMeasure_expMeasure hl
  have hm0 : 0 ≤ (⟨l⟩ : Exponential).median := by
    unfold Exponential.median; exact div_nonneg (log_nonneg (by norm_num)) hl.le
  have hmed : Exponential.cdf ⟨l⟩ (⟨l⟩ : Exponential).median = some (1 / 2) := by
    unfold Exponential.cdf
    rw [if_pos hm0]
    unfold Exponential.median
    rw [show -l * (log 2 / l) = -log 2 by field_simp, exp_neg, exp_log (by norm_num)]
    norm_num
  have hcdf : (expMeasure l).real (Set.Iic (⟨l⟩ : Exponential).median) = 1 / 2 := by
    have := h3 _ hm0
    rw [hmed] at this
    simp only [Option.some.injEq] at this
    exact this.symm
  refine ⟨⟨hcdf.ge, ?_⟩, hmed, ?_, ?_⟩
  · have hc : (expMeasure l).real (Set.Iic (⟨l⟩ : Exponential).median)ᶜ = 1 - 1 / 2 := by
      rw [probReal_compl_eq_one_sub measurableSet_Iic, hcdf]
    have hsub : (Set.Iic (⟨l⟩ : Exponential).median)ᶜ ⊆ Set.Ici (⟨l⟩ : Exponential).median := by
      intro x hx; simp only [Set.mem_compl_iff, Set.mem_Iic, not_le] at hx; exact hx.le
    have := measureReal_mono (μ := expMeasure l) hsub
    linarith
  · refine ⟨l, by simp [Exponential.pdf, Exponential.mode], ?_⟩
    intro x v hv
    unfold Exponential.pdf at hv
    split_ifs at hv with hx
    simp only [Option.some.injEq] at hv
    subst hv
    refine ⟨?_, ?_⟩
    · have : exp (-l * x) ≤ 1 := by rw [exp_le_one_iff]; nlinarith
      nlinarith
    · intro he
      have : exp (-l * x) = 1 := by
        have := hl.ne'
        field_simp at he
        rw [neg_mul]; exact he
      rw [exp_eq_one_iff] at this
      rcases mul_eq_zero.1 this with h | h
      · linarith
      · exact h
  · have hpt : ∀ᵐ x ∂expMeasure l, -log (((⟨l⟩ : Exponential).pdf x).getD 0) = -log l + l * x := by
      filter_upwards [gamma_ae_pos (a := 1) (r := l)] with x hx
      unfold Exponential.pdf
      rw [if_pos hx.le]
      simp only [Option.getD_some]
      rw [log_mul hl.ne' (exp_pos _).ne', log_exp]
      ring
    rw [integral_congr_ae hpt]
    obtain ⟨i1, v1⟩ := gamma_raw one_pos hl 1
    simp only [pow_one] at i1 v1
    rw [(gamma_ratio one_pos).1] at v1
    rw [integral_add (f := fun _ => -log l) (integrable_const _)
      (by rw [expMeasure]; exact i1.const_mul l), integral_const,
      integral_const_mul l (fun x : ℝ => x), expMeasure, v1]
    have := gamma_prob one_pos hl
    simp only [probReal_univ, smul_eq_mul, one_mul]
    unfold Exponential.entropy
    field_simp
    ring

/-- A concrete instance: rate 2, with the values of its methods. -/
example : ∃ d, Exponential.new 2 = some d ∧ d.mean = 1 / 2 ∧ d.cdf (-1) = none ∧
    d.invCdf 1 = none ∧ d.mgf 1 = some 2 := by
  refine ⟨⟨2⟩, by simp [Exponential.new], by simp [Exponential.mean], ?_, ?_, ?_⟩
  · simp [Exponential.cdf]
  · simp [Exponential.invCdf]
  · norm_num [Exponential.mgf]

end Verif.Distributions
