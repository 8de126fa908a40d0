import Verif.Distributions.GammaFamilyLemmas
import Mathlib.MeasureTheory.Function.Floor

/-!
# C63: the gamma distribution

The law is `gammaMeasure α β` (shape and rate), defined in Mathlib by its density.
-/

namespace Verif.Distributions

open MeasureTheory ProbabilityTheory Real

namespace GammaDist

theorem new_some {a b : ℝ} {d : GammaDist} (h : new a b = some d) :
    0 < a ∧ 0 < b ∧ d = ⟨a, b⟩ := by
  unfold new at h
  split_ifs at h with h0
  exact ⟨h0.1, h0.2, by simpa using h.symm⟩

/-- The unnormalised density is largest at `(a-1)/b`. -/
theorem shape_le {a b x : ℝ} (ha : 1 < a) (hb : 0 < b) (hx : 0 < x) :
    x ^ (a - 1) * exp (-b * x) ≤
      ((a - 1) / b) ^ (a - 1) * exp (-b * ((a - 1) / b)) := by
  set m := (a - 1) / b with hm
  have hm0 : 0 < m := div_pos (by linarith) hb
  have hbm : b * m = a - 1 := by rw [hm]; field_simp
  have h1 : x / m ≤ exp (x / m - 1) := by
    have := add_one_le_exp (x / m - 1); linarith
  have h2 : (x / m) ^ (a - 1) ≤ exp (x / m - 1) ^ (a - 1) :=
    rpow_le_rpow (by positivity) h1 (by linarith)
  rw [← exp_mul, div_rpow hx.le hm0.le, div_le_iff₀ (by positivity)] at h2
  have h3 : exp ((x / m - 1) * (a - 1)) * exp (-b * x) = exp (-b * m) := by
    rw [← exp_add, ← hbm]; congr 1; field_simp; ring
  calc x ^ (a - 1) * exp (-b * x)
      ≤ (exp ((x / m - 1) * (a - 1)) * m ^ (a - 1)) * exp (-b * x) := by gcongr
    _ = m ^ (a - 1) * (exp ((x / m - 1) * (a - 1)) * exp (-b * x)) := by ring
    _ = _ := by rw [h3]

/-- For a shape of at most one the density decreases. -/
theorem shape_anti {a b x y : ℝ} (ha : a ≤ 1) (hb : 0 < b) (hx : 0 < x) (hxy : x ≤ y) :
    y ^ (a - 1) * exp (-b * y) ≤ x ^ (a - 1) * exp (-b * x) := by
  have h1 : y ^ (a - 1) ≤ x ^ (a - 1) := rpow_le_rpow_of_nonpos hx hxy (by linarith)
  have h2 : exp (-b * y) ≤ exp (-b * x) := exp_le_exp.2 (by nlinarith)
  have : 0 < y := by linarith
  gcongr

end GammaDist

/-- Construction panics exactly when a parameter is not positive. -/
theorem C63_new (a b : ℝ) : (GammaDist.new a b = none ↔ a ≤ 0 ∨ b ≤ 0) ∧
    ∀ d, GammaDist.new a b = some d → d.alpha = a ∧ d.beta = b := by
  refine ⟨?_, fun d h => ?_⟩
  · unfold GammaDist.new
    split_ifs with h
    · simp [h.1, h.2]
    · simp only [true_iff]
      by_contra hn; push Not at hn; exact h hn
  · obtain ⟨_, _, rfl⟩ := GammaDist.new_some h; exact ⟨rfl, rfl⟩

/-- `pdf` and `cdf` answer exactly for positive arguments, with a density and the distribution
function of the law. -/
theorem C63_law (a b : ℝ) (d : GammaDist) (h : GammaDist.new a b = some d) :
    gammaMeasure a b = volume.withDensity (fun x => ENNReal.ofReal ((d.pdf x).getD 0)) ∧
    (∀ x, d.pdf x = none ↔ x ≤ 0) ∧
    (∀ x, 0 < x → d.cdf x = some (Spec.cdf (gammaMeasure a b) x)) ∧
    (∀ x, x ≤ 0 → d.cdf x = none ∧ Spec.cdf (gammaMeasure a b) x = 0) ∧
    (∀ x y c c', x < y → d.cdf x = some c → d.cdf y = some c' → 0 < c ∧ c < c' ∧ c' < 1) := by
  obtain ⟨ha, hb, rfl⟩ := GammaDist.new_some h
  have hp := gamma_prob ha hb
  have hg := Gamma_pos_of_pos ha
  have hlt : ∀ x y, 0 ≤ x → x < y → Spec.cdf (gammaMeasure a b) x < Spec.cdf (gammaMeasure a b) y := by
    intro x y hx hxy
    rw [gamma_cdf ha hb hx, gamma_cdf ha hb (hx.trans hxy.le)]
    exact div_lt_div_of_pos_right (gammaLi_lt ha (by positivity) (by nlinarith)) hg
  have h3 : ∀ x, 0 < x → GammaDist.cdf ⟨a, b⟩ x = some (Spec.cdf (gammaMeasure a b) x) := by
    intro x hx
    unfold GammaDist.cdf
    rw [if_pos hx, gamma_cdf ha hb hx.le]
  have h4 : ∀ x, x ≤ 0 → GammaDist.cdf ⟨a, b⟩ x = none ∧ Spec.cdf (gammaMeasure a b) x = 0 := by
    intro x hx
    unfold GammaDist.cdf
    exact ⟨if_neg (not_lt.2 hx), gamma_cdf_neg hx⟩
  refine ⟨?_, ?_, h3, h4, ?_⟩
  · rw [gammaMeasure]
    refine withDensity_congr_ae ?_
    have : ∀ᵐ x : ℝ, x ≠ 0 := by simp [ae_iff]
    filter_upwards [this] with x hx
    rw [gammaPDF, gammaPDFReal]
    unfold GammaDist.pdf
    by_cases h0 : 0 < x
    · rw [if_pos h0.le, if_pos h0]
      simp only [Option.getD_some]
      congr 1; rw [neg_mul]; ring
    · have : ¬ 0 ≤ x := fun h => h0 (lt_of_le_of_ne h (Ne.symm hx))
      rw [if_neg this, if_neg h0]; simp
  · intro x; unfold GammaDist.pdf; split_ifs with hx <;> simp <;> linarith
  · intro x y c c' hxy hx hy
    have hx0 : 0 < x := by
      by_contra hn; rw [(h4 x (not_lt.1 hn)).1] at hx; simp at hx
    rw [h3 x hx0] at hx; rw [h3 y (hx0.trans hxy)] at hy
    simp only [Option.some.injEq] at hx hy
    subst hx hy
    refine ⟨?_, hlt x y hx0.le hxy, ?_⟩
    · have := hlt 0 x le_rfl hx0
      rw [gamma_cdf_neg le_rfl] at this; exact this
    · refine lt_of_lt_of_le (hlt y (y + 1) (hx0.trans hxy).le (by linarith)) ?_
      exact measureReal_le_one

example := C63_law 2 1 ⟨2, 1⟩ (by simp [GammaDist.new])

/-- The characteristic function, the moment generating function (where it is finite; elsewhere the
call panics), mean, variance, skewness and excess kurtosis. -/
theorem C63_moments (a b : ℝ) (d : GammaDist) (h : GammaDist.new a b = some d) :
    (∀ t, d.cf t = Spec.cf (gammaMeasure a b) t) ∧
    (∀ t, t < b → d.mgf t = some (Spec.mgf (gammaMeasure a b) t)) ∧
    (∀ t, d.mgf t = none ↔ b ≤ t) ∧
    d.mean = Spec.mean (gammaMeasure a b) ∧ d.variance = Spec.variance (gammaMeasure a b) ∧
    d.skewness = Spec.skewness (gammaMeasure a b) ∧
    d.kurtosis = Spec.excessKurtosis (gammaMeasure a b) := by
  obtain ⟨ha, hb, rfl⟩ := GammaDist.new_some h
  obtain ⟨e1, e2, e3, e4⟩ := gamma_moments ha hb
  refine ⟨?_, ?_, ?_, e1.symm, e2.symm, e3.symm, e4.symm⟩
  · intro t; rw [gamma_cf ha hb]; rfl
  · intro t ht; rw [gamma_mgf ha hb ht]; unfold GammaDist.mgf; rw [if_pos ht]
  · intro t; unfold GammaDist.mgf; split_ifs with ht <;> simp <;> linarith

example := C63_moments 2 1 ⟨2, 1⟩ (by simp [GammaDist.new])

/-- For a shape above one `mode` is the point where the density is largest; up to one, where `mode`
is zero, the density decreases on the whole positive half line. -/
theorem C63_mode (a b : ℝ) (d : GammaDist) (h : GammaDist.new a b = some d) :
    (1 < a → ∃ top, d.pdf d.mode = some top ∧ ∀ x v, d.pdf x = some v → v ≤ top) ∧
    (a ≤ 1 → d.mode = 0 ∧
      ∀ x y v w, x ≤ y → d.pdf x = some v → d.pdf y = some w → w ≤ v) := by
  obtain ⟨ha, hb, rfl⟩ := GammaDist.new_some h
  have hg := Gamma_pos_of_pos ha
  refine ⟨fun h1 => ?_, fun h1 => ?_⟩
  · have hm : GammaDist.mode ⟨a, b⟩ = (a - 1) / b := by
      unfold GammaDist.mode; rw [if_pos h1.le]
    have hm0 : 0 < (a - 1) / b := div_pos (by linarith) hb
    rw [hm]
    refine ⟨_, by unfold GammaDist.pdf; rw [if_pos hm0], ?_⟩
    intro x v hv
    unfold GammaDist.pdf at hv
    split_ifs at hv with hx
    simp only [Option.some.injEq] at hv
    subst hv
    have := GammaDist.shape_le h1 hb hx
    have hp : 0 < b ^ a := by positivity
    simp only
    rw [mul_assoc, mul_assoc]
    gcongr
  · refine ⟨?_, ?_⟩
    · unfold GammaDist.mode
      split_ifs with h2
      · have : a = 1 := le_antisymm h1 h2
        simp [this]
      · rfl
    · intro x y v w hxy hv hw
      unfold GammaDist.pdf at hv hw
      split_ifs at hv with hx
      split_ifs at hw with hy
      simp only [Option.some.injEq] at hv hw
      subst hv hw
      have := GammaDist.shape_anti h1 hb hx hxy
      have hp : 0 < b ^ a := by positivity
      rw [mul_assoc, mul_assoc]
      gcongr

example := C63_mode 2 1 ⟨2, 1⟩ (by simp [GammaDist.new])

/-- Three methods of the trait always panic for this distribution. -/
theorem C63_unimplemented (d : GammaDist) (p : ℝ) :
    d.invCdf p = none ∧ d.median = none ∧ d.entropy = none := ⟨rfl, rfl, rfl⟩

/-- Defect: `sample` cuts every draw down to its integer part, so that a sample of this continuous
law consists of whole numbers and its expectation is too small: the mean of what a draw becomes is
strictly below `mean()`. -/
theorem C63_sample_truncated (a b : ℝ) (d : GammaDist) (h : GammaDist.new a b = some d) :
    (∀ draws x, x ∈ d.sample draws → ∃ n : ℕ, x = n) ∧
    (∀ x, d.sample [x] = [asUsize x]) ∧
    ∫ x, asUsize x ∂gammaMeasure a b < d.mean := by
  obtain ⟨ha, hb, rfl⟩ := GammaDist.new_some h
  have hp := gamma_prob ha hb
  refine ⟨?_, fun x => rfl, ?_⟩
  · intro draws x hx
    unfold GammaDist.sample at hx
    obtain ⟨y, _, rfl⟩ := List.mem_map.1 hx
    exact ⟨_, rfl⟩
  · obtain ⟨i1, _⟩ := gamma_raw ha hb 1
    simp only [pow_one] at i1
    have hm : Measurable asUsize := by
      unfold asUsize
      exact (measurable_from_top (f := fun n : ℕ => (n : ℝ))).comp Nat.measurable_floor
    have i2 : Integrable asUsize (gammaMeasure a b) := by
      refine Integrable.mono' i1 hm.aestronglyMeasurable ?_
      filter_upwards [gamma_ae_pos (a := a) (r := b)] with x hx
      unfold asUsize
      rw [Real.norm_of_nonneg (by positivity)]
      exact Nat.floor_le hx.le
    have hmean : (⟨a, b⟩ : GammaDist).mean = ∫ x, x ∂gammaMeasure a b :=
      (C63_moments a b _ h).2.2.2.1
    rw [hmean, ← sub_pos, ← integral_sub i1 i2]
    have hnn : 0 ≤ᵐ[gammaMeasure a b] fun x => x - asUsize x := by
      filter_upwards [gamma_ae_pos (a := a) (r := b)] with x hx
      have := Nat.floor_le hx.le
      simp only [Pi.zero_apply, asUsize]; linarith
    rw [integral_pos_iff_support_of_nonneg_ae hnn (i1.sub i2)]
    have hsub : Set.Ioo (0:ℝ) 1 ⊆ Function.support fun x => x - asUsize x := by
      intro x hx
      have : ⌊x⌋₊ = 0 := Nat.floor_eq_zero.2 hx.2
      simp [asUsize, this, hx.1.ne']
    refine lt_of_lt_of_le ?_ (measure_mono hsub)
    rw [gammaMeasure, withDensity_apply _ measurableSet_Ioo]
    rw [lintegral_pos_iff_support (by
      unfold gammaPDF; exact (measurable_gammaPDFReal a b).ennreal_ofReal)]
    refine lt_of_lt_of_le ?_ (measure_mono (s := Set.Ioo 0 1) fun x hx => ?_)
    · simp
    · have hx0 : 0 < x := hx.1
      have := Gamma_pos_of_pos ha
      simp only [Function.mem_support, gammaPDF, gammaPDFReal, if_pos hx0.le, ne_eq,
        ENNReal.ofReal_eq_zero, not_le]
      positivity

/-- A concrete instance: shape 2, rate 1. -/
example : ∃ d, GammaDist.new 2 1 = some d ∧ d.mean = 2 ∧ d.mode = 1 ∧ d.cdf 0 = none ∧
    d.sample [0.5, 1.5] = [0, 1] := by
  refine ⟨⟨2, 1⟩, by simp [GammaDist.new], by simp [GammaDist.mean], ?_, ?_, ?_⟩
  · norm_num [GammaDist.mode]
  · simp [GammaDist.cdf]
  · have h1 : ⌊(0.5 : ℝ)⌋₊ = 0 := by rw [Nat.floor_eq_zero]; norm_num
    have h2 : ⌊(1.5 : ℝ)⌋₊ = 1 := by rw [Nat.floor_eq_iff (by norm_num)]; norm_num
    simp [GammaDist.sample, asUsize, h1, h2]

end Verif.Distributions
