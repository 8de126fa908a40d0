import Verif.Distributions.Trials
import Verif.Distributions.PoissonLemmas
import Mathlib.MeasureTheory.Integral.Pi
import Mathlib.Analysis.SpecialFunctions.Integrals.Basic

/-! The Bernoulli law, the law of a sum of independent Bernoulli variables, and its masses. -/

namespace Verif.Distributions

open MeasureTheory ProbabilityTheory Real

/-- One trial: mass `p` at one and `1 - p` at zero. -/
noncomputable def Spec.bernoulliLaw (p : ℝ) : Measure ℝ :=
  ENNReal.ofReal p • Measure.dirac 1 + ENNReal.ofReal (1 - p) • Measure.dirac 0

/-- The number of successes among `n` independent trials. -/
noncomputable def Spec.binomialLaw (n : ℕ) (p : ℝ) : Measure ℝ :=
  (Measure.pi fun _ : Fin n => Spec.bernoulliLaw p).map fun z => ∑ i, z i

section bernoulli

variable {p : ℝ} (h0 : 0 ≤ p) (h1 : p ≤ 1)
include h0 h1

theorem bern_prob : IsProbabilityMeasure (Spec.bernoulliLaw p) := by
  refine ⟨?_⟩
  unfold Spec.bernoulliLaw
  simp only [Measure.add_apply, Measure.smul_apply, measure_univ, smul_eq_mul, mul_one]
  rw [← ENNReal.ofReal_add h0 (by linarith)]
  simp

theorem bern_integrable {E : Type*} [NormedAddCommGroup E] (f : ℝ → E) :
    Integrable f (Spec.bernoulliLaw p) := by
  unfold Spec.bernoulliLaw
  exact ((integrable_dirac (by simp)).smul_measure (by simp)).add_measure
    ((integrable_dirac (by simp)).smul_measure (by simp))

theorem bern_integral {E : Type*} [NormedAddCommGroup E] [NormedSpace ℝ E] [CompleteSpace E]
    (f : ℝ → E) : ∫ x, f x ∂Spec.bernoulliLaw p = p • f 1 + (1 - p) • f 0 := by
  unfold Spec.bernoulliLaw
  rw [integral_add_measure ((integrable_dirac (by simp)).smul_measure (by simp))
    ((integrable_dirac (by simp)).smul_measure (by simp)), integral_smul_measure,
    integral_smul_measure, integral_dirac, integral_dirac, ENNReal.toReal_ofReal h0,
    ENNReal.toReal_ofReal (by linarith)]

theorem bern_real {s : Set ℝ} (hs : MeasurableSet s) : (Spec.bernoulliLaw p).real s =
    p * s.indicator 1 (1:ℝ) + (1 - p) * s.indicator 1 (0:ℝ) := by
  have := bern_integral h0 h1 (s.indicator (1 : ℝ → ℝ))
  rw [integral_indicator_one hs] at this
  exact this

end bernoulli

/-- The binomial mass at `k`. -/
noncomputable def bmass (n : ℕ) (p : ℝ) (k : ℕ) : ℝ := n.choose k * p ^ k * (1 - p) ^ (n - k)

/-- The law with these masses. -/
noncomputable def binLaw (n : ℕ) (p : ℝ) : Measure ℝ :=
  ∑ k ∈ Finset.range (n + 1), ENNReal.ofReal (bmass n p k) • Measure.dirac (k:ℝ)

section binomial

variable {p : ℝ} (h0 : 0 ≤ p) (h1 : p ≤ 1)
include h0 h1

theorem bmass_nonneg (n k : ℕ) : 0 ≤ bmass n p k := by
  have : 0 ≤ 1 - p := by linarith
  unfold bmass; positivity

omit h0 h1 in
theorem bmass_sum (n : ℕ) : ∑ k ∈ Finset.range (n + 1), bmass n p k = 1 := by
  have := add_pow p (1 - p) n
  rw [add_sub_cancel, one_pow] at this
  rw [this]
  refine Finset.sum_congr rfl fun k _ => ?_
  unfold bmass; ring

omit h0 h1 in
theorem bin_integrable {n : ℕ} {E : Type*} [NormedAddCommGroup E] (f : ℝ → E) :
    Integrable f (binLaw n p) := by
  unfold binLaw
  exact integrable_finsetSum_measure.2 fun k _ =>
    (integrable_dirac (by simp)).smul_measure (by simp)

theorem bin_integral {n : ℕ} {E : Type*} [NormedAddCommGroup E] [NormedSpace ℝ E] [CompleteSpace E]
    (f : ℝ → E) :
    ∫ x, f x ∂binLaw n p = ∑ k ∈ Finset.range (n + 1), bmass n p k • f k := by
  unfold binLaw
  rw [integral_finsetSum_measure fun k _ => (integrable_dirac (by simp)).smul_measure (by simp)]
  refine Finset.sum_congr rfl fun k _ => ?_
  rw [integral_smul_measure, integral_dirac, ENNReal.toReal_ofReal (bmass_nonneg h0 h1 n k)]

theorem bin_prob (n : ℕ) : IsProbabilityMeasure (binLaw n p) := by
  refine ⟨?_⟩
  unfold binLaw
  rw [Measure.finsetSum_apply]
  simp only [Measure.smul_apply, measure_univ, smul_eq_mul, mul_one]
  rw [← ENNReal.ofReal_sum_of_nonneg fun k _ => bmass_nonneg h0 h1 n k, bmass_sum]
  simp

theorem bin_cf (n : ℕ) (t : ℝ) :
    Spec.cf (binLaw n p) t = (1 - p + p * Complex.exp (Complex.I * t)) ^ n := by
  unfold Spec.cf
  rw [bin_integral h0 h1, show (1 - p + p * Complex.exp (Complex.I * t) : ℂ) =
    p * Complex.exp (Complex.I * t) + (1 - p) by ring, add_pow]
  refine Finset.sum_congr rfl fun k _ => ?_
  rw [Complex.real_smul, mul_pow, ← Complex.exp_nat_mul]
  unfold bmass
  push_cast
  rw [show Complex.I * t * (k:ℂ) = k * (Complex.I * t) by ring]
  ring

theorem bin_mgf (n : ℕ) (t : ℝ) : Spec.mgf (binLaw n p) t = (1 - p + p * exp t) ^ n := by
  unfold Spec.mgf
  rw [bin_integral h0 h1, show 1 - p + p * exp t = p * exp t + (1 - p) by ring, add_pow]
  refine Finset.sum_congr rfl fun k _ => ?_
  rw [smul_eq_mul, mul_pow, ← exp_nat_mul, show t * (k:ℝ) = k * t by ring]
  unfold bmass
  ring

/-- The sum of independent trials has the binomial masses. -/
theorem binomialLaw_eq (n : ℕ) : Spec.binomialLaw n p = binLaw n p := by
  have hb := bern_prob h0 h1
  have hbin := bin_prob h0 h1 n
  have hmeas : Measurable fun z : Fin n → ℝ => ∑ i, z i := by fun_prop
  have : IsProbabilityMeasure (Spec.binomialLaw n p) :=
    Measure.isProbabilityMeasure_map hmeas.aemeasurable
  refine Measure.ext_of_charFun ?_
  funext t
  rw [← cf_eq_charFun, ← cf_eq_charFun, bin_cf h0 h1]
  unfold Spec.cf Spec.binomialLaw
  rw [integral_map hmeas.aemeasurable (by fun_prop)]
  have hprod : ∀ z : Fin n → ℝ, Complex.exp (Complex.I * t * ((∑ i, z i : ℝ) : ℂ)) =
      ∏ i, Complex.exp (Complex.I * t * (z i : ℂ)) := by
    intro z
    rw [← Complex.exp_sum]
    push_cast
    rw [Finset.mul_sum]
  simp only [hprod]
  rw [integral_fintype_prod_eq_prod (fun (_ : Fin n) (x : ℝ) => Complex.exp (Complex.I * t * (x : ℂ)))]
  simp only [bern_integral h0 h1]
  rw [Finset.prod_const, Finset.card_univ, Fintype.card_fin]
  congr 1
  simp only [Complex.real_smul, Complex.ofReal_one, mul_one, Complex.ofReal_zero, mul_zero,
    Complex.exp_zero, Complex.ofReal_sub]
  ring

omit h0 h1 in
/-- Factorial moments. -/
theorem bmass_desc (n m : ℕ) : ∑ k ∈ Finset.range (n + 1), bmass n p k * (k.descFactorial m : ℕ) =
    (n.descFactorial m : ℕ) * p ^ m := by
  rcases lt_or_ge n m with hnm | hnm
  · rw [Nat.descFactorial_of_lt hnm]
    simp only [Nat.cast_zero, zero_mul]
    refine Finset.sum_eq_zero fun k hk => ?_
    rw [Finset.mem_range] at hk
    rw [Nat.descFactorial_of_lt (by omega)]; simp
  · obtain ⟨N, rfl⟩ : ∃ N, n = m + N := ⟨n - m, by omega⟩
    rw [show m + N + 1 = m + (N + 1) by ring, Finset.sum_range_add]
    have hz : ∑ k ∈ Finset.range m, bmass (m + N) p k * ((k.descFactorial m : ℕ) : ℝ) = 0 := by
      refine Finset.sum_eq_zero fun k hk => ?_
      rw [Finset.mem_range] at hk
      rw [Nat.descFactorial_of_lt hk]; simp
    rw [hz, zero_add]
    have hs := bmass_sum (p := p) N
    have : ((m + N).descFactorial m : ℝ) * p ^ m =
        ∑ j ∈ Finset.range (N + 1), ((m + N).descFactorial m : ℝ) * p ^ m * bmass N p j := by
      rw [← Finset.mul_sum, hs, mul_one]
    rw [this]
    refine Finset.sum_congr rfl fun j hj => ?_
    rw [Finset.mem_range] at hj
    have hnat : (m + N).choose (m + j) * (m + j).descFactorial m =
        (m + N).descFactorial m * N.choose j := by
      have hf1 := Nat.choose_mul_factorial_mul_factorial (n := m + N) (k := m + j) (by omega)
      have hf2 := Nat.choose_mul_factorial_mul_factorial (n := N) (k := j) (by omega)
      have hd1 := Nat.factorial_mul_descFactorial (n := m + j) (k := m) (by omega)
      have hd2 := Nat.factorial_mul_descFactorial (n := m + N) (k := m) (by omega)
      rw [show m + j - m = j by omega] at hd1
      rw [show m + N - m = N by omega] at hd2
      rw [show m + N - (m + j) = N - j by omega] at hf1
      have hpos : 0 < j.factorial * (N - j).factorial := by positivity
      refine Nat.eq_of_mul_eq_mul_right hpos ?_
      calc (m + N).choose (m + j) * (m + j).descFactorial m * (j.factorial * (N - j).factorial)
          = (m + N).choose (m + j) * (j.factorial * (m + j).descFactorial m) * (N - j).factorial := by
            ring
        _ = (m + N).factorial := by rw [hd1, hf1]
        _ = N.factorial * (m + N).descFactorial m := hd2.symm
        _ = (N.choose j * j.factorial * (N - j).factorial) * (m + N).descFactorial m := by rw [hf2]
        _ = (m + N).descFactorial m * N.choose j * (j.factorial * (N - j).factorial) := by ring
    have hR : ((m + N).choose (m + j) : ℝ) * ((m + j).descFactorial m : ℕ) =
        ((m + N).descFactorial m : ℕ) * (N.choose j : ℕ) := by exact_mod_cast hnat
    unfold bmass
    rw [show m + N - (m + j) = N - j by omega, pow_add]
    calc ((m + N).choose (m + j) : ℝ) * (p ^ m * p ^ j) * (1 - p) ^ (N - j) *
          ((m + j).descFactorial m : ℕ)
        = (((m + N).choose (m + j) : ℝ) * ((m + j).descFactorial m : ℕ)) *
          (p ^ m * p ^ j * (1 - p) ^ (N - j)) := by ring
      _ = _ := by rw [hR]; ring

theorem bin_moments (n : ℕ) :
    Spec.mean (binLaw n p) = n * p ∧ Spec.variance (binLaw n p) = n * p * (1 - p) ∧
    Spec.skewness (binLaw n p) = n * p * (1 - p) * (1 - 2 * p) / √(n * p * (1 - p)) ^ 3 ∧
    Spec.excessKurtosis (binLaw n p) = (n * p * (1 - p) * (1 - 6 * p * (1 - p)) +
      3 * (n * p * (1 - p)) ^ 2) / (n * p * (1 - p)) ^ 2 - 3 := by
  have := bin_prob h0 h1 n
  have c1 : ∀ n : ℕ, ((n.descFactorial 1 : ℕ) : ℝ) = n := fun n => by simp
  have c2 : ∀ n : ℕ, ((n.descFactorial 2 : ℕ) : ℝ) = (n - 1) * n := fun n => by
    rw [cast_desc, c1]; simp
  have c3 : ∀ n : ℕ, ((n.descFactorial 3 : ℕ) : ℝ) = (n - 2) * ((n - 1) * n) := fun n => by
    rw [cast_desc, c2]; simp
  have c4 : ∀ n : ℕ, ((n.descFactorial 4 : ℕ) : ℝ) = (n - 3) * ((n - 2) * ((n - 1) * n)) :=
    fun n => by rw [cast_desc, c3]; simp
  have d1 := bmass_desc (p := p) n 1
  have d2 := bmass_desc (p := p) n 2
  have d3 := bmass_desc (p := p) n 3
  have d4 := bmass_desc (p := p) n 4
  simp only [c1] at d1
  simp only [c2] at d2
  simp only [c3] at d3
  simp only [c4] at d4
  have v1 : ∫ x, x ∂binLaw n p = n * p := by
    rw [bin_integral h0 h1]; simp only [smul_eq_mul]; rw [d1]; ring
  have v2 : ∫ x, x ^ 2 ∂binLaw n p = (n - 1) * n * p ^ 2 + n * p := by
    rw [bin_integral h0 h1, ← d2, ← pow_one p, ← d1, ← Finset.sum_add_distrib]
    refine Finset.sum_congr rfl fun k _ => ?_
    simp only [smul_eq_mul, pow_one]; ring
  have v3 : ∫ x, x ^ 3 ∂binLaw n p =
      (n - 2) * ((n - 1) * n) * p ^ 3 + 3 * ((n - 1) * n * p ^ 2) + n * p := by
    rw [bin_integral h0 h1, ← d3, ← d2, ← pow_one p, ← d1, Finset.mul_sum, ← Finset.sum_add_distrib,
      ← Finset.sum_add_distrib]
    refine Finset.sum_congr rfl fun k _ => ?_
    simp only [smul_eq_mul, pow_one]; ring
  have v4 : ∫ x, x ^ 4 ∂binLaw n p =
      (n - 3) * ((n - 2) * ((n - 1) * n)) * p ^ 4 + 6 * ((n - 2) * ((n - 1) * n) * p ^ 3) +
        7 * ((n - 1) * n * p ^ 2) + n * p := by
    rw [bin_integral h0 h1, ← d4, ← d3, ← d2, ← pow_one p, ← d1, Finset.mul_sum, Finset.mul_sum,
      ← Finset.sum_add_distrib, ← Finset.sum_add_distrib, ← Finset.sum_add_distrib]
    refine Finset.sum_congr rfl fun k _ => ?_
    simp only [smul_eq_mul, pow_one]; ring
  exact Spec.moments_of_raw (binLaw n p)
    (v := n * p * (1 - p)) (c3 := n * p * (1 - p) * (1 - 2 * p))
    (c4 := n * p * (1 - p) * (1 - 6 * p * (1 - p)) + 3 * (n * p * (1 - p)) ^ 2)
    (bin_integrable _) (bin_integrable _) (bin_integrable _) (bin_integrable _)
    v1 v2 v3 v4 (by ring) (by ring) (by ring)

theorem bin_real {n : ℕ} {s : Set ℝ} (hs : MeasurableSet s) : (binLaw n p).real s =
    ∑ k ∈ Finset.range (n + 1), bmass n p k * s.indicator 1 (k:ℝ) := by
  have := bin_integral h0 h1 (n := n) (s.indicator (1 : ℝ → ℝ))
  rw [integral_indicator_one hs] at this
  exact this

theorem bin_mass (n k : ℕ) : (binLaw n p).real {(k:ℝ)} = bmass n p k := by
  rw [bin_real h0 h1 (measurableSet_singleton _)]
  rcases le_or_gt k n with hk | hk
  · rw [Finset.sum_eq_single k]
    · simp
    · intro j _ hj
      rw [Set.indicator_of_notMem, mul_zero]
      simpa using hj
    · intro hn; exact absurd (Finset.mem_range.2 (by omega)) hn
  · rw [Finset.sum_eq_zero]
    · unfold bmass; rw [Nat.choose_eq_zero_of_lt hk]; simp
    · intro j hj
      rw [Finset.mem_range] at hj
      rw [Set.indicator_of_notMem, mul_zero]
      simp only [Set.mem_singleton_iff, Nat.cast_inj]; omega

theorem bin_mass_off (n : ℕ) (x : ℝ) (hx : ∀ k : ℕ, x ≠ k) : (binLaw n p).real {x} = 0 := by
  rw [bin_real h0 h1 (measurableSet_singleton _), Finset.sum_eq_zero]
  intro j _
  rw [Set.indicator_of_notMem, mul_zero]
  exact fun h => hx j h.symm

theorem bin_cdf (n : ℕ) {x : ℝ} (hx : 0 ≤ x) (hn : ⌊x⌋₊ ≤ n) : Spec.cdf (binLaw n p) x =
    ∑ k ∈ Finset.range (⌊x⌋₊ + 1), bmass n p k := by
  unfold Spec.cdf
  rw [bin_real h0 h1 measurableSet_Iic]
  have hsub : Finset.range (⌊x⌋₊ + 1) ⊆ Finset.range (n + 1) := Finset.range_mono (by omega)
  rw [← Finset.sum_subset hsub]
  · refine Finset.sum_congr rfl fun k hk => ?_
    rw [Finset.mem_range] at hk
    rw [Set.indicator_of_mem]
    · simp
    · rw [Set.mem_Iic]; exact (Nat.le_floor_iff hx).1 (by omega)
  · intro k _ hk
    rw [Finset.mem_range] at hk
    rw [Set.indicator_of_notMem, mul_zero]
    rw [Set.mem_Iic, ← Nat.le_floor_iff hx]; omega

theorem bin_cdf_neg (n : ℕ) {x : ℝ} (hx : x < 0) : Spec.cdf (binLaw n p) x = 0 := by
  unfold Spec.cdf
  rw [bin_real h0 h1 measurableSet_Iic, Finset.sum_eq_zero]
  intro k _
  rw [Set.indicator_of_notMem, mul_zero]
  rw [Set.mem_Iic, not_le]
  exact lt_of_lt_of_le hx (Nat.cast_nonneg k)

end binomial

/-- The regularised incomplete beta function at integers is a sum of binomial masses. -/
theorem betaReg_nat {n k : ℕ} (hk : k < n) {p : ℝ} (h0 : 0 ≤ p) (h1 : p ≤ 1) :
    betaReg ((n - k : ℕ) : ℝ) (1 + k) (1 - p) =
      some (∑ j ∈ Finset.range (k + 1), bmass n p j) := by
  -- the antiderivative
  have hder : ∀ (i : ℕ), i < n → ∀ x : ℝ,
      HasDerivAt (fun x => ∑ j ∈ Finset.range (i + 1), bmass n (1 - x) j)
        (((n - i : ℕ) : ℝ) * n.choose i * (x ^ (n - i - 1) * (1 - x) ^ i)) x := by
    intro i
    have hone : ∀ (j : ℕ) (x : ℝ), HasDerivAt (fun x => bmass n (1 - x) j)
        (n.choose j * (((n - j : ℕ) : ℝ) * x ^ (n - j - 1) * (1 - x) ^ j -
          j * (1 - x) ^ (j - 1) * x ^ (n - j))) x := by
      intro j x
      unfold bmass
      simp only [sub_sub_cancel]
      have ha : HasDerivAt (fun x : ℝ => (1 - x) ^ j) (j * (1 - x) ^ (j - 1) * (-1)) x :=
        ((hasDerivAt_id x).const_sub 1).pow j
      refine ((ha.const_mul (n.choose j : ℝ)).fun_mul (hasDerivAt_pow (n - j) x)).congr_deriv ?_
      ring
    induction i with
    | zero =>
      intro _ x
      simp only [zero_add, Finset.sum_range_one]
      refine (hone 0 x).congr_deriv ?_
      simp
    | succ i ih =>
      intro hi x
      simp only [Finset.sum_range_succ (fun j => bmass n _ j) (i + 1)]
      refine ((ih (by omega) x).fun_add (hone (i + 1) x)).congr_deriv ?_
      have hc : ((n.choose (i + 1) : ℕ) : ℝ) * ((i + 1 : ℕ) : ℝ) =
          (n.choose i : ℕ) * ((n - i : ℕ) : ℝ) := by
        exact_mod_cast Nat.choose_succ_right_eq n i
      rw [Nat.add_sub_cancel, show n - i - 1 = n - (i + 1) by omega]
      linear_combination (-(1 - x) ^ i * x ^ (n - (i + 1))) * hc
  have hint : ∀ x : ℝ, ∫ t in (0:ℝ)..x, ((n - k : ℕ) : ℝ) * n.choose k *
      (t ^ (n - k - 1) * (1 - t) ^ k) = ∑ j ∈ Finset.range (k + 1), bmass n (1 - x) j := by
    intro x
    rw [intervalIntegral.integral_eq_sub_of_hasDerivAt (fun t _ => hder k hk t)
      (Continuous.intervalIntegrable (by fun_prop) _ _)]
    have hz : ∑ j ∈ Finset.range (k + 1), bmass n (1 - 0) j = 0 := by
      refine Finset.sum_eq_zero fun j hj => ?_
      rw [Finset.mem_range] at hj
      unfold bmass
      rw [sub_zero, sub_self, zero_pow (by omega), mul_zero]
    rw [hz, sub_zero]
  have hone : ∑ j ∈ Finset.range (k + 1), bmass n (1 - 1) j = 1 := by
    rw [Finset.sum_eq_single 0]
    · simp [bmass]
    · intro j _ hj
      unfold bmass
      rw [sub_self, zero_pow hj]; simp
    · intro h; exact absurd (Finset.mem_range.2 (by omega)) h
  have hexp : ∀ t : ℝ, t ^ (((n - k : ℕ) : ℝ) - 1) * (1 - t) ^ ((1 + (k:ℝ)) - 1) =
      t ^ (n - k - 1) * (1 - t) ^ k := by
    intro t
    rw [show ((n - k : ℕ) : ℝ) - 1 = ((n - k - 1 : ℕ) : ℝ) by
      rw [Nat.cast_sub (show 1 ≤ n - k by omega)]; simp, add_sub_cancel_left, rpow_natCast,
      rpow_natCast]
  have hC : (((n - k : ℕ) : ℝ) * n.choose k) ≠ 0 := by
    have e1 : 0 < n - k := by omega
    have e2 : 0 < n.choose k := Nat.choose_pos hk.le
    positivity
  unfold betaReg
  have hnk : (0:ℝ) < ((n - k : ℕ) : ℝ) := by
    have e1 : 0 < n - k := by omega
    exact_mod_cast e1
  rw [if_pos ⟨hnk, by positivity, by linarith, by linarith⟩]
  simp only [hexp]
  have i1 := hint (1 - p)
  have i2 := hint 1
  rw [intervalIntegral.integral_const_mul] at i1 i2
  rw [hone] at i2
  rw [sub_sub_cancel] at i1
  congr 1
  rw [← mul_div_mul_left _ _ hC, i1, i2, div_one]

end Verif.Distributions
