import Verif.Distributions.Poisson
import Verif.Distributions.GammaFamilyLemmas
import Mathlib.Probability.Distributions.Poisson.Basic

/-! Moments and distribution function of the Poisson law. -/

namespace Verif.Distributions

open MeasureTheory ProbabilityTheory Real

/-- The Poisson law on the real line. -/
noncomputable def Spec.poissonLaw (l : ℝ) : Measure ℝ :=
  (poissonMeasure l.toNNReal).map (Nat.cast : ℕ → ℝ)

instance (l : ℝ) : IsProbabilityMeasure (Spec.poissonLaw l) :=
  Measure.isProbabilityMeasure_map .of_discrete

/-- The mass at `n`. -/
noncomputable def pmass (l : ℝ) (n : ℕ) : ℝ := exp (-l) * l ^ n / n.factorial

theorem pmass_pos {l : ℝ} (hl : 0 < l) (n : ℕ) : 0 < pmass l n := by unfold pmass; positivity

theorem hasSum_pmass {l : ℝ} : HasSum (pmass l) 1 := by
  unfold pmass
  convert! (NormedSpace.expSeries_div_hasSum_exp l).mul_left (exp (-l)) using 1
  · simp_rw [mul_div_assoc]
  · simp [← exp_eq_exp_ℝ, ← exp_add]

theorem cast_desc (n k : ℕ) :
    ((n.descFactorial (k + 1) : ℕ) : ℝ) = ((n:ℝ) - k) * (n.descFactorial k : ℕ) := by
  rw [Nat.descFactorial_succ]
  rcases le_or_gt k n with h | h
  · push_cast [Nat.cast_sub h]; ring
  · rw [Nat.descFactorial_of_lt h]; simp

theorem hasSum_desc (l : ℝ) (k : ℕ) :
    HasSum (fun n => pmass l n * (n.descFactorial k : ℕ)) (l ^ k) := by
  rw [← hasSum_nat_add_iff' k]
  have h0 : ∑ i ∈ Finset.range k, pmass l i * ((i.descFactorial k : ℕ) : ℝ) = 0 := by
    refine Finset.sum_eq_zero fun i hi => ?_
    rw [Nat.descFactorial_of_lt (Finset.mem_range.1 hi)]; simp
  rw [h0, sub_zero]
  have := (hasSum_pmass (l := l)).mul_left (l ^ k)
  rw [mul_one] at this
  refine this.congr_fun fun n => ?_
  unfold pmass
  have hd := Nat.factorial_mul_descFactorial (n := n + k) (k := k) (by omega)
  rw [Nat.add_sub_cancel] at hd
  have hd' : ((n + k).factorial : ℝ) = (n.factorial : ℝ) * ((n + k).descFactorial k : ℕ) := by
    exact_mod_cast hd.symm
  have hp : (0:ℝ) < ((n + k).descFactorial k : ℕ) := by
    exact_mod_cast Nat.descFactorial_pos.2 (by omega)
  rw [hd', pow_add]
  field_simp

theorem poisson_integrable {l : ℝ} (hl : 0 ≤ l) {E : Type*} [NormedAddCommGroup E] (f : ℝ → E) :
    Integrable f (Spec.poissonLaw l) ↔ Summable fun n : ℕ => pmass l n * ‖f n‖ := by
  unfold Spec.poissonLaw
  have hm : MeasurableEmbedding (Nat.cast : ℕ → ℝ) := MeasurableEmbedding.natCast
  rw [hm.integrable_map_iff, integrable_poissonMeasure_iff, Real.coe_toNNReal l hl]
  rfl

theorem poisson_integral {l : ℝ} (hl : 0 ≤ l) {E : Type*} [NormedAddCommGroup E]
    [NormedSpace ℝ E] [FiniteDimensional ℝ E] (f : ℝ → E) :
    ∫ x, f x ∂Spec.poissonLaw l = ∑' n : ℕ, pmass l n • f n := by
  unfold Spec.poissonLaw
  have hm : MeasurableEmbedding (Nat.cast : ℕ → ℝ) := MeasurableEmbedding.natCast
  rw [hm.integral_map, integral_poissonMeasure, Real.coe_toNNReal l hl]
  rfl

/-- Nonnegative test functions: integrability and value from a sum. -/
theorem poisson_of_hasSum {l : ℝ} (hl : 0 ≤ l) {f : ℝ → ℝ} {v : ℝ} (hf : ∀ n : ℕ, 0 ≤ f n)
    (h : HasSum (fun n : ℕ => pmass l n * f n) v) :
    Integrable f (Spec.poissonLaw l) ∧ ∫ x, f x ∂Spec.poissonLaw l = v := by
  refine ⟨?_, ?_⟩
  · rw [poisson_integrable hl]
    refine h.summable.congr fun n => ?_
    rw [Real.norm_of_nonneg (hf n)]
  · rw [poisson_integral hl]; exact h.tsum_eq

theorem poisson_moments {l : ℝ} (hl : 0 < l) :
    Spec.mean (Spec.poissonLaw l) = l ∧ Spec.variance (Spec.poissonLaw l) = l ∧
    Spec.skewness (Spec.poissonLaw l) = (√l)⁻¹ ∧
    Spec.excessKurtosis (Spec.poissonLaw l) = l⁻¹ := by
  have d1 := hasSum_desc l 1
  have d2 := hasSum_desc l 2
  have d3 := hasSum_desc l 3
  have d4 := hasSum_desc l 4
  have c1 : ∀ n : ℕ, ((n.descFactorial 1 : ℕ) : ℝ) = n := fun n => by simp
  have c2 : ∀ n : ℕ, ((n.descFactorial 2 : ℕ) : ℝ) = (n - 1) * n := fun n => by
    rw [cast_desc, c1]; simp
  have c3 : ∀ n : ℕ, ((n.descFactorial 3 : ℕ) : ℝ) = (n - 2) * ((n - 1) * n) := fun n => by
    rw [cast_desc, c2]; simp
  have c4 : ∀ n : ℕ, ((n.descFactorial 4 : ℕ) : ℝ) = (n - 3) * ((n - 2) * ((n - 1) * n)) :=
    fun n => by rw [cast_desc, c3]; simp
  simp only [c1] at d1
  simp only [c2] at d2
  simp only [c3] at d3
  simp only [c4] at d4
  obtain ⟨i1, v1⟩ := poisson_of_hasSum hl.le (f := fun x => x) (fun n => by positivity) (by
    exact d1)
  obtain ⟨i2, v2⟩ := poisson_of_hasSum hl.le (f := fun x => x ^ 2) (fun n => by positivity) (by
    refine (d2.add d1).congr_fun fun n => ?_
    ring)
  obtain ⟨i3, v3⟩ := poisson_of_hasSum hl.le (f := fun x => x ^ 3) (fun n => by positivity) (by
    refine ((d3.add (d2.mul_left 3)).add d1).congr_fun fun n => ?_
    ring)
  obtain ⟨i4, v4⟩ := poisson_of_hasSum hl.le (f := fun x => x ^ 4) (fun n => by positivity) (by
    refine (((d4.add (d3.mul_left 6)).add (d2.mul_left 7)).add d1).congr_fun fun n => ?_
    ring)
  obtain ⟨e1, e2, e3, e4⟩ := Spec.moments_of_raw (Spec.poissonLaw l) (v := l) (c3 := l)
    (c4 := l + 3 * l ^ 2) i1 i2 i3 i4 v1 v2 v3 v4 (by ring) (by ring) (by ring)
  refine ⟨by rw [e1]; ring, e2, e3.trans ?_, e4.trans ?_⟩
  · have : √l ^ 3 = l * √l := by rw [pow_succ, sq_sqrt hl.le]
    rw [this]
    have : 0 < √l := by positivity
    field_simp
  · field_simp; ring

theorem poisson_mgf {l : ℝ} (hl : 0 ≤ l) (t : ℝ) :
    Spec.mgf (Spec.poissonLaw l) t = exp (l * (exp t - 1)) := by
  unfold Spec.mgf
  refine (poisson_of_hasSum hl (f := fun x => exp (t * x)) (fun n => (exp_pos _).le) ?_).2
  have := (hasSum_pmass (l := l * exp t)).mul_left (exp (l * (exp t - 1)))
  rw [mul_one] at this
  refine this.congr_fun fun n => ?_
  unfold pmass
  rw [mul_pow, ← exp_nat_mul, show t * (n:ℝ) = n * t by ring]
  have : exp (l * (exp t - 1)) = exp (l * exp t) * exp (-l) := by rw [← exp_add]; ring_nf
  rw [this, exp_neg (l * exp t)]
  field_simp

/-- The distribution function at an integer. -/
theorem poisson_cdf {l : ℝ} (hl : 0 < l) (n : ℕ) :
    Spec.cdf (Spec.poissonLaw l) n = ∑ j ∈ Finset.range (n + 1), pmass l j := by
  unfold Spec.cdf
  have h := (poisson_of_hasSum (l := l) hl.le (f := (Set.Iic (n:ℝ)).indicator 1)
    (v := ∑ j ∈ Finset.range (n + 1), pmass l j)
    (fun m => Set.indicator_nonneg (fun _ _ => zero_le_one) _) ?_).2
  · rw [integral_indicator_one measurableSet_Iic] at h
    exact h
  · have : ∀ j ∉ Finset.range (n + 1), pmass l j * (Set.Iic (n:ℝ)).indicator 1 (j:ℝ) = 0 := by
      intro j hj
      rw [Set.indicator_of_notMem, mul_zero]
      simp only [Finset.mem_range] at hj
      simp only [Set.mem_Iic, Nat.cast_le]; omega
    have hs : HasSum _ _ := hasSum_sum_of_ne_finset_zero (L := .unconditional ℕ) this
    convert hs using 1
    refine Finset.sum_congr rfl fun j hj => ?_
    rw [Set.indicator_of_mem]
    · simp
    · simp only [Finset.mem_range] at hj
      simp only [Set.mem_Iic, Nat.cast_le]; omega

theorem poisson_cdf_floor {l : ℝ} {x : ℝ} (hx : 0 ≤ x) :
    Spec.cdf (Spec.poissonLaw l) x = Spec.cdf (Spec.poissonLaw l) ⌊x⌋₊ := by
  unfold Spec.cdf Spec.poissonLaw
  have hm : MeasurableEmbedding (Nat.cast : ℕ → ℝ) := MeasurableEmbedding.natCast
  rw [map_measureReal_apply hm.measurable measurableSet_Iic,
    map_measureReal_apply hm.measurable measurableSet_Iic]
  congr 1
  ext n
  simp only [Set.mem_preimage, Set.mem_Iic, Nat.cast_le]
  exact (Nat.le_floor_iff hx).symm

theorem poisson_cdf_neg {l : ℝ} {x : ℝ} (hx : x < 0) : Spec.cdf (Spec.poissonLaw l) x = 0 := by
  unfold Spec.cdf Spec.poissonLaw
  have hm : MeasurableEmbedding (Nat.cast : ℕ → ℝ) := MeasurableEmbedding.natCast
  rw [map_measureReal_apply hm.measurable measurableSet_Iic]
  have : (Nat.cast : ℕ → ℝ) ⁻¹' Set.Iic x = ∅ := by
    ext n
    simp only [Set.mem_preimage, Set.mem_Iic, Set.mem_empty_iff_false, iff_false, not_le]
    exact lt_of_lt_of_le hx (Nat.cast_nonneg n)
  rw [this]; simp

/-- The incomplete gamma functions at an integer. -/
theorem gammaLi_nat {l : ℝ} (n : ℕ) :
    gammaLi (n + 1) l = n.factorial * (1 - ∑ j ∈ Finset.range (n + 1), pmass l j) := by
  have hd : ∀ x, HasDerivAt (fun x => -(n.factorial : ℝ) *
      ∑ j ∈ Finset.range (n + 1), pmass x j) (x ^ ((n:ℝ) + 1 - 1) * exp (-x)) x := by
    intro x
    have key : ∀ m : ℕ, HasDerivAt (fun x => ∑ j ∈ Finset.range (m + 1), pmass x j)
        (-(pmass x m)) x := by
      intro m
      induction m with
      | zero =>
        simp only [zero_add, Finset.sum_range_one, pmass, pow_zero, mul_one, Nat.factorial_zero,
          Nat.cast_one, div_one]
        exact (hasDerivAt_neg x).exp.congr_deriv (by ring)
      | succ m ih =>
        simp only [Finset.sum_range_succ (fun j => pmass _ j) (m + 1)]
        have hp : HasDerivAt (fun x => pmass x (m + 1)) (pmass x m - pmass x (m + 1)) x := by
          unfold pmass
          refine (((hasDerivAt_neg x).exp.fun_mul (hasDerivAt_pow (m + 1) x)).div_const _).congr_deriv
            ?_
          rw [Nat.factorial_succ]
          push_cast
          field_simp
          ring
        refine (ih.fun_add hp).congr_deriv ?_
        ring
    refine ((key n).const_mul (-(n.factorial : ℝ))).congr_deriv ?_
    unfold pmass
    rw [add_sub_cancel_right, rpow_natCast]
    field_simp
  unfold gammaLi
  rw [intervalIntegral.integral_eq_sub_of_hasDerivAt (fun x _ => hd x)]
  · have h0 : ∑ j ∈ Finset.range (n + 1), pmass 0 j = 1 := by
      rw [Finset.sum_range_succ']
      simp [pmass]
    rw [h0]; ring
  · refine Continuous.intervalIntegrable ?_ _ _
    simp only [add_sub_cancel_right, rpow_natCast]
    fun_prop

theorem gammaUi_eq {a x : ℝ} (ha : 0 < a) (hx : 0 ≤ x) :
    gammaUi a x = Real.Gamma a - gammaLi a x := by
  have hconv : IntegrableOn (fun t => t ^ (a - 1) * exp (-t)) (Set.Ioi 0) :=
    (Real.GammaIntegral_convergent ha).congr_fun (fun t _ => mul_comm _ _) measurableSet_Ioi
  have hval : ∫ t in Set.Ioi (0:ℝ), t ^ (a - 1) * exp (-t) = Real.Gamma a := by
    rw [Real.Gamma_eq_integral ha]
    exact setIntegral_congr_fun measurableSet_Ioi fun t _ => mul_comm _ _
  have := intervalIntegral.integral_Ioi_sub_Ioi hconv hx
  unfold gammaUi gammaLi
  rw [← hval, ← this]
  ring

end Verif.Distributions
