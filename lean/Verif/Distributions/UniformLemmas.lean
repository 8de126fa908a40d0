import Verif.Distributions.Uniform
import Verif.Distributions.SpecLemmas
import Mathlib.MeasureTheory.Integral.IntervalIntegral.FundThmCalculus
import Mathlib.Analysis.SpecialFunctions.Integrals.Basic
import Mathlib.Algebra.Field.GeomSum

/-! The two uniform laws, and integrals against them. -/

namespace Verif.Distributions

open MeasureTheory Real

/-- The uniform law on the interval from `a` to `b`: length divided by the total length. -/
noncomputable def Spec.contLaw (a b : ℝ) : Measure ℝ :=
  (ENNReal.ofReal (b - a))⁻¹ • volume.restrict (Set.Icc a b)

/-- The uniform law on the integers from `lo` to `hi`: each has the same mass. -/
noncomputable def Spec.discLaw (lo hi : ℤ) : Measure ℝ :=
  (ENNReal.ofReal (hi - lo + 1))⁻¹ • ∑ k ∈ Finset.Icc lo hi, Measure.dirac (k : ℝ)

section cont

variable {a b : ℝ} (h : a < b)
include h

theorem cont_prob : IsProbabilityMeasure (Spec.contLaw a b) := by
  refine ⟨?_⟩
  unfold Spec.contLaw
  rw [Measure.smul_apply, Measure.restrict_apply_univ, Real.volume_Icc, smul_eq_mul,
    ENNReal.inv_mul_cancel]
  · simp [h]
  · exact ENNReal.ofReal_ne_top

theorem cont_integral {E : Type*} [NormedAddCommGroup E] [NormedSpace ℝ E] (f : ℝ → E) :
    ∫ x, f x ∂Spec.contLaw a b = (b - a)⁻¹ • ∫ x in a..b, f x := by
  unfold Spec.contLaw
  rw [integral_smul_measure, intervalIntegral.integral_of_le h.le, integral_Icc_eq_integral_Ioc,
    ENNReal.toReal_inv, ENNReal.toReal_ofReal (by linarith)]

theorem cont_integrable {E : Type*} [NormedAddCommGroup E] {f : ℝ → E} (hf : Continuous f) :
    Integrable f (Spec.contLaw a b) := by
  unfold Spec.contLaw
  refine Integrable.smul_measure ?_ (by simp [h])
  exact hf.integrableOn_Icc

theorem cont_moments :
    Spec.mean (Spec.contLaw a b) = (a + b) / 2 ∧ Spec.variance (Spec.contLaw a b) = (b - a) ^ 2 / 12 ∧
    Spec.skewness (Spec.contLaw a b) = 0 ∧ Spec.excessKurtosis (Spec.contLaw a b) = -6 / 5 := by
  have := cont_prob h
  have hne : b - a ≠ 0 := by linarith
  have raw : ∀ k : ℕ, ∫ x, x ^ k ∂Spec.contLaw a b =
      (b - a)⁻¹ * ((b ^ (k + 1) - a ^ (k + 1)) / (k + 1)) := by
    intro k; rw [cont_integral h, integral_pow]; rfl
  have r1 := raw 1
  simp only [pow_one] at r1
  obtain ⟨e1, e2, e3, e4⟩ := Spec.moments_of_raw (Spec.contLaw a b)
    (m1 := (a + b) / 2) (m2 := (a ^ 2 + a * b + b ^ 2) / 3)
    (m3 := (a ^ 3 + a ^ 2 * b + a * b ^ 2 + b ^ 3) / 4)
    (m4 := (a ^ 4 + a ^ 3 * b + a ^ 2 * b ^ 2 + a * b ^ 3 + b ^ 4) / 5)
    (v := (b - a) ^ 2 / 12) (c3 := 0) (c4 := (b - a) ^ 4 / 80)
    (cont_integrable h continuous_id) (cont_integrable h (by fun_prop))
    (cont_integrable h (by fun_prop)) (cont_integrable h (by fun_prop))
    (by rw [r1]; field_simp; push_cast; ring) (by rw [raw]; field_simp; push_cast; ring)
    (by rw [raw]; field_simp; push_cast; ring) (by rw [raw]; field_simp; push_cast; ring)
    (by ring) (by ring) (by ring)
  refine ⟨e1, e2, by rw [e3]; simp, ?_⟩
  rw [e4]; field_simp; ring

theorem cont_cdf (x : ℝ) : Spec.cdf (Spec.contLaw a b) x =
    if x < a then 0 else if x ≤ b then (x - a) / (b - a) else 1 := by
  have := cont_prob h
  unfold Spec.cdf
  have key : (Spec.contLaw a b).real (Set.Iic x) =
      (b - a)⁻¹ * (volume (Set.Iic x ∩ Set.Icc a b)).toReal := by
    unfold Spec.contLaw
    rw [measureReal_def, Measure.smul_apply, Measure.restrict_apply measurableSet_Iic, smul_eq_mul,
      ENNReal.toReal_mul, ENNReal.toReal_inv, ENNReal.toReal_ofReal (by linarith)]
  rw [key]
  split_ifs with h1 h2
  · have : Set.Iic x ∩ Set.Icc a b = ∅ := by
      ext y; simp only [Set.mem_inter_iff, Set.mem_Iic, Set.mem_Icc, Set.mem_empty_iff_false]
      constructor
      · rintro ⟨u, v, _⟩; linarith
      · exact False.elim
    rw [this]; simp
  · push Not at h1
    have : Set.Iic x ∩ Set.Icc a b = Set.Icc a x := by
      ext y; simp only [Set.mem_inter_iff, Set.mem_Iic, Set.mem_Icc]
      constructor
      · rintro ⟨u, v, _⟩; exact ⟨v, u⟩
      · rintro ⟨u, v⟩; exact ⟨v, u, v.trans h2⟩
    rw [this, Real.volume_Icc, ENNReal.toReal_ofReal (by linarith)]
    ring
  · push Not at h2
    have : Set.Iic x ∩ Set.Icc a b = Set.Icc a b := by
      ext y; simp only [Set.mem_inter_iff, Set.mem_Iic, Set.mem_Icc]
      constructor
      · rintro ⟨_, v⟩; exact v
      · rintro ⟨u, v⟩; exact ⟨v.trans h2.le, u, v⟩
    rw [this, Real.volume_Icc, ENNReal.toReal_ofReal (by linarith)]
    have : b - a ≠ 0 := by linarith
    field_simp

end cont

section disc

variable {lo hi : ℤ} (h : lo ≤ hi)
include h

theorem disc_pos : (0:ℝ) < hi - lo + 1 := by
  have : (lo:ℝ) ≤ hi := by exact_mod_cast h
  linarith

theorem disc_integrable {E : Type*} [NormedAddCommGroup E] (f : ℝ → E) :
    Integrable f (Spec.discLaw lo hi) := by
  unfold Spec.discLaw
  refine Integrable.smul_measure ?_ (by simp [disc_pos h])
  refine integrable_finsetSum_measure.2 fun k _ => ?_
  exact integrable_dirac (by simp)

theorem disc_integral {E : Type*} [NormedAddCommGroup E] [NormedSpace ℝ E] [CompleteSpace E]
    (f : ℝ → E) :
    ∫ x, f x ∂Spec.discLaw lo hi = ((hi:ℝ) - lo + 1)⁻¹ • ∑ k ∈ Finset.Icc lo hi, f k := by
  unfold Spec.discLaw
  rw [integral_smul_measure, integral_finsetSum_measure
    (fun k _ => integrable_dirac (by simp)), ENNReal.toReal_inv,
    ENNReal.toReal_ofReal (disc_pos h).le]
  simp

theorem disc_sum {E : Type*} [AddCommMonoid E] (f : ℝ → E) :
    ∑ k ∈ Finset.Icc lo hi, f k = ∑ j ∈ Finset.range (hi - lo + 1).toNat, f (lo + j) := by
  symm
  refine Finset.sum_bij (fun j _ => lo + (j:ℤ)) ?_ ?_ ?_ ?_
  · intro j hj
    simp only [Finset.mem_range, Finset.mem_Icc] at *
    omega
  · intro i _ j _ hij; omega
  · intro k hk
    simp only [Finset.mem_Icc] at hk
    refine ⟨(k - lo).toNat, by simp only [Finset.mem_range]; omega, by omega⟩
  · intro j _; push_cast; rfl

theorem disc_card : (((hi - lo + 1).toNat : ℕ) : ℝ) = hi - lo + 1 := by
  have : (((hi - lo + 1).toNat : ℕ) : ℤ) = hi - lo + 1 := Int.toNat_of_nonneg (by omega)
  have h2 : ((((hi - lo + 1).toNat : ℕ) : ℤ) : ℝ) = ((hi - lo + 1 : ℤ) : ℝ) := by rw [this]
  push_cast at h2
  exact h2

theorem disc_prob : IsProbabilityMeasure (Spec.discLaw lo hi) := by
  refine ⟨?_⟩
  unfold Spec.discLaw
  have hc : ((Finset.Icc lo hi).card : ENNReal) = ENNReal.ofReal (hi - lo + 1) := by
    rw [Int.card_Icc, show hi + 1 - lo = hi - lo + 1 by ring, ← disc_card h, ENNReal.ofReal_natCast]
  rw [Measure.smul_apply, Measure.finsetSum_apply]
  simp only [measure_univ, Finset.sum_const, nsmul_eq_mul, mul_one, smul_eq_mul]
  rw [hc]
  refine ENNReal.inv_mul_cancel ?_ ENNReal.ofReal_ne_top
  simp [disc_pos h]

theorem disc_mean_of {f : ℝ → ℝ} {v : ℝ}
    (hv : ∑ j ∈ Finset.range (hi - lo + 1).toNat, f (lo + j) = ((hi - lo + 1).toNat : ℕ) * v) :
    ∫ x, f x ∂Spec.discLaw lo hi = v := by
  rw [disc_integral h, disc_sum h, hv, disc_card h, smul_eq_mul]
  have := disc_pos h
  field_simp

/-- Central moments of the discrete uniform law with `n` points. -/
theorem disc_moments :
    Spec.mean (Spec.discLaw lo hi) = ((lo:ℝ) + hi) / 2 ∧
    Spec.variance (Spec.discLaw lo hi) = (((hi:ℝ) - lo + 1) ^ 2 - 1) / 12 ∧
    Spec.skewness (Spec.discLaw lo hi) = 0 ∧
    (lo < hi → Spec.excessKurtosis (Spec.discLaw lo hi) =
      -(6 * (((hi:ℝ) - lo + 1) * (hi - lo + 1) + 1)) /
        (5 * (((hi:ℝ) - lo + 1) * (hi - lo + 1) - 1))) := by
  have := disc_prob h
  have s1 : ∀ (a : ℝ) (n : ℕ), ∑ j ∈ Finset.range n, (a + j) = n * (a + (n - 1) / 2) := by
    intro a n; induction n with
    | zero => simp
    | succ n ih => rw [Finset.sum_range_succ, ih]; push_cast; ring
  have s2 : ∀ (a : ℝ) (n : ℕ), ∑ j ∈ Finset.range n, (a + j) ^ 2 =
      n * (a ^ 2 + a * (n - 1) + (n - 1) * (2 * n - 1) / 6) := by
    intro a n; induction n with
    | zero => simp
    | succ n ih => rw [Finset.sum_range_succ, ih]; push_cast; ring
  have s3 : ∀ (a : ℝ) (n : ℕ), ∑ j ∈ Finset.range n, (a + j) ^ 3 =
      n * (a ^ 3 + 3 * a ^ 2 * (n - 1) / 2 + a * (n - 1) * (2 * n - 1) / 2 +
        n * (n - 1) ^ 2 / 4) := by
    intro a n; induction n with
    | zero => simp
    | succ n ih => rw [Finset.sum_range_succ, ih]; push_cast; ring
  have s4 : ∀ (a : ℝ) (n : ℕ), ∑ j ∈ Finset.range n, (a + j) ^ 4 =
      n * (a ^ 4 + 2 * a ^ 3 * (n - 1) + a ^ 2 * (n - 1) * (2 * n - 1) +
        a * n * (n - 1) ^ 2 + (n - 1) * (2 * n - 1) * (3 * n ^ 2 - 3 * n - 1) / 30) := by
    intro a n; induction n with
    | zero => simp
    | succ n ih => rw [Finset.sum_range_succ, ih]; push_cast; ring
  have hc := disc_card h
  obtain ⟨e1, e2, e3, e4⟩ := Spec.moments_of_raw (Spec.discLaw lo hi)
    (v := (((hi:ℝ) - lo + 1) ^ 2 - 1) / 12) (c3 := 0)
    (c4 := (((hi:ℝ) - lo + 1) ^ 2 - 1) * (3 * ((hi:ℝ) - lo + 1) ^ 2 - 7) / 240)
    (disc_integrable h _) (disc_integrable h _) (disc_integrable h _) (disc_integrable h _)
    (disc_mean_of h (f := fun x => x) (s1 lo _)) (disc_mean_of h (f := fun x => x ^ 2) (s2 lo _))
    (disc_mean_of h (f := fun x => x ^ 3) (s3 lo _))
    (disc_mean_of h (f := fun x => x ^ 4) (s4 lo _))
    (by rw [hc]; ring) (by rw [hc]; ring) (by rw [hc]; ring)
  refine ⟨by rw [e1, hc]; ring, e2, by rw [e3]; simp, fun hlt => ?_⟩
  rw [e4]
  have h2 : (lo:ℝ) + 1 ≤ hi := by exact_mod_cast hlt
  generalize hn : (hi:ℝ) - lo + 1 = n
  have hn2 : 2 ≤ n := by linarith
  have h3 : n ^ 2 - 1 ≠ 0 := by nlinarith
  have h4 : n * n - 1 ≠ 0 := by nlinarith
  field_simp
  ring

theorem disc_real {s : Set ℝ} (hs : MeasurableSet s) : (Spec.discLaw lo hi).real s =
    ((hi:ℝ) - lo + 1)⁻¹ * ∑ k ∈ Finset.Icc lo hi, s.indicator 1 (k:ℝ) := by
  have := disc_integral h (s.indicator (1 : ℝ → ℝ))
  rw [integral_indicator_one hs] at this
  exact this

theorem disc_mass (k : ℤ) (hk : lo ≤ k ∧ k ≤ hi) :
    (Spec.discLaw lo hi).real {(k:ℝ)} = ((hi:ℝ) - lo + 1)⁻¹ := by
  rw [disc_real h (measurableSet_singleton _), Finset.sum_eq_single k]
  · simp
  · intro j _ hj
    rw [Set.indicator_of_notMem]
    simpa using hj
  · intro hn; exact absurd (Finset.mem_Icc.2 hk) hn

theorem disc_mass_zero (x : ℝ) (hx : ∀ k : ℤ, lo ≤ k → k ≤ hi → x ≠ k) :
    (Spec.discLaw lo hi).real {x} = 0 := by
  rw [disc_real h (measurableSet_singleton _), Finset.sum_eq_zero]
  · simp
  · intro j hj
    rw [Finset.mem_Icc] at hj
    rw [Set.indicator_of_notMem]
    exact fun hh => hx j hj.1 hj.2 hh.symm

theorem disc_cdf (x : ℝ) : Spec.cdf (Spec.discLaw lo hi) x =
    if x < lo then 0 else if x ≤ hi then (⌊x⌋ - lo + 1) / ((hi:ℝ) - lo + 1) else 1 := by
  have hpos := disc_pos h
  unfold Spec.cdf
  rw [disc_real h measurableSet_Iic]
  have key : ∑ k ∈ Finset.Icc lo hi, (Set.Iic x).indicator (1 : ℝ → ℝ) (k:ℝ) =
      ((Finset.Icc lo hi).filter fun k => k ≤ ⌊x⌋).card := by
    rw [Finset.card_filter]
    push_cast
    refine Finset.sum_congr rfl fun k _ => ?_
    simp only [Set.indicator_apply, Set.mem_Iic, Pi.one_apply, Int.le_floor]
  rw [key]
  split_ifs with h1 h2
  · have : (Finset.Icc lo hi).filter (fun k => k ≤ ⌊x⌋) = ∅ := by
      refine Finset.filter_eq_empty_iff.2 fun k hk => ?_
      rw [Finset.mem_Icc] at hk
      have := Int.floor_lt.2 h1
      omega
    rw [this]; simp
  · push Not at h1
    have hlo : lo ≤ ⌊x⌋ := Int.le_floor.2 h1
    have hhi : ⌊x⌋ ≤ hi := by
      have : (⌊x⌋:ℝ) ≤ hi := (Int.floor_le x).trans h2
      exact_mod_cast this
    have : (Finset.Icc lo hi).filter (fun k => k ≤ ⌊x⌋) = Finset.Icc lo ⌊x⌋ := by
      ext k; simp only [Finset.mem_filter, Finset.mem_Icc]; omega
    rw [this, Int.card_Icc, show ⌊x⌋ + 1 - lo = ⌊x⌋ - lo + 1 by ring, disc_card hlo]
    ring
  · push Not at h2
    have hhi : hi ≤ ⌊x⌋ := Int.le_floor.2 h2.le
    have : (Finset.Icc lo hi).filter (fun k => k ≤ ⌊x⌋) = Finset.Icc lo hi := by
      ext k; simp only [Finset.mem_filter, Finset.mem_Icc]; omega
    rw [this, Int.card_Icc, show hi + 1 - lo = hi - lo + 1 by ring, disc_card h]
    field_simp

end disc

end Verif.Distributions
