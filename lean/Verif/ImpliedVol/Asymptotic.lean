import Verif.ImpliedVol.Expansion
import Mathlib.Analysis.SpecialFunctions.Trigonometric.DerivHyp

/-! Helper lemmas: the asymptotic expansion of the normalised Black function and its error. -/

namespace Verif.ImpliedVol

open Real MeasureTheory Set
open Verif.Options.Bsm

theorem pow_exp_integral (k : ℕ) (p : ℝ) (hp : 0 < p) :
    IntegrableOn (fun u : ℝ => u ^ k * exp (-p * u)) (Ioi 0) ∧
      ∫ u in Ioi (0:ℝ), u ^ k * exp (-p * u) = k.factorial / p ^ (k + 1) := by
  have hk : (-1:ℝ) < k := by have : (0:ℝ) ≤ k := Nat.cast_nonneg k; linarith
  constructor
  · have := integrableOn_rpow_mul_exp_neg_mul_rpow (p := 1) (s := k) (b := p) hk (by norm_num) hp
    refine this.congr (Filter.Eventually.of_forall fun u => ?_)
    simp only [rpow_natCast, rpow_one]
  · have h := integral_rpow_mul_exp_neg_mul_rpow (p := 1) (q := k) (b := p) (by norm_num) hk hp
    simp only [rpow_natCast, rpow_one] at h
    simp only [div_one, mul_one] at h
    rw [h, Gamma_nat_eq_factorial, show -((k:ℝ) + 1) = -((k + 1 : ℕ) : ℝ) by push_cast; ring,
      rpow_neg hp.le, rpow_natCast]
    field_simp

/-- `exp(h u) sinh(t u)` as a difference of exponentials. -/
theorem exp_sinh (h t u : ℝ) : 2 * sinh (t * u) * exp (h * u) = exp (-(-(h + t)) * u) - exp (-(-(h - t)) * u) := by
  rw [sinh_eq]
  have e1 : exp (-(-(h + t)) * u) = exp (t * u) * exp (h * u) := by rw [← exp_add]; congr 1; ring
  have e2 : exp (-(-(h - t)) * u) = exp (-(t * u)) * exp (h * u) := by rw [← exp_add]; congr 1; ring
  rw [e1, e2]; ring

/-- `1/|h+t|^k - 1/|h-t|^k`. -/
noncomputable def gap (k : ℕ) (h t : ℝ) : ℝ := 1 / (-(h + t)) ^ k - 1 / (-(h - t)) ^ k

theorem pow_sinh_integral (k : ℕ) (h t : ℝ) (ht : 0 < t) (hp : h + t < 0) :
    IntegrableOn (fun u : ℝ => u ^ k * (2 * sinh (t * u) * exp (h * u))) (Ioi 0) ∧
      ∫ u in Ioi (0:ℝ), u ^ k * (2 * sinh (t * u) * exp (h * u)) = k.factorial * gap (k + 1) h t := by
  obtain ⟨i1, v1⟩ := pow_exp_integral k (-(h + t)) (by linarith)
  obtain ⟨i2, v2⟩ := pow_exp_integral k (-(h - t)) (by linarith)
  simp only [exp_sinh, mul_sub]
  refine ⟨i1.sub i2, ?_⟩
  rw [integral_sub i1 i2, v1, v2, gap]; ring

/-- The series truncated after `m` terms. -/
noncomputable def asymptotic (m : ℕ) (h t : ℝ) : ℝ :=
  ∑ k ∈ Finset.range m, (-1 : ℝ) ^ k * (2 * k).factorial / (2 ^ k * k.factorial) * gap (2 * k + 1) h t

theorem expSum_expand (m : ℕ) (h t u : ℝ) : 2 * sinh (t * u) * exp (h * u) * expSum m (u ^ 2 / 2) =
    ∑ k ∈ Finset.range m, (-1 : ℝ) ^ k / (2 ^ k * k.factorial) * (u ^ (2 * k) * (2 * sinh (t * u) * exp (h * u))) := by
  rw [expSum, Finset.mul_sum]
  refine Finset.sum_congr rfl fun k _ => ?_
  have : (0:ℝ) < k.factorial := by positivity
  rw [div_pow, ← pow_mul]; field_simp

theorem asymptotic_eq (m : ℕ) (h t : ℝ) (ht : 0 < t) (hp : h + t < 0) :
    IntegrableOn (fun u => 2 * sinh (t * u) * exp (h * u) * expSum m (u ^ 2 / 2)) (Ioi 0) ∧
    asymptotic m h t = ∫ u in Ioi (0:ℝ), 2 * sinh (t * u) * exp (h * u) * expSum m (u ^ 2 / 2) := by
  simp only [expSum_expand]
  have hi : ∀ k ∈ Finset.range m, IntegrableOn (fun u : ℝ =>
      (-1 : ℝ) ^ k / (2 ^ k * k.factorial) * (u ^ (2 * k) * (2 * sinh (t * u) * exp (h * u)))) (Ioi 0) := fun k _ =>
    ((pow_sinh_integral (2 * k) h t ht hp).1).const_mul _
  refine ⟨integrable_finset_sum _ hi, ?_⟩
  rw [integral_finset_sum _ hi, asymptotic]
  refine Finset.sum_congr rfl fun k _ => ?_
  rw [integral_const_mul, (pow_sinh_integral (2 * k) h t ht hp).2]; ring

theorem kern_split (h t u : ℝ) : 2 * sinh (t * u) * kern h u = 2 * sinh (t * u) * exp (h * u) * exp (-(u ^ 2 / 2)) := by
  rw [mul_assoc (2 * sinh (t * u)), ← exp_add, kern]; congr 2

/-- The remainder has the sign of the first omitted term and is at most that term. -/
theorem asymptotic_error (m : ℕ) (h t : ℝ) (ht : 0 < t) (hp : h + t < 0) :
    0 ≤ (-1 : ℝ) ^ m * (D h t - asymptotic m h t) ∧
      (-1 : ℝ) ^ m * (D h t - asymptotic m h t) ≤ (2 * m).factorial / (2 ^ m * m.factorial) * gap (2 * m + 1) h t := by
  obtain ⟨ai, av⟩ := asymptotic_eq m h t ht hp
  have si := sinh_integrable h t
  have e : (-1 : ℝ) ^ m * (D h t - asymptotic m h t) = ∫ u in Ioi (0:ℝ),
      2 * sinh (t * u) * exp (h * u) * ((-1) ^ m * (exp (-(u ^ 2 / 2)) - expSum m (u ^ 2 / 2))) := by
    rw [D_eq, av, ← integral_sub si ai, ← integral_const_mul]
    congr 1; funext u; rw [kern_split]; ring
  have hs : ∀ u, 0 < u → 0 ≤ 2 * sinh (t * u) * exp (h * u) := fun u hu => by
    have : 0 < sinh (t * u) := Real.sinh_pos_iff.2 (by positivity)
    positivity
  rw [e]
  refine ⟨setIntegral_nonneg measurableSet_Ioi fun u (hu : 0 < u) =>
    mul_nonneg (hs u hu) (exp_remainder m _ (by positivity)).1, ?_⟩
  obtain ⟨pi, pv⟩ := pow_sinh_integral (2 * m) h t ht hp
  have : (2 * m).factorial / (2 ^ m * m.factorial) * gap (2 * m + 1) h t = ∫ u in Ioi (0:ℝ),
      1 / (2 ^ m * m.factorial) * (u ^ (2 * m) * (2 * sinh (t * u) * exp (h * u))) := by
    rw [integral_const_mul, pv]; ring
  rw [this]
  refine setIntegral_mono_on ?_ (pi.const_mul _) measurableSet_Ioi fun u (hu : 0 < u) => ?_
  · have := (si.sub ai).const_mul ((-1 : ℝ) ^ m)
    refine this.congr (Filter.Eventually.of_forall fun u => ?_)
    simp only [Pi.sub_apply, kern_split]; ring
  · have h1 := (exp_remainder m (u ^ 2 / 2) (by positivity)).2
    have h2 := hs u hu
    calc _ ≤ 2 * sinh (t * u) * exp (h * u) * ((u ^ 2 / 2) ^ m / m.factorial) := by gcongr
      _ = _ := by
        have : (0:ℝ) < m.factorial := by positivity
        rw [div_pow, ← pow_mul]; field_simp

theorem gap_pos (k : ℕ) (h t : ℝ) (ht : 0 < t) (hp : h + t < 0) : 0 < gap (k + 1) h t := by
  rw [gap, sub_pos]
  exact one_div_lt_one_div_of_lt (pow_pos (by linarith) _) (pow_lt_pow_left₀ (by linarith) (by linarith) (by omega))

theorem gap_le (k : ℕ) (h t : ℝ) (ht : 0 < t) (hp : h + t < 0) :
    gap (k + 1) h t ≤ (k + 1) / (-(h + t)) ^ k * gap 1 h t := by
  set a := 1 / (-(h + t)) with ha
  set b := 1 / (-(h - t)) with hb
  have hb0 : 0 ≤ b := by rw [hb]; exact one_div_nonneg.2 (by linarith)
  have hab : b ≤ a := one_div_le_one_div_of_le (by linarith) (by linarith)
  have e : ∀ j, gap j h t = a ^ j - b ^ j := fun j => by rw [gap, ha, hb, div_pow, div_pow, one_pow]
  rw [e, e, pow_one, pow_one, show (k + 1 : ℝ) / (-(h + t)) ^ k = (k + 1) * a ^ k by
    rw [ha, div_pow, one_pow]; ring]
  induction k with
  | zero => simp
  | succ k ih =>
    have h1 : b ^ (k + 1) ≤ a ^ (k + 1) := pow_le_pow_left₀ hb0 hab _
    have h2 : a * (a ^ (k + 1) - b ^ (k + 1)) ≤ a * ((k + 1) * a ^ k * (a - b)) := by
      have : 0 ≤ a := hb0.trans hab
      gcongr
    have h3 : b ^ (k + 1) * (a - b) ≤ a ^ (k + 1) * (a - b) := mul_le_mul_of_nonneg_right h1 (by linarith)
    push_cast
    calc a ^ (k + 1 + 1) - b ^ (k + 1 + 1) = a * (a ^ (k + 1) - b ^ (k + 1)) + b ^ (k + 1) * (a - b) := by ring
      _ ≤ a * ((k + 1) * a ^ k * (a - b)) + a ^ (k + 1) * (a - b) := by linarith
      _ = _ := by ring

/-- The relative error of the series with 18 terms. -/
theorem asymptotic_relative (h t : ℝ) (ht : 0 < t) (hp : h + t < -9.789) :
    asymptotic 18 h t ≤ D h t ∧ D h t - asymptotic 18 h t ≤ 2e-14 * D h t := by
  have hp0 : h + t < 0 := by linarith
  obtain ⟨h1, h2⟩ := asymptotic_error 18 h t ht hp0
  have g1 := gap_pos 0 h t ht hp0
  refine ⟨by linarith, ?_⟩
  have h3 : asymptotic 2 h t ≤ D h t := by
    have := (asymptotic_error 2 h t ht hp0).1
    linarith
  have e2 : asymptotic 2 h t = gap 1 h t - gap 3 h t := by
    simp [asymptotic, Finset.sum_range_succ, Nat.factorial]; ring
  have q3 := gap_le 2 h t ht hp0
  have q37 := gap_le 36 h t ht hp0
  norm_num at q3 q37
  have p2 : (95.8 : ℝ) ≤ (-t + -h) ^ 2 := by nlinarith
  have p36 : (4.6e35 : ℝ) ≤ (-t + -h) ^ 36 := by
    have : (9.789 : ℝ) ^ 36 ≤ (-t + -h) ^ 36 := pow_le_pow_left₀ (by norm_num) (by linarith) _
    refine le_trans ?_ this
    norm_num
  have r3 : gap 3 h t ≤ 0.04 * gap 1 h t := by
    refine q3.trans (mul_le_mul_of_nonneg_right ?_ g1.le)
    rw [div_le_iff₀ (by linarith)]; linarith
  have r37 : gap 37 h t ≤ 37 / 4.6e35 * gap 1 h t := by
    refine q37.trans (mul_le_mul_of_nonneg_right ?_ g1.le)
    gcongr
  have hD : 0.96 * gap 1 h t ≤ D h t := by linarith
  norm_num [Nat.factorial] at h2
  linarith

/-- The coefficients of the code are those of the series. -/
theorem sum_poly (e q c : ℝ) (he : c * c = e) : c * asymptoticExpansionSum e q =
    ∑ k ∈ Finset.range 18, (-1 : ℝ) ^ k * (2 * k).factorial / (2 ^ k * k.factorial) *
      (q ^ k * ((1 + c) ^ (2 * k + 1) - (1 - c) ^ (2 * k + 1))) := by
  subst he
  simp only [Finset.sum_range_succ, Finset.sum_range_zero, asymptoticExpansionSum]
  norm_num [Nat.factorial]
  ring

theorem asymptotic_sum (h t : ℝ) (ht : 0 < t) (hp : h + t < 0) :
    t / ((h + t) * (h - t)) * asymptoticExpansionSum ((t / h) * (t / h))
      ((h / ((h + t) * (h - t))) * (h / ((h + t) * (h - t)))) = asymptotic 18 h t := by
  set c := -(t / h) with hc
  have hh : h < 0 := by linarith
  have hm : h - t < 0 := by linarith
  have n1 : h ≠ 0 := hh.ne
  have n2 : h + t ≠ 0 := hp.ne
  have n3 : h - t ≠ 0 := hm.ne
  have h1 := sum_poly ((t / h) * (t / h)) ((h / ((h + t) * (h - t))) * (h / ((h + t) * (h - t)))) c (by rw [hc]; ring)
  have e : t / ((h + t) * (h - t)) * asymptoticExpansionSum ((t / h) * (t / h))
      ((h / ((h + t) * (h - t))) * (h / ((h + t) * (h - t)))) = -(h / ((h + t) * (h - t))) *
        (c * asymptoticExpansionSum ((t / h) * (t / h)) ((h / ((h + t) * (h - t))) * (h / ((h + t) * (h - t))))) := by
    rw [hc]; field_simp
  rw [e, h1, asymptotic, Finset.mul_sum]
  refine Finset.sum_congr rfl fun k _ => ?_
  have e2 : -(h / ((h + t) * (h - t))) * (((h / ((h + t) * (h - t))) * (h / ((h + t) * (h - t)))) ^ k *
      ((1 + c) ^ (2 * k + 1) - (1 - c) ^ (2 * k + 1))) = gap (2 * k + 1) h t := by
    have a1 : -(h / ((h + t) * (h - t))) * (1 + c) = 1 / -(h + t) := by rw [hc]; field_simp; ring
    have a2 : -(h / ((h + t) * (h - t))) * (1 - c) = 1 / -(h - t) := by rw [hc]; field_simp; ring
    have a3 : ∀ a b : ℝ, -a * ((a * a) ^ k * b ^ (2 * k + 1)) = (-a * b) ^ (2 * k + 1) := fun a b => by
      rw [mul_pow (-a) b, pow_succ (-a), pow_mul (-a), neg_sq, pow_two]; ring
    rw [gap, ← one_div_pow, ← one_div_pow, ← a1, ← a2, ← a3, ← a3]; ring
  rw [← e2]; ring

end Verif.ImpliedVol
