import Verif.ImpliedVol.Asymptotic
import Mathlib.Analysis.Complex.ExponentialBounds

/-! Helper lemmas: `normalised_black_call` against the normalised Black function. -/

namespace Verif.ImpliedVol

open Real MeasureTheory Set Classical
open Verif.Options.Bsm Verif.Distributions

theorem erfcx_eq (z : ℝ) : erfcx (-(1 / √2) * z) = 2 * exp (z ^ 2 / 2) * N z := by
  have h := Gaussian.erf_eq (-(1 / √2) * z)
  have e1 : √2 * (-(1 / √2) * z) = -z := by
    have : √(2:ℝ) ≠ 0 := by positivity
    field_simp
  have e2 : (-(1 / √2) * z) ^ 2 = z ^ 2 / 2 := by
    rw [mul_pow, neg_sq, div_pow, sq_sqrt (by norm_num)]; ring
  have hN : N (-z) = 1 - N z := N_neg z
  rw [erf, e1, show Gaussian.std.cdf (-z) = N (-z) from rfl, hN] at h
  rw [erfcx, e2, show erfc (-(1 / √2) * z) = 2 * N z by linarith]; ring

theorem exp_half_N (z : ℝ) : exp (z ^ 2 / 2) * N z = (√(2 * π))⁻¹ * M 0 z := by
  rw [N_eq, n_eq]
  have : exp (z ^ 2 / 2) * exp (-z ^ 2 / 2) = 1 := by rw [← exp_add]; simp; ring
  linear_combination ((√(2 * π))⁻¹ * M 0 z) * this

theorem sqrt_two_pi_pos : 0 < √(2 * π) := by positivity

theorem blackVega_pos (x s : ℝ) : 0 < blackVega x s := by unfold blackVega; positivity

theorem blackVega_eq (x s : ℝ) :
    1 / √(2 * π) * exp (-0.5 * ((x / s) * (x / s) + (0.5 * s) * (0.5 * s))) = blackVega x s := by
  rw [blackVega, one_div_mul_eq_div]; congr 2; norm_num; ring

theorem black_pos (x s : ℝ) (hs : 0 < s) : 0 < black x s := by
  rw [black_eq x s hs.ne']
  exact mul_pos (blackVega_pos x s) (D_pos _ _ (by positivity))

theorem normCdf_eq (x s : ℝ) (hs : 0 < s) : blackUsingNormCdf x s = black x s := by
  have h := black_pos x s hs
  have e : N (x / s + 0.5 * s) * exp (0.5 * x) - N (x / s - 0.5 * s) / exp (0.5 * x) = black x s := by
    rw [black, show (0.5:ℝ) * s = s / 2 by norm_num; ring, show (0.5:ℝ) * x = x / 2 by norm_num; ring,
      show -x / 2 = -(x / 2) by ring, exp_neg]; rfl
  simp only [blackUsingNormCdf, e]
  exact max_eq_left h.le

theorem usingErfcx_eq (x s : ℝ) (hs : 0 < s) : blackUsingErfcx (x / s) (0.5 * s) = black x s := by
  have h := black_pos x s hs
  have e : 0.5 * exp (-0.5 * ((x / s) * (x / s) + (0.5 * s) * (0.5 * s))) *
      (erfcx (-(1 / √2) * (x / s + 0.5 * s)) - erfcx (-(1 / √2) * (x / s - 0.5 * s))) = black x s := by
    rw [black_eq x s hs.ne', ← blackVega_eq, D, erfcx_eq, erfcx_eq, mul_assoc 2, mul_assoc 2, exp_half_N, exp_half_N,
      show s / 2 = 0.5 * s by norm_num; ring]
    ring
  rw [blackUsingErfcx, e]
  exact max_eq_left h.le

theorem smallT_eq (x s : ℝ) (hs : 0 < s) :
    smallTExpansion (x / s) (0.5 * s) = max (blackVega x s * taylor 7 (x / s) (s / 2)) 0 := by
  have e : 1 + x / s * (0.5 * √(2 * π)) * erfcx (-(1 / √2) * (x / s)) = 1 + x / s * M 0 (x / s) := by
    have := sqrt_two_pi_pos.ne'
    rw [erfcx_eq, mul_assoc 2, exp_half_N]; field_simp; norm_num; left; ring
  simp only [smallTExpansion, e, smallT_taylor, blackVega_eq]
  rw [show (0.5:ℝ) * s = s / 2 by norm_num; ring]

theorem asymptotic_exp_eq (x s : ℝ) (hs : 0 < s) (hp : x / s + s / 2 < 0) :
    asymptoticExpansion (x / s) (0.5 * s) = max (blackVega x s * asymptotic 18 (x / s) (s / 2)) 0 := by
  have h2 : (0.5:ℝ) * s = s / 2 := by norm_num; ring
  simp only [asymptoticExpansion, blackVega_eq]
  rw [h2, mul_assoc, asymptotic_sum _ _ (by positivity) hp]

theorem tau_val : tau = 0.21022410381342866 := by norm_num [tau, sixteenthRootEpsilon]

/-- The three kinds of region for an out-of-the-money call. -/
theorem otm_accuracy (x s : ℝ) (hx : x ≤ 0) (hs : 0 < s) :
    (x < -10 * s ∧ s / 2 + x / s < tau - 10 ∧ normalisedBlackCallOtm x s ≤ black x s ∧
      (1 - 2e-14) * black x s ≤ normalisedBlackCallOtm x s) ∨
    (s / 2 < tau ∧ normalisedBlackCallOtm x s ≤ black x s ∧
      (1 - 2⁻¹ ^ 51) * black x s ≤ normalisedBlackCallOtm x s) ∨
    (tau ≤ s / 2 ∧ normalisedBlackCallOtm x s = black x s) := by
  have h2 : (0.5:ℝ) * s = s / 2 := by norm_num; ring
  have hb := black_pos x s hs
  have hv := blackVega_pos x s
  have h0 : ¬ s ≤ |x| * cutoff := by simp [cutoff, hs]
  have hbe := black_eq x s hs.ne'
  by_cases h1 : x < s * eta ∧ 0.5 * s * s + x < s * (tau + eta)
  · left
    have e : normalisedBlackCallOtm x s = asymptoticExpansion (x / s) (0.5 * s) := by
      simp only [normalisedBlackCallOtm, h0, if_false, h1, and_self, if_true]
    have hp : s / 2 + x / s < tau - 10 := by
      have h3 := h1.2
      have h4 : (0.5 * s * s + x) / s < tau + eta := by rw [div_lt_iff₀ hs]; linarith
      have h5 : (0.5 * s * s + x) / s = s / 2 + x / s := by field_simp; norm_num; ring
      rw [h5, eta] at h4; linarith
    have hp' : x / s + s / 2 < -9.789 := by rw [tau_val] at hp; linarith
    obtain ⟨a1, a2⟩ := asymptotic_relative (x / s) (s / 2) (by positivity) hp'
    have hx' : x < -10 * s := by have := h1.1; rw [eta] at this; linarith
    have hD := D_pos (x / s) (s / 2) (by positivity)
    rw [e, asymptotic_exp_eq x s hs (by linarith), hbe]
    refine ⟨hx', hp, max_le (by gcongr) (by positivity), le_max_of_le_left ?_⟩
    nlinarith
  · by_cases h3 : 0.5 * s < tau
    · right; left
      have e : normalisedBlackCallOtm x s = smallTExpansion (x / s) (0.5 * s) := by
        simp only [normalisedBlackCallOtm, h0, if_false, h1, h3, if_true]
      rw [h2] at h3
      rw [tau_val] at h3
      have hh : x / s ≤ 0 := div_nonpos_of_nonpos_of_nonneg hx hs.le
      have a1 := taylor_le 7 (x / s) (s / 2) (by positivity)
      have a2 := taylor_error (x / s) (s / 2) hh (by positivity) (by linarith)
      have hD := D_pos (x / s) (s / 2) (by positivity)
      have hc : (s / 2) ^ 14 / 1307674368000 * (645120 / (1 - (s / 2) ^ 2) ^ 8) ≤ 2⁻¹ ^ 51 := by
        have t2 : (s / 2) ^ 2 ≤ 0.0442 := by nlinarith
        have t14 : (s / 2) ^ 14 ≤ 0.0442 ^ 7 := by
          rw [show (s / 2) ^ 14 = ((s / 2) ^ 2) ^ 7 by ring]
          exact pow_le_pow_left₀ (by positivity) t2 _
        have d : (0.9558:ℝ) ^ 8 ≤ (1 - (s / 2) ^ 2) ^ 8 := pow_le_pow_left₀ (by norm_num) (by linarith) _
        calc _ ≤ (0.0442:ℝ) ^ 7 / 1307674368000 * (645120 / 0.9558 ^ 8) := by gcongr
          _ ≤ _ := by norm_num
      rw [e, smallT_eq x s hs, hbe, tau_val]
      refine ⟨h3, max_le (by gcongr) (by positivity), le_max_of_le_left ?_⟩
      have : D (x / s) (s / 2) - taylor 7 (x / s) (s / 2) ≤ 2⁻¹ ^ 51 * D (x / s) (s / 2) :=
        a2.trans (by gcongr)
      nlinarith
    · right; right
      have h3' : tau ≤ s / 2 := by rw [← h2]; exact not_lt.1 h3
      refine ⟨h3', ?_⟩
      by_cases h4 : s * 0.85 < x + 0.5 * s * s
      · simp only [normalisedBlackCallOtm, h0, if_false, h1, h3, h4, if_true]
        exact normCdf_eq x s hs
      · simp only [normalisedBlackCallOtm, h0, if_false, h1, h3, h4]
        exact usingErfcx_eq x s hs

theorem black_parity (x s : ℝ) : black x s = black (-x) s + (exp (x / 2) - exp (-x / 2)) := by
  have e1 : N (x / s + s / 2) = 1 - N (-x / s - s / 2) := by
    rw [← N_neg]; congr 1; ring
  have e2 : N (x / s - s / 2) = 1 - N (-x / s + s / 2) := by
    rw [← N_neg]; congr 1; ring
  rw [black, black, e1, e2, neg_neg]; ring

/-- The intrinsic value of the code: its series is below the exact value and very close to it. -/
theorem intrinsic_accuracy (x : ℝ) (hx : 0 < x) :
    normalisedIntrinsicCall x ≤ exp (x / 2) - exp (-x / 2) ∧
      (1 - 2⁻¹ ^ 60) * (exp (x / 2) - exp (-x / 2)) ≤ normalisedIntrinsicCall x := by
  have hd : exp (x / 2) - exp (-x / 2) = 2 * sinh (x / 2) := by
    rw [sinh_eq, show -(x / 2) = -x / 2 by ring]; ring
  have h0 : ¬ (1:ℝ) * x ≤ 0 := by simpa using hx
  have hpos : 0 < sinh (x / 2) := Real.sinh_pos_iff.2 (by positivity)
  have n0 : ¬ ((1:ℝ) < 0) := by norm_num
  by_cases h1 : x * x < 98 * fourthRootEpsilon
  · have e : normalisedIntrinsicCall x = 2 * sinhSum 5 (x / 2) := by
      simp only [normalisedIntrinsicCall, normalisedIntrinsic, h0, h1, n0, if_false, if_true]
      rw [max_eq_left (by positivity)]
      simp only [sinhSum, Finset.sum_range_succ, Finset.sum_range_zero]
      norm_num [Nat.factorial]; ring
    have a1 := sinhSum_le 5 (x / 2) (by positivity)
    have a2 := sinh_le 5 (x / 2) (by positivity)
    have hx1 : x ^ 2 < 0.012 := by rw [fourthRootEpsilon] at h1; nlinarith
    have hx2 : x < 0.11 := by nlinarith
    have hc : cosh (x / 2) ≤ 2 := by
      have := cosh_le_exp_half_sq (x / 2)
      have h3 : exp ((x / 2) ^ 2 / 2) ≤ exp (1 / 2) := exp_le_exp.2 (by nlinarith)
      have h4 : exp (1 / 2 : ℝ) ≤ 2 := by
        have h5 := Real.exp_one_lt_d9
        have h6 : exp (1 / 2 : ℝ) ^ 2 = exp 1 := by rw [← exp_nat_mul]; norm_num
        nlinarith [exp_pos (1 / 2 : ℝ)]
      linarith
    have hs : x / 2 ≤ sinh (x / 2) := Real.self_le_sinh_iff.2 (by positivity)
    have h11 : (x / 2) ^ 11 / 39916800 * cosh (x / 2) ≤ 2⁻¹ ^ 60 * sinh (x / 2) := by
      have p10 : (x / 2) ^ 10 ≤ 0.003 ^ 5 := by
        rw [show (x / 2) ^ 10 = ((x / 2) ^ 2) ^ 5 by ring]
        exact pow_le_pow_left₀ (by positivity) (by nlinarith) _
      calc (x / 2) ^ 11 / 39916800 * cosh (x / 2) = (x / 2) ^ 10 / 39916800 * cosh (x / 2) * (x / 2) := by ring
        _ ≤ 0.003 ^ 5 / 39916800 * 2 * sinh (x / 2) := by
          have := cosh_pos (x / 2)
          gcongr
        _ ≤ _ := by gcongr; norm_num
    norm_num [Nat.factorial] at a2
    rw [hd, e]
    refine ⟨by linarith, ?_⟩
    norm_num at h11 ⊢
    linarith
  · have e : normalisedIntrinsicCall x = exp (x / 2) - exp (-x / 2) := by
      simp only [normalisedIntrinsicCall, normalisedIntrinsic, h0, h1, n0, if_false]
      rw [show (0.5:ℝ) * x = x / 2 by norm_num; ring, one_div, ← exp_neg, show -(x / 2) = -x / 2 by ring,
        max_eq_left (by rw [hd]; positivity)]
    rw [e, hd]
    refine ⟨le_rfl, ?_⟩
    norm_num
    linarith

theorem call_accuracy (x s : ℝ) (hs : 0 < s) : normalisedBlackCall x s ≤ black x s ∧
    (1 - 2e-14) * black x s ≤ normalisedBlackCall x s := by
  have otm : ∀ x, x ≤ 0 → normalisedBlackCallOtm x s ≤ black x s ∧
      (1 - 2e-14) * black x s ≤ normalisedBlackCallOtm x s := fun x hx => by
    have hb := black_pos x s hs
    rcases otm_accuracy x s hx hs with ⟨-, -, h1, h2⟩ | ⟨-, h1, h2⟩ | ⟨-, h⟩
    · exact ⟨h1, h2⟩
    · exact ⟨h1, le_trans (by gcongr; norm_num) h2⟩
    · rw [h]; exact ⟨le_rfl, by nlinarith⟩
  by_cases hx : 0 < x
  · simp only [normalisedBlackCall, hx, if_true]
    obtain ⟨i1, i2⟩ := intrinsic_accuracy x hx
    obtain ⟨o1, o2⟩ := otm (-x) (by linarith)
    have hi : 0 < exp (x / 2) - exp (-x / 2) := sub_pos.2 (exp_lt_exp.2 (by linarith))
    rw [black_parity x s]
    refine ⟨by linarith, ?_⟩
    norm_num at i2 o2 ⊢
    linarith
  · simp only [normalisedBlackCall, hx, if_false]
    exact otm x (not_lt.1 hx)

end Verif.ImpliedVol
