import Verif.ImpliedVol.Interp
import Verif.ImpliedVol.Maps

/-! Helper lemmas: the guesses and the iterations stay positive. -/

namespace Verif.ImpliedVol

open Real Set Classical
open Verif.Options.Bsm Verif.Distributions

/-! ### The iterations -/

theorem body_pos {step : ℝ → ℝ → ℝ → ℝ → ℝ → Option ℝ} {beta x : ℝ} {st st' : State} (h : body step beta x st = some st')
    (hs : 0 < st.s) (hl : 0 ≤ st.sLeft) (hr : 0 < st.sRight) : 0 < st'.s ∧ 0 ≤ st'.sLeft ∧ 0 < st'.sRight := by
  simp only [body, Option.map_eq_some_iff] at h
  obtain ⟨ds, -, rfl⟩ := h
  dsimp only
  refine ⟨?_, ?_, ?_⟩
  · have : -0.5 * st.s ≤ max ds (-0.5 * st.s) := le_max_right _ _
    have e : -0.5 * st.s = -(st.s / 2) := by norm_num; ring
    rw [e] at this ⊢
    linarith
  · split_ifs <;> linarith
  · split_ifs <;> linarith

theorem iterate_pos {step : ℝ → ℝ → ℝ → ℝ → ℝ → Option ℝ} {beta x : ℝ} (k : ℕ) : ∀ {st : State} {s : ℝ},
    iterate step beta x k st = some s → 0 < st.s → 0 ≤ st.sLeft → 0 < st.sRight → 0 < s := by
  induction k with
  | zero => intro st s h hs _ _; simp only [iterate, Option.some.injEq] at h; rwa [← h]
  | succ k ih =>
    intro st s h hs hl hr
    simp only [iterate] at h
    have hm : (0:ℝ) < 0.5 * (st.sLeft + st.sRight) := by
      have : (0:ℝ) < st.sLeft + st.sRight := by linarith
      positivity
    split_ifs at h with h1 h2 h3 h4 h5 <;>
    first
    | (simp only [Option.some.injEq] at h; rw [← h]; assumption)
    | (rw [Option.bind_eq_some_iff] at h
       obtain ⟨st', hb, hi⟩ := h
       obtain ⟨a, b, c⟩ := body_pos hb (by first | exact hs | exact hm) hl hr
       exact ih hi a b c)

theorem run_pos {step : ℝ → ℝ → ℝ → ℝ → ℝ → Option ℝ} {beta x : ℝ} (k : ℕ) {s sl sr : ℝ} (hs : 0 < s) (hl : 0 ≤ sl)
    (hr : 0 < sr) : (∃ v, 0 < v ∧ run step beta x k (start s sl sr) = .finite v) ∨
      run step beta x k (start s sl sr) = .undefined := by
  rw [run]
  cases h : iterate step beta x k (start s sl sr) with
  | none => exact Or.inr rfl
  | some v => exact Or.inl ⟨v, iterate_pos k h hs hl hr, rfl⟩

/-! ### The critical point -/

theorem M0_deriv (z : ℝ) : HasDerivAt (M 0) (M 1 z) z := by
  have e : M 0 = fun z => N z / n z := by
    funext z; rw [N_eq, mul_div_cancel_left₀ _ (n_pos z).ne']
  rw [e, M_zero_rec]
  refine ((N_deriv z).fun_div (n_deriv z) (n_pos z).ne').congr_deriv ?_
  have := (n_pos z).ne'
  rw [e]; field_simp; ring

/-- Below the critical point the call is worth less than volatility times vega. -/
theorem D_lt (h t : ℝ) (ht : 0 < t) (hh : h + t ≤ 0) : D h t < 2 * t := by
  have hd : ∀ z, HasDerivAt (fun z => z - M 0 z) (1 - M 1 z) z := fun z => (hasDerivAt_id z).fun_sub (M0_deriv z)
  have hm : StrictMonoOn (fun z => z - M 0 z) (Iic 0) := by
    refine strictMonoOn_of_deriv_pos (convex_Iic 0) (fun z _ => (hd z).continuousAt.continuousWithinAt) fun z hz => ?_
    rw [interior_Iic] at hz
    have hz : z < 0 := hz
    rw [(hd z).deriv, M_zero_rec]
    have := M_pos 0 z
    nlinarith
  have := hm (show h - t ∈ Iic 0 by simp; linarith) (show h + t ∈ Iic 0 from hh) (show h - t < h + t by linarith)
  simp only at this
  rw [D]; linarith

theorem sqrtMin_pos : 0 < sqrtMin := by norm_num [sqrtMin]

theorem epsilon_pos : 0 < epsilon := by unfold epsilon; positivity

theorem maxFinite_pos : 0 < maxFinite := by
  unfold maxFinite
  have : (2:ℝ) ^ (-52:ℤ) < 2 := by norm_num
  have h2 : (0:ℝ) < 2 - 2 ^ (-52:ℤ) := by linarith
  positivity

theorem minPositive_pos : 0 < minPositive := by unfold minPositive; positivity

theorem sC_pos {x : ℝ} (hx : x < 0) : 0 < sC x := by
  rw [sC]; exact sqrt_pos.2 (abs_pos.2 (by linarith))

theorem sC_sq {x : ℝ} (hx : x ≤ 0) : sC x ^ 2 = -(2 * x) := by
  rw [sC, sq_sqrt (abs_nonneg _), abs_of_nonpos (by linarith)]

theorem sC_zero : sC 0 = 0 := by simp [sC]

theorem bC_zero : bC 0 = 0 := by
  simp [bC, normalisedBlackCall, normalisedBlackCallOtm, sC_zero, cutoff, normalisedIntrinsicCall, normalisedIntrinsic]

theorem vC_zero : vC 0 = 1 / √(2 * π) := by simp [vC, normalisedVega, sC_zero]

theorem vega_eq {x s : ℝ} (hs : |x| * sqrtMin < s) : normalisedVega x s = blackVega x s := by
  have hs0 : 0 < s := lt_of_le_of_lt (mul_nonneg (abs_nonneg x) sqrtMin_pos.le) hs
  by_cases hx : |x| ≤ 0
  · have hx0 : x = 0 := abs_nonpos_iff.1 hx
    simp only [normalisedVega, hx, if_true, blackVega, hx0]
    rw [one_div_mul_eq_div]; congr 2; norm_num; ring
  · have h1 : ¬ (s ≤ 0 ∨ s ≤ |x| * sqrtMin) := by push Not; exact ⟨hs0, hs⟩
    simp only [normalisedVega, hx, h1, if_false]
    rw [blackVega, one_div_mul_eq_div]; congr 2; norm_num; ring

theorem vega_nonneg (x s : ℝ) : 0 ≤ normalisedVega x s := by
  simp only [normalisedVega]; split_ifs <;> positivity

theorem vega_lt_one (x s : ℝ) : normalisedVega x s < 1 := by
  have h1 : 1 / √(2 * π) < 1 := by
    rw [div_lt_one sqrt_two_pi_pos, lt_sqrt (by norm_num)]
    linarith [Real.two_le_pi]
  simp only [normalisedVega]
  split_ifs
  · have : exp (-0.125 * s * s) ≤ 1 := exp_le_one_iff.2 (by nlinarith [mul_self_nonneg s])
    nlinarith [exp_pos (-0.125 * s * s)]
  · norm_num
  · have : exp (-0.5 * ((x / s) ^ 2 + (0.5 * s) ^ 2)) ≤ 1 := exp_le_one_iff.2 (by nlinarith [sq_nonneg (x / s), sq_nonneg (0.5 * s)])
    nlinarith [exp_pos (-0.5 * ((x / s) ^ 2 + (0.5 * s) ^ 2))]

theorem black_lt_max (x s : ℝ) : black x s < exp (x / 2) := by
  rw [black]
  have h1 := N_lt_one (x / s + s / 2)
  have h2 := N_pos (x / s - s / 2)
  have h3 := exp_pos (x / 2)
  have h4 := exp_pos (-x / 2)
  nlinarith [mul_pos h2 h4]

variable {x : ℝ}

theorem half_mul (x : ℝ) : (0.5:ℝ) * x = x / 2 := by norm_num; ring

theorem sC_min (hx : x < 0) (hb : -1500 ≤ x) : |x| * sqrtMin < sC x := by
  have h := sC_pos hx
  have h2 := sC_sq hx.le
  rw [abs_of_neg hx]
  have h3 : sqrtMin < 1e-100 := by norm_num [sqrtMin]
  have h4 : sC x ^ 2 ≤ 3000 := by rw [h2]; linarith
  have h5 : sC x ≤ 100 := by nlinarith
  have h6 : -x = sC x * sC x / 2 := by rw [← pow_two, h2]; ring
  rw [h6]
  nlinarith [sqrtMin_pos, mul_pos h h]

theorem vC_eq (hx : x < 0) (hb : -1500 ≤ x) : vC x = exp (x / 2) / √(2 * π) := by
  rw [vC, vega_eq (sC_min hx hb), blackVega]
  congr 2
  rw [div_pow, div_pow, sC_sq hx.le]
  field_simp; ring

theorem vC_pos (hx : x ≤ 0) (hb : -1500 ≤ x) : 0 < vC x := by
  rcases hx.lt_or_eq with h | h
  · rw [vC_eq h hb]; positivity
  · rw [h, vC_zero]; positivity

theorem bC_le (hx : x < 0) : bC x ≤ black x (sC x) := (call_accuracy x _ (sC_pos hx)).1

theorem bC_pos (hx : x < 0) : 0 < bC x := by
  have h := (call_accuracy x _ (sC_pos hx)).2
  have := black_pos x _ (sC_pos hx)
  exact lt_of_lt_of_le (by positivity) h

theorem bC_lt_max (hx : x ≤ 0) : bC x < exp (x / 2) := by
  rcases hx.lt_or_eq with h | h
  · exact (bC_le h).trans_lt (black_lt_max _ _)
  · rw [h, bC_zero]; positivity

theorem arg_zero (hx : x < 0) : x / sC x + sC x / 2 = 0 := by
  have h := sC_pos hx
  field_simp
  rw [sC_sq hx.le]; ring

/-- At the critical point `b_c < s_c v_c`. -/
theorem bC_lt (hx : x < 0) (hb : -1500 ≤ x) : bC x < sC x * vC x := by
  have h := sC_pos hx
  have h1 := bC_le hx
  rw [black_eq x _ h.ne', ← vega_eq (sC_min hx hb)] at h1
  have h2 := D_lt (x / sC x) (sC x / 2) (by positivity) (arg_zero hx).le
  have hv := vC_pos hx.le hb
  have : normalisedVega x (sC x) * D (x / sC x) (sC x / 2) < vC x * sC x := by
    rw [← vC]; exact mul_lt_mul_of_pos_left (by linarith) hv
  linarith

theorem sL_pos (hx : x < 0) (hb : -1500 ≤ x) : 0 < sL x := by
  rw [sL, sub_pos, div_lt_iff₀ (vC_pos hx.le hb)]
  exact bC_lt hx hb

theorem sL_lt (hx : x < 0) (hb : -1500 ≤ x) : sL x < sC x := by
  rw [sL]
  have := div_pos (bC_pos hx) (vC_pos hx.le hb)
  linarith

theorem bL_pos (hx : x < 0) (hb : -1500 ≤ x) : 0 < bL x := by
  have h := sL_pos hx hb
  have h2 := (call_accuracy x _ h).2
  have := black_pos x _ h
  exact lt_of_lt_of_le (by positivity) h2

theorem sU_gt (hx : x ≤ 0) (hv : epsilon < vC x) : sC x < sU x := by
  rw [sU, if_pos hv, half_mul]
  have := div_pos (sub_pos.2 (bC_lt_max hx)) (epsilon_pos.trans hv)
  linarith

theorem epsilon_lt_vC_zero : epsilon < vC 0 := by
  rw [vC_zero, lt_div_iff₀ sqrt_two_pi_pos]
  have h1 : √(2 * π) < 3 := by
    rw [sqrt_lt' (by norm_num)]; linarith [Real.pi_le_four]
  have h2 : epsilon < 1 / 3 := by norm_num [epsilon]
  nlinarith [epsilon_pos, sqrt_two_pi_pos]

theorem sU_pos (hx : x ≤ 0) : 0 < sU x := by
  rcases hx.lt_or_eq with h | h
  · by_cases hv : epsilon < vC x
    · exact (sC_pos h).trans (sU_gt hx hv)
    · rw [sU, if_neg hv]; exact sC_pos h
  · subst h
    have := sU_gt le_rfl epsilon_lt_vC_zero
    rwa [sC_zero] at this

theorem bU_le (hx : x ≤ 0) : bU x ≤ black x (sU x) := (call_accuracy x _ (sU_pos hx)).1

theorem bU_pos (hx : x ≤ 0) : 0 < bU x := by
  have h := sU_pos hx
  have h2 := (call_accuracy x _ h).2
  have := black_pos x _ h
  exact lt_of_lt_of_le (by positivity) h2

theorem bU_lt_max (hx : x ≤ 0) : bU x < exp (x / 2) := (bU_le hx).trans_lt (black_lt_max _ _)

theorem not_isZero_of_one_le {s : ℝ} (h : 1 ≤ s) : ¬ isZero s := by
  rw [isZero, abs_of_pos (by linarith), not_lt]
  refine le_trans ?_ h
  unfold minPositive
  exact zpow_le_one_of_nonpos₀ (by norm_num) (by norm_num)

/-! ### The four guesses -/

theorem upperMiddle_pos (hx : x ≤ 0) {beta : ℝ} (h0 : 0 < beta) (h1 : bC x ≤ beta) (h2 : beta ≤ bU x) :
    0 < upperMiddleGuess beta x := by
  have hsU := sU_pos hx
  have hsC : 0 ≤ sC x := sqrt_nonneg _
  by_cases heq : bC x = bU x
  · simp only [upperMiddleGuess, interpolation, heq, sub_self, abs_zero, le_refl, if_true]
    positivity
  · have hlt : bC x < bU x := lt_of_le_of_ne (h1.trans h2) heq
    have hv : epsilon < vC x := by
      by_contra hv
      exact heq (by rw [bU, sU, if_neg hv, bC])
    have hg := sU_gt hx hv
    have hvp := epsilon_pos.trans hv
    have hΔ : 1 ≤ (sU x - sC x) / (bU x - bC x) := by
      rw [le_div_iff₀ (by linarith), one_mul]
      have e : sU x - sC x = (exp (x / 2) - bC x) / vC x := by rw [sU, if_pos hv, half_mul]; ring
      rw [e, le_div_iff₀ hvp]
      have a1 := bU_lt_max hx
      have a2 : vC x < 1 := vega_lt_one _ _
      nlinarith
    have hvU := vega_nonneg x (sU x)
    have hr : (1 / vC x + 1 / normalisedVega x (sU x)) / ((sU x - sC x) / (bU x - bC x)) ≤
        convexControlLeft (bC x) (bU x) (sC x) (sU x) (1 / vC x) (1 / normalisedVega x (sU x)) 0 false := by
      refine le_max_of_le_right (minimumControl_ge _ _ ⟨?_, ?_⟩ (not_isZero_of_one_le hΔ)) <;> positivity
    exact (interp_range hlt hsC hg (by positivity) (by positivity) (Or.inl hr) beta h1 h2 (by
      rcases hx.lt_or_eq with h | h
      · exact Or.inl (sC_pos h)
      · right; subst h; rw [bC_zero]; exact h0)).1

theorem lowerMiddle_pos (hx : x < 0) (hb : -1500 ≤ x) {beta : ℝ} (h1 : bL x ≤ beta) (h2 : beta < bC x) :
    0 < lowerMiddleGuess beta x := by
  have hlt : bL x < bC x := h1.trans_lt h2
  have hvp := vC_pos hx.le hb
  have hΔ : 1 ≤ (sC x - sL x) / (bC x - bL x) := by
    rw [le_div_iff₀ (by linarith), one_mul]
    have e : sC x - sL x = bC x / vC x := by rw [sL]; ring
    rw [e, le_div_iff₀ hvp]
    have a1 := bL_pos hx hb
    have a2 : vC x < 1 := vega_lt_one _ _
    nlinarith
  have hvL := vega_nonneg x (sL x)
  have hr : (1 / normalisedVega x (sL x) + 1 / vC x) / ((sC x - sL x) / (bC x - bL x)) ≤
      convexControlRight (bL x) (bC x) (sL x) (sC x) (1 / normalisedVega x (sL x)) (1 / vC x) 0 false := by
    refine le_max_of_le_right (minimumControl_ge _ _ ⟨?_, ?_⟩ (not_isZero_of_one_le hΔ)) <;> positivity
  exact (interp_range hlt (sL_pos hx hb).le (sL_lt hx hb) (by positivity) (by positivity) (Or.inl hr) beta h1 h2.le
    (Or.inl (sL_pos hx hb))).1

theorem N_half {z : ℝ} (hz : 0 < z) : N (-z) < 1 / 2 := by
  rw [← N_zero]; exact N_mono (by linarith)

theorem inverseLower_pos (hx : x ≠ 0) {f s : ℝ} (hs : 0 < s) (h0 : 0 < f) (h1 : f ≤ (fLowerMap x s).1) :
    0 < inverseFLowerMap x f := by
  rw [inverseFLowerMap, if_neg (not_below _)]
  have hax := abs_pos.2 hx
  have hc : 0 < 2 * π / √27 * |x| := by positivity
  have hz : 0 < √(1 / 3) * |x| / s := by positivity
  have hN := N_pos (-(√(1 / 3) * |x| / s))
  have hp0 : 0 < (f / (2 * π / √27 * |x|)) ^ (1 / 3 : ℝ) := by positivity
  have hp1 : (f / (2 * π / √27 * |x|)) ^ (1 / 3 : ℝ) ≤ N (-(√(1 / 3) * |x| / s)) := by
    have h : f / (2 * π / √27 * |x|) ≤ N (-(√(1 / 3) * |x| / s)) ^ 3 := by
      rw [div_le_iff₀ hc, mul_comm, ← fLower_eq]; exact h1
    calc _ ≤ (N (-(√(1 / 3) * |x| / s)) ^ 3) ^ (1 / 3 : ℝ) := rpow_le_rpow (by positivity) h (by norm_num)
      _ = _ := by rw [← rpow_natCast, ← rpow_mul hN.le]; norm_num
  have hi := invN_neg _ hp0 (hp1.trans_lt (N_half hz))
  refine abs_pos.2 (div_ne_zero hx (mul_ne_zero (by positivity) hi.ne))

theorem lower_pos (hx : x < 0) (hb : -1500 ≤ x) {beta : ℝ} (h0 : 0 < beta) (h1 : beta < bL x) :
    0 < lowerGuess beta x := by
  have hsL := sL_pos hx hb
  have hbL := bL_pos hx hb
  have hax := abs_pos.2 hx.ne
  have hf : 0 < (fLowerMap x (sL x)).1 := by
    rw [fLower_eq]; have := N_pos (-(√(1 / 3) * |x| / sL x)); positivity
  have hfp : 0 ≤ (fLowerMap x (sL x)).2.1 := by rw [fLower1_eq]; positivity
  have hmono : 0 ≤ 1 * (((fLowerMap x (sL x)).1 - 0) / (bL x - 0)) ∧
      0 ≤ (fLowerMap x (sL x)).2.1 * (((fLowerMap x (sL x)).1 - 0) / (bL x - 0)) := by
    simp only [sub_zero]; constructor <;> positivity
  have hr : (1 + (fLowerMap x (sL x)).2.1) / (((fLowerMap x (sL x)).1 - 0) / (bL x - 0)) ≤
      convexControlRight 0 (bL x) 0 (fLowerMap x (sL x)).1 1 (fLowerMap x (sL x)).2.1 (fLowerMap x (sL x)).2.2 true ∨
      maxControl ≤ convexControlRight 0 (bL x) 0 (fLowerMap x (sL x)).1 1 (fLowerMap x (sL x)).2.1
        (fLowerMap x (sL x)).2.2 true := by
    by_cases hz : isZero (((fLowerMap x (sL x)).1 - 0) / (bL x - 0))
    · exact Or.inr (le_max_of_le_right (minimumControl_shape _ hmono hz))
    · exact Or.inl (le_max_of_le_right (minimumControl_ge _ _ hmono hz))
  obtain ⟨i1, i2⟩ := interp_range hbL le_rfl hf zero_le_one hfp hr beta h0.le h1.le (Or.inr h0)
  simp only [lowerGuess]
  rw [if_neg (not_le.2 i1)]
  exact inverseLower_pos hx.ne hsL i1 i2

theorem upper_pos (hx : x ≤ 0) {beta : ℝ} (h1 : bU x < beta) (h2 : beta < exp (x / 2)) : 0 < upperGuess beta x := by
  have hsU := sU_pos hx
  have hbU := bU_pos hx
  have hf : 0 < (fUpperMap x (sU x)).1 := by rw [fUpper_eq]; exact N_pos _
  have hf2 : (fUpperMap x (sU x)).1 < 1 / 2 := by rw [fUpper_eq]; exact N_half (by positivity)
  have hfp : (fUpperMap x (sU x)).2.1 ≤ 0 := by
    rw [fUpper1_eq]; have := exp_pos ((x / sU x) ^ 2 / 2); linarith
  have hlt : bU x < exp (x / 2) := h1.trans h2
  have hm1 : exp (x / 2) ≤ 1 := exp_le_one_iff.2 (by linarith)
  have hmono : 0 ≤ (fUpperMap x (sU x)).2.1 * ((0 - (fUpperMap x (sU x)).1) / (exp (x / 2) - bU x)) ∧
      0 ≤ -0.5 * ((0 - (fUpperMap x (sU x)).1) / (exp (x / 2) - bU x)) := by
    have : (0 - (fUpperMap x (sU x)).1) / (exp (x / 2) - bU x) ≤ 0 :=
      div_nonpos_of_nonpos_of_nonneg (by linarith) (by linarith)
    exact ⟨mul_nonneg_of_nonpos_of_nonpos hfp this, mul_nonneg_of_nonpos_of_nonpos (by norm_num) this⟩
  have hr : ((fUpperMap x (sU x)).2.1 + -0.5) / ((0 - (fUpperMap x (sU x)).1) / (exp (x / 2) - bU x)) ≤
      convexControlLeft (bU x) (exp (x / 2)) (fUpperMap x (sU x)).1 0 (fUpperMap x (sU x)).2.1 (-0.5)
        (fUpperMap x (sU x)).2.2 true ∨
      maxControl ≤ convexControlLeft (bU x) (exp (x / 2)) (fUpperMap x (sU x)).1 0 (fUpperMap x (sU x)).2.1 (-0.5)
        (fUpperMap x (sU x)).2.2 true := by
    by_cases hz : isZero ((0 - (fUpperMap x (sU x)).1) / (exp (x / 2) - bU x))
    · exact Or.inr (le_max_of_le_right (minimumControl_shape _ hmono hz))
    · exact Or.inl (le_max_of_le_right (minimumControl_ge _ _ hmono hz))
  obtain ⟨i1, i2⟩ := interp_range_dec hlt hf hfp (by norm_num) hr beta h1.le h2
  have key : ∀ f, 0 < f → f < 1 / 2 → 0 < inverseFUpperMap f := fun f a b => by
    have := invN_neg f a b
    rw [inverseFUpperMap]; linarith
  have t0 : 0 < (beta - bU x) / (exp (x / 2) - bU x) := div_pos (by linarith) (by linarith)
  have t1 : (beta - bU x) / (exp (x / 2) - bU x) < 1 := by rw [div_lt_one (by linarith)]; linarith
  have q : 0 < ((fUpperMap x (sU x)).1 * (1 - (beta - bU x) / (exp (x / 2) - bU x)) +
        0.5 * (exp (x / 2) - bU x) * ((beta - bU x) / (exp (x / 2) - bU x))) *
          (1 - (beta - bU x) / (exp (x / 2) - bU x)) ∧
      ((fUpperMap x (sU x)).1 * (1 - (beta - bU x) / (exp (x / 2) - bU x)) +
        0.5 * (exp (x / 2) - bU x) * ((beta - bU x) / (exp (x / 2) - bU x))) *
          (1 - (beta - bU x) / (exp (x / 2) - bU x)) < 1 / 2 := by
    have hh0 : 0 < exp (x / 2) - bU x := by linarith
    have hh1 : exp (x / 2) - bU x < 1 := by linarith
    generalize (beta - bU x) / (exp (x / 2) - bU x) = t at t0 t1
    generalize exp (x / 2) - bU x = h at hh0 hh1
    generalize (fUpperMap x (sU x)).1 = f at hf hf2
    have ho : 0 < 1 - t := by linarith
    have ha : 0 < f * (1 - t) + 0.5 * h * t := by positivity
    have hb : f * (1 - t) + 0.5 * h * t < 1 / 2 := by nlinarith
    exact ⟨mul_pos ha ho, by nlinarith⟩
  simp only [upperGuess, half_mul x]
  refine key _ ?_ ?_
  · split_ifs with a b b
    · exact q.1
    · exact i1
    · exact q.1
    · exact absurd (neg_nonpos.2 maxFinite_pos.le) b
  · split_ifs with a b b
    · exact q.2
    · linarith
    · exact q.2
    · exact absurd (neg_nonpos.2 maxFinite_pos.le) b

/-- The solver for out-of-the-money calls ends with a positive volatility or divides by zero. -/
theorem solveOtm_pos (hx : x ≤ 0) (hb : -1500 ≤ x) {beta : ℝ} (h0 : 0 < beta) (h1 : beta < exp (x / 2)) (k : ℕ) :
    (∃ v, 0 < v ∧ solveOtm beta x k = .finite v) ∨ solveOtm beta x k = .undefined := by
  have hsU := sU_pos hx
  have hneg : beta < bC x → x < 0 := fun h => by
    rcases hx.lt_or_eq with h' | h'
    · exact h'
    · rw [h', bC_zero] at h; linarith
  rw [solveOtm]
  split_ifs with c1 c2 c3 c4
  · exact run_pos k (lower_pos (hneg c1) hb h0 c2) minPositive_pos.le (sL_pos (hneg c1) hb)
  · exact run_pos k (lowerMiddle_pos (hneg c1) hb (not_lt.1 c2) c1) (sL_pos (hneg c1) hb).le (sC_pos (hneg c1))
  · exact run_pos k (upperMiddle_pos hx h0 (not_lt.1 c1) c3) (sqrt_nonneg _) hsU
  · exact run_pos k (upper_pos hx (not_le.1 c3) h1) hsU.le maxFinite_pos
  · exact run_pos k (upper_pos hx (not_le.1 c3) h1) hsU.le maxFinite_pos

end Verif.ImpliedVol
