import Verif.ImpliedVol.Order

/-! Helper lemmas: the solver in terms of the normalised time value. -/

namespace Verif.ImpliedVol

open Real Set Classical
open Verif.Options Verif.Options.Bsm Verif.Distributions

/-- The solver after the change to an out-of-the-money call. -/
noncomputable def core (beta x : ℝ) (k : ℕ) : Outcome :=
  if beta < 0 then .negInfinity
  else if beta ≤ 0 then .finite 0
  else if exp (x / 2) ≤ beta then .infinity
  else solveOtm beta x k

theorem unchecked_eq {beta x q : ℝ} (h : q * x ≤ 0) (k : ℕ) :
    unchecked beta x q k = core beta (if q < 0 then -x else x) k := by
  simp only [unchecked, not_lt.2 h, if_false, cutoff, half_mul, core]

theorem from_eq {P F K q : ℝ} (T : ℝ) (hq : q = 1 ∨ q = -1) (hF : 0 < F) (hK : 0 < K) :
    fromRationalGuess P F K T q =
      if P < max (q * (F - K)) 0 then .negInfinity
      else if (if q < 0 then K else F) ≤ P then .infinity
      else (core ((P - max (q * (F - K)) 0) / (√F * √K)) (-|log (F / K)|) maxIterations).scale (1 / √T) := by
  have hsub : (if q < 0 then K - F else F - K) = q * (F - K) := by
    rcases hq with rfl | rfl
    · norm_num
    · norm_num
  simp only [fromRationalGuess, hsub]
  by_cases h1 : P < max (q * (F - K)) 0
  · simp only [h1, if_true]
  by_cases h2 : (if q < 0 then K else F) ≤ P
  · simp only [h1, h2, if_true, if_false]
  simp only [h1, h2, if_false]
  push Not at h1
  congr 1
  have hlog : ∀ c : ℝ, c = 1 ∨ c = -1 → (0 < c * log (F / K) ↔ 0 < c * (F - K)) := by
    rintro c (rfl | rfl)
    · rw [one_mul, one_mul, log_pos_iff (by positivity), lt_div_iff₀ hK, one_mul, sub_pos]
    · rw [neg_one_mul, neg_one_mul, neg_pos, neg_pos, log_neg_iff (by positivity), div_lt_one hK, sub_neg]
  by_cases hp : 0 < q * log (F / K)
  · simp only [hp, if_true]
    rw [max_eq_left (by linarith : 0 ≤ P - max (q * (F - K)) 0), unchecked_eq (by linarith)]
    congr 1
    rcases hq with rfl | rfl
    · rw [abs_of_pos (by linarith)]; norm_num
    · rw [abs_of_neg (by linarith)]; norm_num
  · simp only [hp, if_false]
    have h0 : q * (F - K) ≤ 0 := by rw [hlog q hq] at hp; linarith
    rw [max_eq_right h0, sub_zero, unchecked_eq (by linarith)]
    congr 1
    push Not at hp
    rcases hq with rfl | rfl
    · rw [abs_of_nonpos (by linarith)]; norm_num
    · rw [abs_of_nonneg (by linarith)]; norm_num

/-- The largest normalised time value. -/
theorem exp_min {F K : ℝ} (hF : 0 < F) (hK : 0 < K) : exp (-|log (F / K)| / 2) = min F K / (√F * √K) := by
  have hF' := sqrt_pos.2 hF
  have hK' := sqrt_pos.2 hK
  have key : ∀ A B : ℝ, 0 < A → 0 < B → exp (log (A / B) / 2) = √A / √B := fun A B hA hB => by
    rw [← sqrt_div hA.le, ← log_sqrt (by positivity), exp_log (sqrt_pos.2 (by positivity))]
  rcases le_total F K with h | h
  · rw [min_eq_left h, abs_of_nonpos (log_nonpos (by positivity) ((div_le_one hK).2 h)), neg_neg, key F K hF hK]
    field_simp; rw [sq_sqrt hF.le]
  · rw [min_eq_right h, abs_of_nonneg (log_nonneg ((one_le_div hK).2 h)), ← log_inv, inv_div, key K F hK hF]
    field_simp; rw [sq_sqrt hK.le]

theorem max_minus {F K q : ℝ} (hq : q = 1 ∨ q = -1) : (if q < 0 then K else F) - max (q * (F - K)) 0 = min F K := by
  rcases hq with rfl | rfl
  · rcases le_total F K with h | h
    · rw [max_eq_right (by linarith), min_eq_left h]; norm_num
    · rw [max_eq_left (by linarith), min_eq_right h]; norm_num
  · rcases le_total F K with h | h
    · rw [max_eq_left (by linarith), min_eq_left h]; norm_num
    · rw [max_eq_right (by linarith), min_eq_right h]; norm_num

/-- The four cases of the solver. -/
theorem from_cases {P F K T q : ℝ} (hq : q = 1 ∨ q = -1) (hF : 0 < F) (hK : 0 < K) (hT : 0 < T)
    (hx : |log (F / K)| ≤ 1500) :
    (P < max (q * (F - K)) 0 ∧ fromRationalGuess P F K T q = .negInfinity) ∨
    ((if q < 0 then K else F) ≤ P ∧ fromRationalGuess P F K T q = .infinity) ∨
    (P = max (q * (F - K)) 0 ∧ fromRationalGuess P F K T q = .finite 0) ∨
    ((max (q * (F - K)) 0 < P ∧ P < (if q < 0 then K else F)) ∧
      ((∃ v, 0 < v ∧ fromRationalGuess P F K T q = .finite v) ∨ fromRationalGuess P F K T q = .undefined)) := by
  rw [from_eq T hq hF hK]
  have hmm := max_minus (F := F) (K := K) hq
  have hF' := sqrt_pos.2 hF
  have hK' := sqrt_pos.2 hK
  have hd : 0 < √F * √K := mul_pos hF' hK'
  by_cases h1 : P < max (q * (F - K)) 0
  · exact Or.inl ⟨h1, if_pos h1⟩
  by_cases h2 : (if q < 0 then K else F) ≤ P
  · exact Or.inr (Or.inl ⟨h2, by simp only [h1, h2, if_true, if_false]⟩)
  refine Or.inr (Or.inr ?_)
  simp only [h1, h2, if_false]
  push Not at h1 h2
  rcases h1.lt_or_eq with h | h
  · right
    refine ⟨⟨h, h2⟩, ?_⟩
    have b0 : 0 < (P - max (q * (F - K)) 0) / (√F * √K) := div_pos (by linarith) hd
    have b1 : (P - max (q * (F - K)) 0) / (√F * √K) < exp (-|log (F / K)| / 2) := by
      rw [exp_min hF hK, ← hmm]
      exact div_lt_div_of_pos_right (by linarith) hd
    have c0 := not_lt.2 b0.le
    have c1 := not_le.2 b0
    have c2 := not_le.2 b1
    simp only [core, c0, c1, c2, if_false]
    rcases solveOtm_pos (x := -|log (F / K)|) (neg_nonpos.2 (abs_nonneg _)) (by linarith) b0 b1 maxIterations with
      ⟨v, hv, e⟩ | e
    · left
      rw [e]
      exact ⟨1 / √T * v, by have := sqrt_pos.2 hT; positivity, rfl⟩
    · right; rw [e]; rfl
  · left
    refine ⟨h.symm, ?_⟩
    rw [← h, sub_self, zero_div]
    simp [core, Outcome.scale]

/-! ### Exact guesses -/

theorem map_zero_factor (h k : ℝ) : (householderFactor 0 h k).map (0 * ·) = some 0 := by
  simp [householderFactor, householderDen]

theorem lowerStep_zero {beta x v s : ℝ} (hb : 0 < beta) (h1 : beta < 1) (hv : 0 < v) (hs : 0 < s) (sl sr : ℝ) :
    lowerStep beta x beta v s sl sr = some 0 := by
  have c1 : ¬ (beta ≤ 0 ∨ v ≤ 0) := by push Not; exact ⟨hb, hv⟩
  have hl := (log_neg hb h1).ne
  have c2 : ¬ (log beta = 0 ∨ log beta = 0 ∨ s = 0) := by push Not; exact ⟨hl, hl, hs.ne'⟩
  simp only [lowerStep, c1, c2, if_false, sub_self, zero_mul, zero_div]
  simp [householderFactor, householderDen]

theorem upperStep_zero {beta x v s bMax : ℝ} (hb : beta < bMax) (hv : epsilon < v) (hs : 0 < s) (sl sr : ℝ) :
    upperStep beta bMax x beta v s sl sr = some 0 := by
  have c1 : ¬ (bMax ≤ beta ∨ v ≤ epsilon) := by push Not; exact ⟨hb, hv⟩
  have e : (bMax - beta) / (bMax - beta) = 1 := div_self (by linarith)
  simp only [upperStep, c1, hs.ne', if_false, e, log_one, neg_zero, zero_div]
  simp [householderFactor, householderDen]

theorem middleStep_zero {beta x v s : ℝ} (hv : 0 < v) (hs : 0 < s) (sl sr : ℝ) :
    middleStep beta x beta v s sl sr = some 0 := by
  have c : ¬ (v = 0 ∨ s = 0) := by push Not; exact ⟨hv.ne', hs.ne'⟩
  simp only [middleStep, c, if_false, sub_self, zero_div]
  simp [householderFactor, householderDen]

/-- An exact guess is returned. -/
theorem run_exact {step : ℝ → ℝ → ℝ → ℝ → ℝ → Option ℝ} {beta x s : ℝ} (hs : 0 < s)
    (hstep : ∀ sl sr, step beta (normalisedVega x s) s sl sr = some 0) (hb : normalisedBlackCall x s = beta)
    (k : ℕ) (sl sr : ℝ) : run step beta x k (start s sl sr) = .finite s := by
  have hit : iterate step beta x k (start s sl sr) = some s := by
    cases k with
    | zero => rfl
    | succ k =>
      rw [iterate]
      have key : ∀ st : State, st.s = s → st.sLeft = sl → st.sRight = sr →
          ∃ st', body step beta x st = some st' ∧ st'.s = s ∧ st'.ds = 0 := fun st h1 h2 h3 => by
        simp only [body, h1, hb, hstep]
        refine ⟨_, rfl, ?_, ?_⟩
        · simp only [max_eq_left (by norm_num; linarith : -0.5 * s ≤ 0), add_zero]
        · simp only [max_eq_left (by norm_num; linarith : -0.5 * s ≤ 0)]
      by_cases c : epsilon * s < maxFinite
      · simp only [start, abs_neg, abs_of_pos maxFinite_pos, c, if_true, lt_irrefl, false_and, if_false, mul_zero]
        obtain ⟨st', e, e1, e2⟩ := key (State.mk 0 0 s (-maxFinite) 0 sl sr) rfl rfl rfl
        rw [e, Option.bind_some]
        cases k with
        | zero => rw [iterate, e1]
        | succ k =>
          rw [iterate, if_neg (by rw [e1, e2, abs_zero, not_lt]; exact (mul_pos epsilon_pos hs).le), e1]
      · simp only [start, abs_neg, abs_of_pos maxFinite_pos, c, if_false]
  rw [run, hit]

theorem black_strictMono (x : ℝ) : StrictMonoOn (black x) (Ioi 0) := by
  refine strictMonoOn_of_deriv_pos (convex_Ioi 0)
    (fun s hs => (black_deriv x s (ne_of_gt hs)).continuousAt.continuousWithinAt) fun s hs => ?_
  rw [interior_Ioi] at hs
  rw [(black_deriv x s (ne_of_gt hs)).deriv]; exact blackVega_pos x s

/-- Above the critical point, outside the small-volatility region, the computed price is the price. -/
theorem exact_above {x s : ℝ} (hx : x ≤ 0) (h1 : sC x ≤ s) (h2 : 2 * tau ≤ s) : normalisedBlackCall x s = black x s := by
  have ht : 0 < tau := by rw [tau_val]; norm_num
  have hs : 0 < s := by linarith
  rw [normalisedBlackCall, if_neg (not_lt.2 hx)]
  rcases otm_accuracy x s hx hs with ⟨-, h, -⟩ | ⟨h, -⟩ | ⟨-, h⟩
  · exfalso
    have h3 : sC x ^ 2 ≤ s ^ 2 := pow_le_pow_left₀ (sqrt_nonneg _) h1 2
    rw [sC_sq hx] at h3
    have h4 : -(s / 2) ≤ x / s := by rw [le_div_iff₀ hs]; nlinarith
    rw [tau_val] at h; linarith
  · linarith
  · exact h

/-- The critical volatility is recovered exactly. -/
theorem solve_critical {x : ℝ} (hx : x < 0) (hb : -1500 ≤ x) (h : 2 * tau ≤ sC x) (k : ℕ) :
    solveOtm (black x (sC x)) x k = .finite (sC x) := by
  have hs := sC_pos hx
  have hbc : bC x = black x (sC x) := exact_above hx.le le_rfl h
  have hguess : upperMiddleGuess (bC x) x = sC x ∧ bC x ≤ bU x := by
    by_cases hv : epsilon < vC x
    · have hg := sU_gt hx.le hv
      have hbu : bU x = black x (sU x) := exact_above hx.le hg.le (by linarith)
      have hlt : bC x < bU x := by
        rw [hbu, hbc]; exact black_strictMono x hs (hs.trans hg) hg
      exact ⟨value_left hlt, hlt.le⟩
    · have e1 : sU x = sC x := by rw [sU, if_neg hv]
      have e2 : bU x = bC x := by rw [bU, e1, bC]
      refine ⟨?_, e2.ge⟩
      simp only [upperMiddleGuess, interpolation, e1, e2, sub_self, abs_zero, le_refl, if_true]
      norm_num; ring
  rw [← hbc, solveOtm, if_neg (lt_irrefl _), if_pos hguess.2, hguess.1]
  exact run_exact hs (fun sl sr => middleStep_zero (vC_pos hx.le hb) hs sl sr) rfl k _ _

/-! ### The denominators of the guesses -/

theorem M0_mono : Monotone (M 0) := monotone_of_deriv_nonneg (fun z => (M0_deriv z).differentiableAt)
  fun z => by rw [(M0_deriv z).deriv]; exact (M_pos 1 z).le

theorem M0_lower {z : ℝ} (h : -100 ≤ z) : 1 / 200 < M 0 z := by
  refine lt_of_lt_of_le ?_ (M0_mono h)
  have h2 := M_pos 2 (-100)
  rw [M_rec 0, M_zero_rec] at h2
  push_cast at h2
  linarith

theorem D_gap {t : ℝ} (ht : 0 < t) : 2 * t ^ 2 * M 0 (-t - t) ≤ 2 * t - D (-t) t := by
  have hd : ∀ z, HasDerivAt (fun z => z - M 0 z + z ^ 2 / 2 * M 0 (-t - t)) (1 - M 1 z + z * M 0 (-t - t)) z := fun z => by
    refine (((hasDerivAt_id z).fun_sub (M0_deriv z)).fun_add ((((hasDerivAt_id z).fun_pow 2).div_const 2).mul_const _)).congr_deriv ?_
    simp only [id]; push_cast; ring
  have hm : MonotoneOn (fun z => z - M 0 z + z ^ 2 / 2 * M 0 (-t - t)) (Icc (-t - t) 0) := by
    refine monotoneOn_of_deriv_nonneg (convex_Icc _ _) (fun z _ => (hd z).continuousAt.continuousWithinAt)
      (fun z _ => (hd z).differentiableAt.differentiableWithinAt) fun z hz => ?_
    rw [interior_Icc] at hz
    rw [(hd z).deriv, M_zero_rec]
    have := M0_mono hz.1.le
    nlinarith [hz.2]
  have := hm (left_mem_Icc.2 (by linarith)) (right_mem_Icc.2 (by linarith)) (by linarith)
  simp only at this
  rw [D, neg_add_cancel]
  nlinarith

theorem sL_min {x : ℝ} (hx : x < 0) (hb : -1500 ≤ x) : |x| * sqrtMin < sL x := by
  have h := sC_pos hx
  have hsq := sC_sq hx.le
  have hv := vC_pos hx.le hb
  have h1 := bC_le hx
  rw [black_eq x _ h.ne', ← vega_eq (sC_min hx hb)] at h1
  have e : x / sC x = -(sC x / 2) := by have := arg_zero hx; linarith
  rw [e] at h1
  have h2 := D_gap (t := sC x / 2) (by positivity)
  have h5 : sC x ≤ 100 := by nlinarith
  have h6 := M0_lower (z := -(sC x / 2) - sC x / 2) (by linarith)
  have h7 : bC x / vC x ≤ D (-(sC x / 2)) (sC x / 2) := by
    rw [div_le_iff₀ hv, mul_comm]; exact h1
  have h8 : 2 * (sC x / 2) ^ 2 = -x := by rw [div_pow, hsq]; ring
  rw [h8] at h2
  rw [abs_of_neg hx, sL]
  have h9 : sqrtMin < 1 / 200 := by norm_num [sqrtMin]
  nlinarith

end Verif.ImpliedVol
