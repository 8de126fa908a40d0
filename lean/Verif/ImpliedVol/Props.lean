import Verif.ImpliedVol.Spec
import Verif.ImpliedVol.Solver
import Verif.ImpliedVol.Interp
import Verif.ImpliedVol.Maps

/-!
# C78: implied volatility

The specification is in `Spec.lean`: the normalised Black price and vega, the two arbitrage bounds and the Black-Scholes price.
-/

namespace Verif.ImpliedVol

open Real Set Filter Topology Classical
open Verif.Options Verif.Options.Bsm

/-! ## The computed price and its derivatives -/

/-- The price used inside the solver is never above the normalised Black price and below it by at most a relative
`2 · 10⁻¹⁴`; it is exact when the total volatility is at least 0.4205 and the option is less than ten standard deviations out
of the money. -/
theorem C78_price_accuracy (x s : ℝ) (hs : 0 < s) :
    (normalisedBlackCall x s ≤ black x s ∧ (1 - 2e-14) * black x s ≤ normalisedBlackCall x s) ∧
      (x ≤ 0 → 0.4205 ≤ s → -10 * s ≤ x → normalisedBlackCall x s = black x s) := by
  refine ⟨call_accuracy x s hs, fun hx h1 h2 => ?_⟩
  rw [normalisedBlackCall, if_neg (not_lt.2 hx)]
  rcases otm_accuracy x s hx hs with ⟨h, -⟩ | ⟨h, -⟩ | ⟨-, h⟩
  · linarith
  · rw [tau_val] at h; linarith
  · exact h

example := C78_price_accuracy (-1) 0.5 (by norm_num)

/-- The vega used inside the solver is the derivative of the normalised Black price, which is positive, and the two ratios
used by the steps of the lowest and highest segments are those of its second and third derivative to the first. -/
theorem C78_derivatives (x s : ℝ) (hs : |x| * sqrtMin < s) :
    HasDerivAt (black x) (normalisedVega x s) s ∧ 0 < normalisedVega x s ∧
      HasDerivAt (blackVega x) (((x / s) ^ 2 / s - s / 4) * normalisedVega x s) s ∧
      HasDerivAt (fun s => ((x / s) ^ 2 / s - s / 4) * blackVega x s)
        ((((x / s) ^ 2 / s - s / 4) * ((x / s) ^ 2 / s - s / 4) - 3 * (x / (s * s)) ^ 2 - 0.25) * normalisedVega x s) s := by
  have h0 : 0 < s := lt_of_le_of_lt (mul_nonneg (abs_nonneg x) sqrtMin_pos.le) hs
  have e : ∀ s : ℝ, s ≠ 0 → (x / s) ^ 2 / s - s / 4 = ratio2 x s := fun s h => by rw [ratio2]; field_simp
  rw [vega_eq hs]
  refine ⟨black_deriv x s h0.ne', blackVega_pos x s, ?_, ?_⟩
  · rw [e s h0.ne', mul_comm]; exact vega_deriv x s h0.ne'
  · have h := vega_deriv2 x s h0.ne'
    have h3 : (ratio2 x s * ratio2 x s - 3 * (x / (s * s)) ^ 2 - 0.25) * blackVega x s = blackVega x s * ratio3 x s := by
      rw [ratio3]; field_simp; norm_num; ring
    rw [e s h0.ne', h3]
    refine h.congr_of_eventuallyEq ?_
    filter_upwards [lt_mem_nhds h0] with u hu
    rw [e u (ne_of_gt hu), mul_comm]

example := C78_derivatives (-1) 0.5 (by norm_num [sqrtMin])

/-- The price of an option without dividends, undiscounted, less its intrinsic value and divided by the geometric mean of
forward and strike, is the normalised Black price of an out-of-the-money call. -/
theorem C78_normalised_price (S K T r σ : ℝ) (hS : 0 < S) (hK : 0 < K) (hT : 0 < T) (hσ : 0 < σ) (flag : TypeFlag) :
    (optionPrice S K T r σ flag - lowerBound S K T r flag) * exp (r * T) / (√(S * exp (r * T)) * √K) =
      black (-|log (S * exp (r * T) / K)|) (σ * √T) := by
  set E := exp (r * T) with hE
  have hE0 : 0 < E := exp_pos _
  have hF : 0 < S * E := by positivity
  have hF' := sqrt_pos.2 hF
  have hK' := sqrt_pos.2 hK
  have hT' := sqrt_pos.2 hT
  set x := log (S * E / K) with hx
  have hsq : √T * √T = T := mul_self_sqrt hT.le
  have hxl : x = log (S / K) + r * T := by
    rw [hx, show S * E / K = S / K * E by ring, log_mul (by positivity) hE0.ne', hE, log_exp]
  have hd1 : d1 S K T r σ = x / (σ * √T) + σ * √T / 2 := by
    rw [d1, hxl]; field_simp; norm_num; rw [sq_sqrt hT.le]; ring
  have hd2 : d2 S K T r σ = x / (σ * √T) - σ * √T / 2 := by rw [d2, hd1]; ring
  have hex : ∀ A B : ℝ, 0 < A → 0 < B → √A * √B * exp (log (A / B) / 2) = A := fun A B hA hB => by
    have := sqrt_pos.2 hB
    rw [← log_sqrt (by positivity), exp_log (sqrt_pos.2 (by positivity)), sqrt_div hA.le]
    field_simp; exact sq_sqrt hA.le
  have e1 : √(S * E) * √K * exp (x / 2) = S * E := hex _ _ hF hK
  have e2 : √(S * E) * √K * exp (-x / 2) = K := by
    have := hex K (S * E) hK hF
    rw [← inv_div (S * E) K, log_inv, mul_comm (√K)] at this
    exact this
  have hdisc : exp (-(r * T)) * E = 1 := by rw [hE, ← exp_add]; simp
  have hdisc' : exp (-r * T) * E = 1 := by rw [← hdisc]; ring_nf
  have hcall : callPrice S K T r r σ * E = √(S * E) * √K * black x (σ * √T) := by
    rw [callPrice, hd1, hd2, black]
    simp only [sub_self, zero_mul, exp_zero, mul_one]
    linear_combination (-K * N (x / (σ * √T) - σ * √T / 2)) * hdisc' - N (x / (σ * √T) + σ * √T / 2) * e1 +
      N (x / (σ * √T) - σ * √T / 2) * e2
  have hput : putPrice S K T r r σ * E = callPrice S K T r r σ * E - S * E + K := by
    have h1 := N_neg (d1 S K T r σ)
    have h2 := N_neg (d2 S K T r σ)
    rw [putPrice, callPrice, h1, h2]
    simp only [sub_self, zero_mul, exp_zero, mul_one]
    linear_combination (K) * hdisc'
  have hpar := black_parity x (σ * √T)
  have hmaxE : ∀ a : ℝ, max a 0 * E = max (a * E) 0 := fun a => by rw [max_mul_of_nonneg _ _ hE0.le, zero_mul]
  have hlogle : S * E ≤ K ↔ x ≤ 0 := by
    rw [hx, log_nonpos_iff (by positivity), div_le_one hK]
  rw [div_eq_iff (by positivity), sub_mul]
  cases flag with
  | call =>
    simp only [optionPrice, lowerBound]
    rw [hmaxE, show (S - K * exp (-(r * T))) * E = S * E - K by linear_combination (-K) * hdisc, hcall]
    rcases le_total (S * E) K with h | h
    · rw [max_eq_right (by linarith), abs_of_nonpos (hlogle.1 h), neg_neg]; ring
    · rw [max_eq_left (by linarith), abs_of_nonneg (log_nonneg ((one_le_div hK).2 h)), hpar]
      linear_combination e1 - e2
  | put =>
    simp only [optionPrice, lowerBound]
    rw [hmaxE, show (K * exp (-(r * T)) - S) * E = K - S * E by linear_combination K * hdisc, hput, hcall]
    rcases le_total (S * E) K with h | h
    · rw [max_eq_left (by linarith), abs_of_nonpos (hlogle.1 h), neg_neg]; ring
    · rw [max_eq_right (by linarith), abs_of_nonneg (log_nonneg ((one_le_div hK).2 h)), hpar]
      linear_combination e1 - e2

example := C78_normalised_price 100 120 2 0.05 0.3 (by norm_num) (by norm_num) (by norm_num) (by norm_num) .put

/-! ## The outcomes -/

/-- The sign of an option type. -/
def sign : TypeFlag → ℝ
  | .call => 1
  | .put => -1

theorem sign_cases (flag : TypeFlag) : sign flag = 1 ∨ sign flag = -1 := by cases flag <;> simp [sign]

theorem iv_eq (price S K T r : ℝ) (flag : TypeFlag) : impliedVolatility price S K T r flag =
    fromRationalGuess (price * exp (r * T)) (S * exp (r * T)) K T (sign flag) := by cases flag <;> rfl

theorem undiscount (S K T r : ℝ) (flag : TypeFlag) :
    max (sign flag * (S * exp (r * T) - K)) 0 = lowerBound S K T r flag * exp (r * T) ∧
      (if sign flag < 0 then K else S * exp (r * T)) =
        upperBound S K T r flag * exp (r * T) := by
  have h : exp (-(r * T)) * exp (r * T) = 1 := by rw [← exp_add]; simp
  have hm : ∀ a : ℝ, max a 0 * exp (r * T) = max (a * exp (r * T)) 0 := fun a => by
    rw [max_mul_of_nonneg _ _ (exp_pos _).le, zero_mul]
  cases flag with
  | call =>
    simp only [lowerBound, upperBound, hm, sign]
    refine ⟨?_, by norm_num⟩
    congr 1; linear_combination (K) * h
  | put =>
    simp only [lowerBound, upperBound, hm, sign]
    refine ⟨?_, ?_⟩
    · congr 1; linear_combination (-K) * h
    · norm_num; linear_combination (-K) * h

/-- The outcome of the solver is decided by the arbitrage bounds: `-∞` below the discounted intrinsic value, `+∞` at or above
the upper bound, zero at the intrinsic value, and in between a positive volatility unless an iteration divides by zero.
(The logarithm of a quotient of two `f64` is below 1500.) -/
theorem C78_classification (price S K T r : ℝ) (flag : TypeFlag) (hS : 0 < S) (hK : 0 < K) (hT : 0 < T)
    (hx : |log (S * exp (r * T) / K)| ≤ 1500) :
    (impliedVolatility price S K T r flag = .negInfinity ↔ price < lowerBound S K T r flag) ∧
    (impliedVolatility price S K T r flag = .infinity ↔ upperBound S K T r flag ≤ price) ∧
    (impliedVolatility price S K T r flag = .finite 0 ↔ price = lowerBound S K T r flag) ∧
    (lowerBound S K T r flag < price ∧ price < upperBound S K T r flag ↔
      (∃ σ, 0 < σ ∧ impliedVolatility price S K T r flag = .finite σ) ∨ impliedVolatility price S K T r flag = .undefined) := by
  have hE := exp_pos (r * T)
  have hF : 0 < S * exp (r * T) := by positivity
  obtain ⟨u1, u2⟩ := undiscount S K T r flag
  have hb : lowerBound S K T r flag < upperBound S K T r flag := by
    have := max_minus (F := S * exp (r * T)) (K := K) (sign_cases flag)
    rw [u1, u2] at this
    have h0 : 0 < min (S * exp (r * T)) K := lt_min hF hK
    by_contra hc
    push Not at hc
    nlinarith
  have h := from_cases (P := price * exp (r * T)) (sign_cases flag) hF hK hT hx
  rw [u1, u2, mul_lt_mul_iff_left₀ hE, mul_le_mul_iff_left₀ hE, mul_lt_mul_iff_left₀ hE, mul_lt_mul_iff_left₀ hE,
    mul_left_inj' hE.ne'] at h
  rw [iv_eq]
  generalize fromRationalGuess (price * exp (r * T)) (S * exp (r * T)) K T _ = o at h ⊢
  rcases h with ⟨a, rfl⟩ | ⟨a, rfl⟩ | ⟨a, rfl⟩ | ⟨⟨a, b⟩, ⟨v, hv, rfl⟩ | rfl⟩
  · simp only [reduceCtorEq, true_iff, false_iff, iff_false, and_false, exists_const, or_false, not_and, not_lt, not_le]
    exact ⟨a, by linarith, a.ne, fun _ => by linarith⟩
  · simp only [reduceCtorEq, true_iff, false_iff, iff_false, and_false, exists_const, or_false, not_and, not_lt, not_le]
    exact ⟨by linarith, a, (hb.trans_le a).ne', fun _ => a⟩
  · subst a
    simp only [reduceCtorEq, true_iff, false_iff, Outcome.finite.injEq, or_false, not_lt, not_le, lt_irrefl, false_and]
    exact ⟨trivial, hb, trivial, fun ⟨σ, h1, h2⟩ => by linarith⟩
  · simp only [reduceCtorEq, true_iff, false_iff, Outcome.finite.injEq, or_false, not_lt, not_le, a, b, true_and, and_self]
    exact ⟨a.le, iff_of_false hv.ne' a.ne', v, hv, rfl⟩
  · simp only [reduceCtorEq, true_iff, false_iff, or_true, not_lt, not_le, a, b, and_self, and_true]
    exact ⟨a.le, trivial, a.ne'⟩

/-- Non-vacuity: a call on an asset at 100 with strike 100 and price 7. -/
example : lowerBound 100 100 1 0 .call < 7 ∧ 7 < upperBound 100 100 1 0 .call ∧ |log (100 * exp (0 * 1) / 100 : ℝ)| ≤ 1500 := by
  norm_num [lowerBound, upperBound]

/-! ## Invariances -/

/-- The implied volatility does not depend on the unit of money. -/
theorem C78_homogeneous (c price S K T r : ℝ) (flag : TypeFlag) (hc : 0 < c) (hS : 0 < S) (hK : 0 < K) :
    impliedVolatility (c * price) (c * S) (c * K) T r flag = impliedVolatility price S K T r flag := by
  have hE := exp_pos (r * T)
  have hF : 0 < S * exp (r * T) := by positivity
  have hcc : √c * √c = c := mul_self_sqrt hc.le
  have hc' := sqrt_pos.2 hc
  have hq := sign_cases flag
  simp only [iv_eq]
  generalize sign flag = q at hq ⊢
  rw [mul_assoc, mul_assoc]
  generalize price * exp (r * T) = P
  generalize S * exp (r * T) = F at hF ⊢
  have hmax : max (q * (c * F - c * K)) 0 = c * max (q * (F - K)) 0 := by
    rw [mul_max_of_nonneg _ _ hc.le, mul_zero]; congr 1; ring
  have hif : (if q < 0 then c * K else c * F) = c * (if q < 0 then K else F) := by split_ifs <;> rfl
  have hF' := sqrt_pos.2 hF
  have hK' := sqrt_pos.2 hK
  rw [from_eq T hq (mul_pos hc hF) (mul_pos hc hK), from_eq T hq hF hK, hmax, hif, mul_div_mul_left F K hc.ne', ← mul_sub, sqrt_mul hc.le,
    sqrt_mul hc.le, show √c * √F * (√c * √K) = c * (√F * √K) by rw [mul_mul_mul_comm, hcc], mul_div_mul_left _ _ hc.ne']
  simp only [mul_lt_mul_iff_right₀ hc, mul_le_mul_iff_right₀ hc]

example := C78_homogeneous 1000 7 100 120 2 0.05 .call (by norm_num) (by norm_num) (by norm_num)

/-- A call and a put whose prices obey put-call parity have the same implied volatility. -/
theorem C78_put_call_parity (price S K T r : ℝ) (hS : 0 < S) (hK : 0 < K) :
    impliedVolatility (price - S + K * exp (-(r * T))) S K T r .put = impliedVolatility price S K T r .call := by
  have hE := exp_pos (r * T)
  have hF : 0 < S * exp (r * T) := by positivity
  have hdisc : exp (-(r * T)) * exp (r * T) = 1 := by rw [← exp_add]; simp
  have hP : (price - S + K * exp (-(r * T))) * exp (r * T) = price * exp (r * T) - S * exp (r * T) + K := by
    linear_combination K * hdisc
  simp only [iv_eq, sign]
  rw [hP]
  generalize price * exp (r * T) = P
  generalize S * exp (r * T) = F at hF ⊢
  rw [from_eq T (Or.inr rfl) hF hK, from_eq T (Or.inl rfl) hF hK]
  have hm : max (-1 * (F - K)) 0 = max (1 * (F - K)) 0 - F + K := by
    rcases le_total F K with h | h
    · rw [max_eq_left (by linarith), max_eq_right (by linarith)]; ring
    · rw [max_eq_right (by linarith), max_eq_left (by linarith)]; ring
  rw [hm]
  have c1 : (P - F + K < max (1 * (F - K)) 0 - F + K) ↔ P < max (1 * (F - K)) 0 := by constructor <;> intro h <;> linarith
  have c2 : ((if (-1:ℝ) < 0 then K else F) ≤ P - F + K) ↔ (if (1:ℝ) < 0 then K else F) ≤ P := by
    norm_num
  have c3 : P - F + K - (max (1 * (F - K)) 0 - F + K) = P - max (1 * (F - K)) 0 := by ring
  simp only [c1, c2, c3]

example := C78_put_call_parity 7 100 120 2 0.05 (by norm_num) (by norm_num)

/-- Exchanging the asset and the discounted strike exchanges calls and puts. -/
theorem C78_exchange (price S K T r : ℝ) (hS : 0 < S) (hK : 0 < K) :
    impliedVolatility price (K * exp (-(r * T))) (S * exp (r * T)) T r .put = impliedVolatility price S K T r .call := by
  have hE := exp_pos (r * T)
  have hF : 0 < S * exp (r * T) := by positivity
  have hdisc : K * exp (-(r * T)) * exp (r * T) = K := by rw [mul_assoc, ← exp_add]; simp
  simp only [iv_eq, sign]
  rw [hdisc, from_eq T (Or.inr rfl) hK hF, from_eq T (Or.inl rfl) hF hK]
  have h1 : -1 * (K - S * exp (r * T)) = 1 * (S * exp (r * T) - K) := by ring
  have h2 : (if (-1:ℝ) < 0 then S * exp (r * T) else K) = if (1:ℝ) < 0 then K else S * exp (r * T) := by norm_num
  have h3 : |log (K / (S * exp (r * T)))| = |log (S * exp (r * T) / K)| := by rw [← inv_div, log_inv, abs_neg]
  rw [h1, h2, h3, mul_comm (√K)]

example := C78_exchange 7 100 120 2 0.05 (by norm_num) (by norm_num)

/-- Only the total volatility matters: with `c` times the time and the rate divided by `c` the volatility is divided by
`√c`. -/
theorem C78_time_scaling (c price S K T r : ℝ) (flag : TypeFlag) (hc : 0 < c) :
    impliedVolatility price S K (c * T) (r / c) flag = (impliedVolatility price S K T r flag).scale (1 / √c) := by
  have e : r / c * (c * T) = r * T := by field_simp
  have hscale : ∀ (a b : ℝ) (o : Outcome), (o.scale a).scale b = o.scale (b * a) := fun a b o => by
    cases o <;> simp [Outcome.scale, mul_assoc]
  simp only [iv_eq, e]
  simp only [fromRationalGuess]
  rw [sqrt_mul hc.le]
  by_cases h1 : price * exp (r * T) < max (if sign flag < 0 then K - S * exp (r * T)
      else S * exp (r * T) - K) 0
  · simp only [h1, if_true]; rfl
  · simp only [h1, if_false]
    by_cases h2 : (if sign flag < 0 then K else S * exp (r * T)) ≤ price * exp (r * T)
    · simp only [h2, if_true]; rfl
    · simp only [h2, if_false]
      rw [hscale, one_div_mul_one_div]

example := C78_time_scaling 365 7 100 120 2 0.05 .put (by norm_num)

/-! ## Exact recovery -/

/-- A guess that reproduces the price is returned, whatever the number of iterations allowed, by each of the three
iterations. -/
theorem C78_fixed_point (x s sl sr : ℝ) (k : ℕ) (hx : x ≤ 0) (hs : |x| * sqrtMin < s) :
    run (lowerStep (normalisedBlackCall x s) x) (normalisedBlackCall x s) x k (start s sl sr) = .finite s ∧
    run (middleStep (normalisedBlackCall x s) x) (normalisedBlackCall x s) x k (start s sl sr) = .finite s ∧
    (epsilon < normalisedVega x s →
      run (upperStep (normalisedBlackCall x s) (exp (0.5 * x)) x) (normalisedBlackCall x s) x k (start s sl sr) = .finite s) := by
  have h0 : 0 < s := lt_of_le_of_lt (mul_nonneg (abs_nonneg x) sqrtMin_pos.le) hs
  have hv : 0 < normalisedVega x s := by rw [vega_eq hs]; exact blackVega_pos x s
  have hb := black_pos x s h0
  obtain ⟨a1, a2⟩ := call_accuracy x s h0
  have hn : 0 < normalisedBlackCall x s := lt_of_lt_of_le (by positivity) a2
  have hm := a1.trans_lt (black_lt_max x s)
  have h1 := a1.trans_lt (black_lt_one hx s)
  refine ⟨?_, ?_, fun he => ?_⟩
  · exact run_exact h0 (fun _ _ => lowerStep_zero hn h1 hv h0 _ _) rfl k _ _
  · exact run_exact h0 (fun _ _ => middleStep_zero hv h0 _ _) rfl k _ _
  · exact run_exact h0 (fun _ _ => upperStep_zero (by rw [half_mul]; exact hm) he h0 _ _) rfl k _ _

example := C78_fixed_point (-1) 0.5 0.1 2 3 (by norm_num) (by norm_num [sqrtMin])

/-- The critical volatility of an option, at which its vega is largest, is recovered exactly from its price (when it is large
enough for the price to be computed without an expansion). -/
theorem C78_critical_roundtrip (S K T r : ℝ) (flag : TypeFlag) (hS : 0 < S) (hK : 0 < K) (hT : 0 < T)
    (hx : |log (S * exp (r * T) / K)| ≤ 1500) (hx' : 0.0884 ≤ |log (S * exp (r * T) / K)|) :
    impliedVolatility (optionPrice S K T r (√(2 * |log (S * exp (r * T) / K)|) / √T) flag) S K T r flag =
      .finite (√(2 * |log (S * exp (r * T) / K)|) / √T) := by
  have hE := exp_pos (r * T)
  have hF : 0 < S * exp (r * T) := by positivity
  have hT' := sqrt_pos.2 hT
  set X := |log (S * exp (r * T) / K)| with hX
  have hX0 : 0 < X := by linarith
  have hsc : sC (-X) = √(2 * X) := by rw [sC, mul_neg, abs_neg, abs_of_pos (by positivity)]
  set σ := √(2 * X) / √T with hσdef
  have hσ : 0 < σ := by have := sqrt_pos.2 (show 0 < 2 * X by positivity); positivity
  have hσT : σ * √T = sC (-X) := by rw [hsc, hσdef]; field_simp
  have hn := C78_normalised_price S K T r σ hS hK hT hσ flag
  rw [← hX, hσT] at hn
  obtain ⟨u1, u2⟩ := undiscount S K T r flag
  have hq := sign_cases flag
  have hd : 0 < √(S * exp (r * T)) * √K := mul_pos (sqrt_pos.2 hF) (sqrt_pos.2 hK)
  have hbp : 0 < black (-X) (sC (-X)) := black_pos _ _ (sC_pos (by linarith))
  have hbm := black_lt_max (-X) (sC (-X))
  have hmm := max_minus (F := S * exp (r * T)) (K := K) hq
  have hmin := exp_min hF hK
  rw [← hX, ← hmm, u1, u2] at hmin
  have p1 : ¬ optionPrice S K T r σ flag * exp (r * T) < lowerBound S K T r flag * exp (r * T) := by
    intro h
    rw [← hn, sub_mul] at hbp
    have : (optionPrice S K T r σ flag * exp (r * T) - lowerBound S K T r flag * exp (r * T)) /
        (√(S * exp (r * T)) * √K) ≤ 0 := div_nonpos_of_nonpos_of_nonneg (by linarith) hd.le
    linarith
  have p2 : ¬ upperBound S K T r flag * exp (r * T) ≤ optionPrice S K T r σ flag * exp (r * T) := by
    intro h
    rw [hmin, ← hn, div_lt_div_iff_of_pos_right hd] at hbm
    linarith
  simp only [iv_eq]
  rw [from_eq T hq hF hK, u1, u2, if_neg p1, if_neg p2, ← sub_mul, hn, ← hX, core, if_neg (not_lt.2 hbp.le),
    if_neg (not_le.2 hbp), if_neg (not_le.2 hbm), solve_critical (by linarith) (by linarith), Outcome.scale, hsc]
  · rw [hσdef]; congr 1; ring
  · rw [hsc, tau_val]
    refine le_sqrt_of_sq_le ?_
    norm_num at hx' ⊢
    linarith

/-- Non-vacuity: a spot of 100 and a strike of 200. -/
example : |log (100 * exp (0 * 1) / 200 : ℝ)| ≤ 1500 ∧ 0.0884 ≤ |log (100 * exp (0 * 1) / 200 : ℝ)| := by
  have e : log (100 * exp (0 * 1) / 200 : ℝ) = -log 2 := by
    rw [zero_mul, exp_zero, ← log_inv]; norm_num
  have h1 := log_two_gt_d9
  have h2 := log_two_lt_d9
  rw [e, abs_neg, abs_of_pos (by linarith)]
  constructor <;> norm_num at * <;> linarith

/-! ## The guesses -/

/-- The points between which the guess is interpolated are ordered, and the vegas by which it divides are positive. -/
theorem C78_nodes (x : ℝ) (hx : x < 0) (hb : -1500 ≤ x) :
    0 < sL x ∧ sL x < sC x ∧ sC x ≤ sU x ∧ 0 < normalisedVega x (sL x) ∧ 0 < normalisedVega x (sC x) ∧
      0 < normalisedVega x (sU x) ∧ sC x ^ 2 = 2 * |x| ∧ IsMaxOn (blackVega x) (Ioi 0) (sC x) := by
  have hU : sC x ≤ sU x := by
    by_cases hv : epsilon < vC x
    · exact (sU_gt hx.le hv).le
    · rw [sU, if_neg hv]
  refine ⟨sL_pos hx hb, sL_lt hx hb, hU, ?_, vC_pos hx.le hb, ?_, ?_, fun s (hs : 0 < s) => ?_⟩
  · rw [vega_eq (sL_min hx hb)]; exact blackVega_pos _ _
  · rw [vega_eq ((sC_min hx hb).trans_le hU)]; exact blackVega_pos _ _
  · rw [sC_sq hx.le, abs_of_neg hx]; ring
  · have h := sC_pos hx
    simp only [mem_setOf_eq, blackVega]
    refine div_le_div_of_nonneg_right (exp_le_exp.2 ?_) (sqrt_nonneg _)
    have e1 : (x / sC x) ^ 2 + (sC x / 2) ^ 2 = -x := by
      have := hx.ne
      rw [div_pow, div_pow, sC_sq hx.le]; field_simp; ring
    have e2 : -x ≤ (x / s) ^ 2 + (s / 2) ^ 2 := by
      have : x / s * (s / 2) = x / 2 := by field_simp
      nlinarith [sq_nonneg (x / s + s / 2)]
    rw [e1]; linarith

example : 0 < sL (-1) ∧ sL (-1) < sC (-1) := ⟨(C78_nodes (-1) (by norm_num) (by norm_num)).1,
  (C78_nodes (-1) (by norm_num) (by norm_num)).2.1⟩

/-- The guess of each segment is positive. -/
theorem C78_guess (x beta : ℝ) (hx : x ≤ 0) (hb : -1500 ≤ x) (h0 : 0 < beta) (h1 : beta < exp (x / 2)) :
    (beta < bC x → beta < bL x → 0 < lowerGuess beta x) ∧
    (beta < bC x → bL x ≤ beta → 0 < lowerMiddleGuess beta x) ∧
    (bC x ≤ beta → beta ≤ bU x → 0 < upperMiddleGuess beta x) ∧
    (bU x < beta → 0 < upperGuess beta x) := by
  have hneg : beta < bC x → x < 0 := fun h => by
    rcases hx.lt_or_eq with h' | h'
    · exact h'
    · rw [h', bC_zero] at h; linarith
  exact ⟨fun a b => lower_pos (hneg a) hb h0 b, fun a b => lowerMiddle_pos (hneg a) hb b a,
    fun a b => upperMiddle_pos hx h0 a b, fun a => upper_pos hx a h1⟩

/-- An instance: the price at the middle node. -/
example := C78_guess (-1) (bC (-1)) (by norm_num) (by norm_num) (bC_pos (by norm_num)) (bC_lt_max (by norm_num))

/-- The rational cubic interpolation takes the two given values and has the two given slopes. -/
theorem C78_interpolation (xl xr yl yr dl dr r : ℝ) (hx : xl < xr) (hr : r < maxControl) :
    interpolation xl xl xr yl yr dl dr r = yl ∧ interpolation xr xl xr yl yr dl dr r = yr ∧
      HasDerivAt (fun x => interpolation x xl xr yl yr dl dr r) dl xl ∧
      HasDerivAt (fun x => interpolation x xl xr yl yr dl dr r) dr xr :=
  ⟨value_left hx, value_right hx, slope_left hx hr, slope_right hx hr⟩

example := C78_interpolation 0 1 2 3 (-1) 4 5 (by norm_num) (by norm_num [maxControl, epsilon])

/-- With the control parameter for the left (right) end, the interpolation also has the given second derivative there. -/
theorem C78_interpolation_second (xl xr yl yr dl dr second : ℝ) (hx : xl < xr)
    (hn : minPositive ≤ |0.5 * (xr - xl) * second + (dr - dl)|) :
    (minPositive ≤ |(yr - yl) / (xr - xl) - dl| → controlLeft xl xr yl yr dl dr second < maxControl →
      HasDerivAt (deriv fun x => interpolation x xl xr yl yr dl dr (controlLeft xl xr yl yr dl dr second)) second xl) ∧
    (minPositive ≤ |dr - (yr - yl) / (xr - xl)| → controlRight xl xr yl yr dl dr second < maxControl →
      HasDerivAt (deriv fun x => interpolation x xl xr yl yr dl dr (controlRight xl xr yl yr dl dr second)) second xr) := by
  have h0 : xr - xl ≠ 0 := by linarith
  have n1 : ¬ isZero (0.5 * (xr - xl) * second + (dr - dl)) := by rw [isZero, not_lt]; exact hn
  refine ⟨fun hd hm => ?_, fun hd hm => ?_⟩
  · have n2 : ¬ isZero ((yr - yl) / (xr - xl) - dl) := by rw [isZero, not_lt]; exact hd
    have hne : (yr - yl) / (xr - xl) - dl ≠ 0 := abs_pos.1 (minPositive_pos.trans_le hd)
    have e : controlLeft xl xr yl yr dl dr second = (0.5 * (xr - xl) * second + (dr - dl)) / ((yr - yl) / (xr - xl) - dl) := by
      simp only [controlLeft, n1, n2, if_false]
    refine (second_left hx hm).congr_deriv ?_
    rw [e, div_mul_cancel₀ _ hne]; field_simp; norm_num; ring
  · have n2 : ¬ isZero (dr - (yr - yl) / (xr - xl)) := by rw [isZero, not_lt]; exact hd
    have hne : dr - (yr - yl) / (xr - xl) ≠ 0 := abs_pos.1 (minPositive_pos.trans_le hd)
    have e : controlRight xl xr yl yr dl dr second = (0.5 * (xr - xl) * second + (dr - dl)) / (dr - (yr - yl) / (xr - xl)) := by
      simp only [controlRight, n1, n2, if_false]
    refine (second_right hx hm).congr_deriv ?_
    rw [e, div_mul_cancel₀ _ hne]; field_simp; norm_num; ring

example := C78_interpolation_second 0 1 2 3 (-1) 4 5 (by norm_num) (by
  unfold minPositive
  exact (zpow_le_one_of_nonpos₀ (by norm_num) (by norm_num)).trans (by norm_num))

/-- The parameter chosen for convexity makes the interpolation of increasing data monotone. -/
theorem C78_interpolation_monotone (xl xr yl yr dl dr second : ℝ) (shape : Bool) (hx : xl < xr) (hy : yl < yr)
    (hl : 0 ≤ dl) (hr : 0 ≤ dr) (hs : minPositive ≤ (yr - yl) / (xr - xl)) :
    MonotoneOn (fun x => interpolation x xl xr yl yr dl dr (convexControlLeft xl xr yl yr dl dr second shape)) (Icc xl xr) ∧
    MonotoneOn (fun x => interpolation x xl xr yl yr dl dr (convexControlRight xl xr yl yr dl dr second shape)) (Icc xl xr) := by
  have hp : 0 < (yr - yl) / (xr - xl) := minPositive_pos.trans_le hs
  have hz : ¬ isZero ((yr - yl) / (xr - xl)) := by rw [isZero, abs_of_pos hp, not_lt]; exact hs
  exact ⟨interp_mono hx hy hl hr (le_max_of_le_right (minimumControl_ge _ _ ⟨by positivity, by positivity⟩ hz)),
    interp_mono hx hy hl hr (le_max_of_le_right (minimumControl_ge _ _ ⟨by positivity, by positivity⟩ hz))⟩

example : minPositive ≤ ((2:ℝ) - 0) / (1 - 0) := by
  unfold minPositive
  exact (zpow_le_one_of_nonpos₀ (by norm_num) (by norm_num)).trans (by norm_num)

/-- The two maps that straighten the ends of the price curve report their derivatives with respect to the price, and their
inverses undo them. -/
theorem C78_maps (x s : ℝ) (hs : 0 < s) :
    HasDerivAt (fun s => (fLowerMap x s).1) ((fLowerMap x s).2.1 * blackVega x s) s ∧
    HasDerivAt (fun s => (fLowerMap x s).2.1) ((fLowerMap x s).2.2 * blackVega x s) s ∧
    HasDerivAt (fun s => (fUpperMap x s).1) ((fUpperMap x s).2.1 * blackVega x s) s ∧
    HasDerivAt (fun s => (fUpperMap x s).2.1) ((fUpperMap x s).2.2 * blackVega x s) s ∧
    (x ≠ 0 → inverseFLowerMap x (fLowerMap x s).1 = s) ∧ inverseFUpperMap (fUpperMap x s).1 = s :=
  ⟨fLower_deriv x s hs, fLower1_deriv x s hs, fUpper_deriv x s, fUpper1_deriv x s hs,
    fun h => inverse_lower x s h hs, inverse_upper x s⟩

example := C78_maps (-1) 0.5 (by norm_num)

/-! ## The order of the iterations -/

/-- The step of the lowest segment converges with order four. -/
theorem C78_lower_order (x σ : ℝ) (hx : x ≤ 0) (hσ : 0 < σ) (sl sr : ℝ → ℝ) : ∃ C, ∀ᶠ s in 𝓝 σ, ∃ ds,
    lowerStep (black x σ) x (black x s) (blackVega x s) s (sl s) (sr s) = some ds ∧ |s + ds - σ| ≤ C * |s - σ| ^ 4 :=
  lower_order hx hσ sl sr

example := C78_lower_order (-1) 0.5 (by norm_num) (by norm_num) (fun _ => 0) (fun _ => 1)

/-- The step of the highest segment converges with order four where vega is above the machine epsilon. -/
theorem C78_upper_order (x σ : ℝ) (hσ : 0 < σ) (he : epsilon < blackVega x σ) (sl sr : ℝ → ℝ) :
    ∃ C, ∀ᶠ s in 𝓝 σ, ∃ ds,
      upperStep (black x σ) (exp (0.5 * x)) x (black x s) (blackVega x s) s (sl s) (sr s) = some ds ∧
        |s + ds - σ| ≤ C * |s - σ| ^ 4 :=
  upper_order hσ he sl sr

example : epsilon < blackVega 0 1 := by
  have := epsilon_lt_vC_zero
  rw [vC_zero] at this
  refine lt_of_lt_of_le (b := 1 / √(2 * π) / 3) ?_ ?_
  · rw [lt_div_iff₀ (by norm_num), lt_div_iff₀ sqrt_two_pi_pos]
    have h1 : √(2 * π) < 3 := by
      rw [sqrt_lt' (by norm_num)]; linarith [Real.pi_le_four]
    have h2 : epsilon < 1 / 9 := by norm_num [epsilon]
    nlinarith [epsilon_pos, sqrt_two_pi_pos]
  · rw [blackVega, div_div, mul_comm, ← div_div]
    refine div_le_div_of_nonneg_right ?_ sqrt_two_pi_pos.le
    have := add_one_le_exp (-((0 / 1 : ℝ) ^ 2 + (1 / 2) ^ 2) / 2)
    norm_num at this ⊢
    linarith

/-- A whole round of the lowest and of the highest segment, with the prices and vegas the code computes, converges with order
four where the price is computed without an expansion. -/
theorem C78_round_order (x σ : ℝ) (hx : x ≤ 0) (h1 : 0.4205 ≤ σ) (h2 : -10 * σ ≤ x) (st : State) :
    (∃ C, ∀ᶠ s in 𝓝 σ, ∃ st', body (lowerStep (black x σ) x) (black x σ) x { st with s := s } = some st' ∧
      |st'.s - σ| ≤ C * |s - σ| ^ 4) ∧
    (epsilon < blackVega x σ → ∃ C, ∀ᶠ s in 𝓝 σ, ∃ st',
      body (upperStep (black x σ) (exp (0.5 * x)) x) (black x σ) x { st with s := s } = some st' ∧
        |st'.s - σ| ≤ C * |s - σ| ^ 4) := by
  have ht : 2 * tau < σ := by rw [tau_val]; linarith
  have hσ : 0 < σ := by linarith
  exact ⟨body_order hσ (fun sl sr => lower_order hx hσ sl sr) (ev_exact hx ht h2) st,
    fun he => body_order hσ (fun sl sr => upper_order hσ he sl sr) (ev_exact hx ht h2) st⟩

example := C78_round_order (-1) 0.5 (by norm_num) (by norm_num) (by norm_num) (start 0.5 0 1)

/-- DEFECT: the step of the middle segments divides `(x/s)²` by nothing where Householder's method divides it by `s`
(implied_volatility.rs 1001), so that it is only of second order: the error is squared, with a constant that vanishes only at
the money and at total volatility one. -/
theorem C78_middle_order_two (x σ : ℝ) (hσ : 0 < σ) (sl sr : ℝ → ℝ) : ∃ ds : ℝ → ℝ,
    (∀ᶠ s in 𝓝 σ, middleStep (black x σ) x (black x s) (blackVega x s) s (sl s) (sr s) = some (ds s)) ∧
      Tendsto (fun s => (s + ds s - σ) / (s - σ) ^ 2) (𝓝[≠] σ) (𝓝 (x ^ 2 / (2 * σ ^ 2) * (1 / σ - 1))) :=
  middle_order hσ sl sr

/-- The constant is not zero for `x = -1` and `σ = 1/2`. -/
example : ((-1:ℝ)) ^ 2 / (2 * (1 / 2) ^ 2) * (1 / (1 / 2) - 1) = 2 := by norm_num

/-- At the money the step of the middle segments is of fourth order. -/
theorem C78_middle_order_atm (σ : ℝ) (hσ : 0 < σ) (sl sr : ℝ → ℝ) : ∃ C, ∀ᶠ s in 𝓝 σ, ∃ ds,
    middleStep (black 0 σ) 0 (black 0 s) (blackVega 0 s) s (sl s) (sr s) = some ds ∧ |s + ds - σ| ≤ C * |s - σ| ^ 4 :=
  middle_order_atm hσ sl sr

example := C78_middle_order_atm 0.5 (by norm_num) (fun _ => 0) (fun _ => 1)

end Verif.ImpliedVol
