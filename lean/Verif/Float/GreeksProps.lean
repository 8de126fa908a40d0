import Verif.Float.GreeksTerms
import Verif.Float.BlackScholesProps

/-!
# C105: sensitivities of Black-Scholes-Merton prices in double precision
-/

namespace Verif.Float.Bsm

open Real Verif.Float.Sim Verif.Options
open Verif.Float.Fft (ur mu top rnd_real toF64_total ur_pos mu_pos)

/-- C105: vega. On functions of the platform that are right up to `δ`, the computed vega is finite and within `δ (14 + 4 (|b| + |r|) T + 5 Q)`
of the derivative of the Black-Scholes-Merton formula in the volatility, relative to `S e^((b-r)T) √T`. -/
theorem C105_vega_error (m : Libm) (δ : ℝ) (hδ : 2 ^ (-52 : ℤ) ≤ δ) (hδ1 : δ ≤ 2 ^ (-20 : ℤ)) (hm : m.Accurate δ) (ht : m.Tail δ)
    (o : Contract) (ho : o.exact.Ordinary) (hc : δ * o.exact.condition ≤ 2 ^ (-10 : ℤ)) :
    ∃ g, o.vega m = some g ∧ |F64.real g - deriv (fun v => { o.exact with v := v }.price o.optionType) o.exact.v| ≤
      δ * (14 + 4 * o.exact.exponents + 5 * o.exact.condition) * (o.exact.asset * √o.exact.T) := by
  have hf : Fine δ := ⟨hδ, hδ1⟩
  have h := facts ho
  have hδ0 := hf.pos
  have hδ2 := hf.le
  have hδu := hf.ur
  have hE0 := exponents_nonneg h
  have hE := ho.exponents
  obtain ⟨hQ, -, -⟩ := condition_bound hf h hc
  obtain ⟨d1, d2, a1, a2, r1, r2, r3, r4⟩ := d_near hm hf h hc
  obtain ⟨z, b1, b2, b3⟩ := carry_near hm hf h hE
  obtain ⟨c, e1, e2⟩ := pdf_at hm ht hf hQ.le hc r3 r1
  obtain ⟨f, p, e3, e4, e5, e6⟩ := front_term hf hE0 hE b2 (s := o.underlyingPrice) (by rw [abs_of_pos h.S.pos]; exact h.S) b3 hQ.le hc e2
    (density_abs _)
  obtain ⟨s, e7, e8⟩ := hm.sqrt o.T h.T.pos
  have hT : Box 50 √(F64.real o.T) := Box.sqrt h.T
  have hb : Box 850 |F64.real o.underlyingPrice * exp ((o.exact.b - o.exact.r) * o.exact.T) * √(F64.real o.T)| := by
    rw [abs_mul, abs_of_pos hT.pos]; exact e5.mul hT
  have hδE : δ * o.exact.exponents ≤ 1 / 1000000 * o.exact.exponents := by gcongr
  have hδE0 : 0 ≤ δ * o.exact.exponents := by positivity
  have hδQ0 : 0 ≤ δ * o.exact.condition := by positivity
  have hQ2 : δ * o.exact.condition ≤ 1 / 1024 := hc.trans (by norm_num)
  obtain ⟨g, e9, e10⟩ := mulS (p := p) (g := s) e6 (density_abs _) (by positivity) (by linarith)
    (G := √(F64.real o.T)) (by rw [abs_of_pos hT.pos]; exact e8) hδ0.le (by linarith) (hb.mono (by norm_num))
  refine ⟨g, ?_, ?_⟩
  · simp only [Contract.vega, a1, b1, e1, e3, e4, e7, e9, Option.bind_eq_bind, Option.bind_some]
  · rw [Exact.deriv_v h.pos]
    have hA : 0 < F64.real o.underlyingPrice * exp ((o.exact.b - o.exact.r) * o.exact.T) * √(F64.real o.T) :=
      mul_pos (mul_pos h.S.pos (exp_pos _)) hT.pos
    rw [abs_of_pos hA] at e10
    have e11 : o.exact.S * exp ((o.exact.b - o.exact.r) * o.exact.T) * density o.exact.d1 * √o.exact.T =
      F64.real o.underlyingPrice * exp ((o.exact.b - o.exact.r) * o.exact.T) * √(F64.real o.T) * density o.exact.d1 := by
      change F64.real o.underlyingPrice * _ * _ * √(F64.real o.T) = _
      ring
    rw [e11]
    refine e10.trans ?_
    change _ ≤ _ * (F64.real o.underlyingPrice * exp ((o.exact.b - o.exact.r) * o.exact.T) * √(F64.real o.T))
    exact mul_le_mul_of_nonneg_right (by linarith) hA.le

/-- C105: gamma, the second derivative in the price of the underlying, relative to `e^((b-r)T) / (S v √T)`. -/
theorem C105_gamma_error (m : Libm) (δ : ℝ) (hδ : 2 ^ (-52 : ℤ) ≤ δ) (hδ1 : δ ≤ 2 ^ (-20 : ℤ)) (hm : m.Accurate δ) (ht : m.Tail δ)
    (o : Contract) (ho : o.exact.Ordinary) (hc : δ * o.exact.condition ≤ 2 ^ (-10 : ℤ)) :
    ∃ g, o.gamma m = some g ∧ |F64.real g - iteratedDeriv 2 (fun S => { o.exact with S := S }.price o.optionType) o.exact.S| ≤
      δ * (17 + 4 * o.exact.exponents + 6 * o.exact.condition) *
        (exp ((o.exact.b - o.exact.r) * o.exact.T) / (o.exact.S * o.exact.v * √o.exact.T)) := by
  have hf : Fine δ := ⟨hδ, hδ1⟩
  have h := facts ho
  have hE0 := exponents_nonneg h
  have hE := ho.exponents
  obtain ⟨hQ, -, -⟩ := condition_bound hf h hc
  obtain ⟨d1, d2, a1, a2, r1, r2, r3, r4⟩ := d_near hm hf h hc
  obtain ⟨z, b1, b2, b3⟩ := carry_near hm hf h hE
  obtain ⟨c, e1, e2⟩ := pdf_at hm ht hf hQ.le hc r3 r1
  obtain ⟨p, x, t, d, g, e3, e4, e5, e6, e7, e8⟩ := gamma_near hm hf h h.S hE0 hE b2 b3 hQ.le hc e2 (density_abs _)
  refine ⟨g, ?_, ?_⟩
  · simp only [Contract.gamma, a1, b1, e1, e3, e4, e5, e6, e7, Option.bind_eq_bind, Option.bind_some]
  · rw [Exact.deriv_SS h.pos]
    exact e8

/-- C105: the second derivative in the strike, `strike_gamma`, relative to `e^(-rT) / (K v √T)`. -/
theorem C105_strike_gamma_error (m : Libm) (δ : ℝ) (hδ : 2 ^ (-52 : ℤ) ≤ δ) (hδ1 : δ ≤ 2 ^ (-20 : ℤ)) (hm : m.Accurate δ) (ht : m.Tail δ)
    (o : Contract) (ho : o.exact.Ordinary) (hc : δ * o.exact.condition ≤ 2 ^ (-10 : ℤ)) :
    ∃ g, o.strikeGamma m = some g ∧ |F64.real g - iteratedDeriv 2 (fun K => { o.exact with K := K }.price o.optionType) o.exact.K| ≤
      δ * (17 + 4 * o.exact.exponents + 6 * o.exact.condition) * (exp (-o.exact.r * o.exact.T) / (o.exact.K * o.exact.v * √o.exact.T)) := by
  have hf : Fine δ := ⟨hδ, hδ1⟩
  have h := facts ho
  have hE0 := exponents_nonneg h
  have hE := ho.exponents
  obtain ⟨hQ, -, -⟩ := condition_bound hf h hc
  obtain ⟨d1, d2, a1, a2, r1, r2, r3, r4⟩ := d_near hm hf h hc
  obtain ⟨z, b1, b2, b3⟩ := discount_near hm hf h hE
  obtain ⟨c, e1, e2⟩ := pdf_at hm ht hf hQ.le hc r4 r2
  obtain ⟨p, x, t, d, g, e3, e4, e5, e6, e7, e8⟩ := gamma_near hm hf h h.K hE0 hE b2 b3 hQ.le hc e2 (density_abs _)
  rw [mul_comm_f] at e3
  refine ⟨g, ?_, ?_⟩
  · simp only [Contract.strikeGamma, a2, b1, e1, e3, e4, e5, e6, e7, Option.bind_eq_bind, Option.bind_some]
  · rw [Exact.deriv_KK h.pos]
    exact e8

/-- C105: rho. The derivative in the interest rate, for a fixed yield `r - b`, relative to `K T e^(-rT)`. -/
theorem C105_rho_error (m : Libm) (δ : ℝ) (hδ : 2 ^ (-52 : ℤ) ≤ δ) (hδ1 : δ ≤ 2 ^ (-20 : ℤ)) (hm : m.Accurate δ)
    (o : Contract) (ho : o.exact.Ordinary) (hc : δ * o.exact.condition ≤ 2 ^ (-10 : ℤ)) :
    ∃ g, o.rho m = some g ∧
      |F64.real g - deriv (fun r => { o.exact with r := r, b := r - (o.exact.r - o.exact.b) }.price o.optionType) o.exact.r| ≤
        δ * (9 + 4 * o.exact.exponents + 13 * o.exact.condition) * (o.exact.cash * o.exact.T) := by
  have hf : Fine δ := ⟨hδ, hδ1⟩
  have h := facts ho
  have hE0 := exponents_nonneg h
  have hE := ho.exponents
  obtain ⟨hQ, -, -⟩ := condition_bound hf h hc
  obtain ⟨d1, d2, a1, a2, r1, r2, r3, r4⟩ := d_near hm hf h hc
  obtain ⟨z, b1, b2, b3⟩ := discount_near hm hf h hE
  have hA : 0 < F64.real o.strikePrice * F64.real o.T * exp (-o.exact.r * o.exact.T) := mul_pos (mul_pos h.K.pos h.T.pos) (exp_pos _)
  have eA : o.exact.cash * o.exact.T = F64.real o.strikePrice * F64.real o.T * exp (-o.exact.r * o.exact.T) := by
    change F64.real o.strikePrice * _ * F64.real o.T = _
    ring
  rw [Exact.deriv_r h.pos, eA]
  have hT : Box 200 |F64.real o.T| := by rw [abs_of_pos h.T.pos]; exact h.T.mono (by norm_num)
  cases hflag : o.optionType with
  | call =>
    obtain ⟨c, e1, e2⟩ := cdf_at hm hf hQ.le hc r4 r2
    obtain ⟨x, y, p, e3, e4, e5, e6, -⟩ := triple_near hf (a := o.strikePrice) (b := o.T) hE0 hE b2 (exact_rel _)
      (Or.inr (by rw [abs_of_pos h.K.pos]; exact h.K)) hT b3 hQ.le hc e2 (Phi_abs _)
    refine ⟨p, ?_, ?_⟩
    · simp only [Contract.rho, hflag, a2, b1, e1, e3, e4, e5, Option.bind_eq_bind, Option.bind_some]
    · rw [abs_of_pos hA] at e6
      exact e6
  | put =>
    obtain ⟨c, e1, e2⟩ := cdf_at hm hf hQ.le hc (X := -o.exact.d2) (x := neg d2) (by rw [abs_neg]; exact r4)
      (by rw [real_neg, show -F64.real d2 - -o.exact.d2 = -(F64.real d2 - o.exact.d2) by ring, abs_neg]; exact r2)
    obtain ⟨x, y, p, e3, e4, e5, e6, -⟩ := triple_near hf (a := neg o.strikePrice) (b := o.T) hE0 hE b2 (exact_rel _)
      (Or.inr (by rw [real_neg, abs_neg, abs_of_pos h.K.pos]; exact h.K)) hT b3 hQ.le hc e2 (Phi_abs _)
    refine ⟨p, ?_, ?_⟩
    · simp only [Contract.rho, hflag, a2, b1, e1, e3, e4, e5, Option.bind_eq_bind, Option.bind_some]
    · rw [real_neg, neg_mul, neg_mul, abs_neg, abs_of_pos hA] at e6
      change |F64.real p - -F64.real o.strikePrice * F64.real o.T * _ * _| ≤ _
      rw [neg_mul, neg_mul]
      exact e6

/-- C105: phi. The derivative in the yield, for a fixed interest rate, relative to `S T e^((b-r)T)`. -/
theorem C105_phi_error (m : Libm) (δ : ℝ) (hδ : 2 ^ (-52 : ℤ) ≤ δ) (hδ1 : δ ≤ 2 ^ (-20 : ℤ)) (hm : m.Accurate δ)
    (o : Contract) (ho : o.exact.Ordinary) (hc : δ * o.exact.condition ≤ 2 ^ (-10 : ℤ)) :
    ∃ g, o.phi m = some g ∧
      |F64.real g - deriv (fun q => { o.exact with b := o.exact.r - q }.price o.optionType) (o.exact.r - o.exact.b)| ≤
        δ * (9 + 4 * o.exact.exponents + 13 * o.exact.condition) * (o.exact.asset * o.exact.T) := by
  have hf : Fine δ := ⟨hδ, hδ1⟩
  have h := facts ho
  have hE0 := exponents_nonneg h
  have hE := ho.exponents
  obtain ⟨hQ, -, -⟩ := condition_bound hf h hc
  obtain ⟨d1, d2, a1, a2, r1, r2, r3, r4⟩ := d_near hm hf h hc
  obtain ⟨z, b1, b2, b3⟩ := carry_near hm hf h hE
  have hA : 0 < F64.real o.T * F64.real o.underlyingPrice * exp ((o.exact.b - o.exact.r) * o.exact.T) :=
    mul_pos (mul_pos h.T.pos h.S.pos) (exp_pos _)
  have eA : o.exact.asset * o.exact.T = F64.real o.T * F64.real o.underlyingPrice * exp ((o.exact.b - o.exact.r) * o.exact.T) := by
    change F64.real o.underlyingPrice * _ * F64.real o.T = _
    ring
  rw [Exact.deriv_q h.pos, eA]
  have hS : Box 200 |F64.real o.underlyingPrice| := by rw [abs_of_pos h.S.pos]; exact h.S
  cases hflag : o.optionType with
  | call =>
    obtain ⟨c, e1, e2⟩ := cdf_at hm hf hQ.le hc r3 r1
    obtain ⟨x, y, p, e3, e4, e5, e6, -⟩ := triple_near hf (a := neg o.T) (b := o.underlyingPrice) hE0 hE b2 (exact_rel _)
      (Or.inr (by rw [real_neg, abs_neg, abs_of_pos h.T.pos]; exact h.T.mono (by norm_num))) hS b3 hQ.le hc e2 (Phi_abs _)
    refine ⟨p, ?_, ?_⟩
    · simp only [Contract.phi, hflag, a1, b1, e1, e3, e4, e5, Option.bind_eq_bind, Option.bind_some]
    · rw [real_neg, neg_mul, neg_mul, abs_neg, abs_of_pos hA] at e6
      change |F64.real p - -F64.real o.T * F64.real o.underlyingPrice * _ * _| ≤ _
      rw [neg_mul, neg_mul]
      exact e6
  | put =>
    obtain ⟨c, e1, e2⟩ := cdf_at hm hf hQ.le hc (X := -o.exact.d1) (x := neg d1) (by rw [abs_neg]; exact r3)
      (by rw [real_neg, show -F64.real d1 - -o.exact.d1 = -(F64.real d1 - o.exact.d1) by ring, abs_neg]; exact r1)
    obtain ⟨x, y, p, e3, e4, e5, e6, -⟩ := triple_near hf (a := o.T) (b := o.underlyingPrice) hE0 hE b2 (exact_rel _)
      (Or.inr (by rw [abs_of_pos h.T.pos]; exact h.T.mono (by norm_num))) hS b3 hQ.le hc e2 (Phi_abs _)
    refine ⟨p, ?_, ?_⟩
    · simp only [Contract.phi, hflag, a1, b1, e1, e3, e4, e5, Option.bind_eq_bind, Option.bind_some]
    · rw [abs_of_pos hA] at e6
      exact e6

/-- C105: the derivative in the strike, `strike_delta`, relative to `e^(-rT)`, and the probability of ending in the money, `zeta`. -/
theorem C105_strike_delta_error (m : Libm) (δ : ℝ) (hδ : 2 ^ (-52 : ℤ) ≤ δ) (hδ1 : δ ≤ 2 ^ (-20 : ℤ)) (hm : m.Accurate δ)
    (o : Contract) (ho : o.exact.Ordinary) (hc : δ * o.exact.condition ≤ 2 ^ (-10 : ℤ)) :
    (∃ g, o.strikeDelta m = some g ∧ |F64.real g - deriv (fun K => { o.exact with K := K }.price o.optionType) o.exact.K| ≤
        δ * (6 + 4 * o.exact.exponents + 13 * o.exact.condition) * exp (-o.exact.r * o.exact.T)) ∧
      ∃ g, o.zeta m = some g ∧ |F64.real g - (ProbabilityTheory.gaussianReal 0 1).real {z |
          match o.optionType with
          | .call => o.exact.K < o.exact.S * exp ((o.exact.b - o.exact.v ^ 2 / 2) * o.exact.T + o.exact.v * √o.exact.T * z)
          | .put => o.exact.S * exp ((o.exact.b - o.exact.v ^ 2 / 2) * o.exact.T + o.exact.v * √o.exact.T * z) < o.exact.K}| ≤
        δ * (2 + 13 * o.exact.condition) := by
  have hf : Fine δ := ⟨hδ, hδ1⟩
  have h := facts ho
  have hδ0 := hf.pos
  have hδ2 := hf.le
  have hδu := hf.ur
  have hE0 := exponents_nonneg h
  have hE := ho.exponents
  obtain ⟨hQ, -, -⟩ := condition_bound hf h hc
  obtain ⟨d1, d2, a1, a2, r1, r2, r3, r4⟩ := d_near hm hf h hc
  obtain ⟨z, b1, b2, b3⟩ := discount_near hm hf h hE
  have hX := exp_pos (-o.exact.r * o.exact.T)
  have hb : Box 1000 |exp (-o.exact.r * o.exact.T)| := by rw [abs_of_pos hX]; exact (exp_box b2).mono (by norm_num)
  have hδE : δ * o.exact.exponents ≤ 1 / 1000000 * o.exact.exponents := by gcongr
  have hδE0 : 0 ≤ δ * o.exact.exponents := by positivity
  have hδQ0 : 0 ≤ δ * o.exact.condition := by positivity
  have hQ2 : δ * o.exact.condition ≤ 1 / 1024 := hc.trans (by norm_num)
  have b3' : |F64.real z - exp (-o.exact.r * o.exact.T)| ≤ δ * (2 + 3 * o.exact.exponents) * |exp (-o.exact.r * o.exact.T)| := by
    rw [abs_of_pos hX]; exact b3
  have hz := Bsm.C47_zeta (b := o.exact.b) h.pos.S h.pos.K h.pos.T h.pos.v
  rw [Exact.d2_eq, Exact.N_eq, Exact.N_eq] at hz
  obtain ⟨c, e1, e2⟩ := cdf_at hm hf hQ.le hc r4 r2
  obtain ⟨c', e1', e2'⟩ := cdf_at hm hf hQ.le hc (X := -o.exact.d2) (x := neg d2) (by rw [abs_neg]; exact r4)
    (by rw [real_neg, show -F64.real d2 - -o.exact.d2 = -(F64.real d2 - o.exact.d2) by ring, abs_neg]; exact r2)
  rw [Exact.deriv_K h.pos]
  cases hflag : o.optionType with
  | call =>
    constructor
    · obtain ⟨p, h3, h4⟩ := term (f := neg z) (c := c) (F := -exp (-o.exact.r * o.exact.T)) (by rw [abs_neg]; exact hb)
        (by rw [real_neg, abs_neg, show -F64.real z - -exp (-o.exact.r * o.exact.T) = -(F64.real z - exp (-o.exact.r * o.exact.T)) by ring,
          abs_neg]; exact b3') (by positivity) (by linarith) e2 (by linarith) (Phi_abs _)
      refine ⟨p, ?_, ?_⟩
      · simp only [Contract.strikeDelta, hflag, a2, b1, e1, h3, Option.bind_eq_bind, Option.bind_some]
      · rw [abs_neg, abs_of_pos hX] at h4
        exact h4.trans (mul_le_mul_of_nonneg_right (by linarith) hX.le)
    · refine ⟨c, ?_, ?_⟩
      · simp only [Contract.zeta, hflag, a2, e1, Option.bind_eq_bind, Option.bind_some]
      · rw [hz.1] at e2
        exact e2
  | put =>
    constructor
    · obtain ⟨p, h3, h4⟩ := term (f := z) (c := c') (F := exp (-o.exact.r * o.exact.T)) hb b3' (by positivity) (by linarith) e2' (by linarith)
        (Phi_abs _)
      refine ⟨p, ?_, ?_⟩
      · simp only [Contract.strikeDelta, hflag, a2, b1, e1', h3, Option.bind_eq_bind, Option.bind_some]
      · rw [abs_of_pos hX] at h4
        exact h4.trans (mul_le_mul_of_nonneg_right (by linarith) hX.le)
    · refine ⟨c', ?_, ?_⟩
      · simp only [Contract.zeta, hflag, a2, e1', Option.bind_eq_bind, Option.bind_some]
      · rw [hz.2] at e2'
        exact e2'

theorem someLibm_tail : someLibm.Tail (2 ^ (-50 : ℤ)) := by
  intro x hx
  have hmu4 := mu_ur
  have hur := ur_pos
  have h0 : 0 < exp (F64.real x) := exp_pos _
  have h1 : exp (F64.real x) ≤ 1 := exp_le_one_iff.2 (by linarith)
  obtain ⟨r, e1, e2⟩ := nearest_spec (y := exp (F64.real x)) (by
    rw [abs_of_pos h0]; exact h1.trans (one_le_pow₀ (by norm_num)))
  refine ⟨r, e1, e2.trans ?_⟩
  rw [abs_of_pos h0, show (2 : ℝ) ^ (-50 : ℤ) = 8 * ur by unfold Fft.ur; norm_num]
  have := mul_le_mul_of_nonneg_left h1 hur.le
  linarith

theorem some_lower : (2 : ℝ) ^ (-52 : ℤ) ≤ 2 ^ (-50 : ℤ) := zpow_le_zpow_right₀ (by norm_num) (by norm_num)

theorem some_upper : (2 : ℝ) ^ (-50 : ℤ) ≤ 2 ^ (-20 : ℤ) := zpow_le_zpow_right₀ (by norm_num) (by norm_num)

/-- The vega of a put at 100 struck at 105, with a volatility of 25 % and a rate of 6.25 %, over one year: right up to one part in `10^11`
of the underlying price. -/
example : ∃ g, someContract.vega someLibm = some g ∧
    |F64.real g - deriv (fun v => { someContract.exact with v := v }.price .put) (1 / 4)| ≤ 1 / 10 ^ 10 := by
  obtain ⟨g, h1, h2⟩ := C105_vega_error someLibm _ some_lower some_upper someLibm_accurate someLibm_tail someContract someContract_ordinary
    someContract_fine
  have hv : someContract.exact.v = 1 / 4 := by rw [someContract_exact]
  rw [hv] at h2
  refine ⟨g, h1, h2.trans ?_⟩
  have hc := someContract_condition
  have hc0 := (condition_bound ⟨some_lower, some_upper⟩ (facts someContract_ordinary) someContract_fine).1
  have he : someContract.exact.exponents = 1 / 8 := by rw [someContract_exact]; norm_num [Exact.exponents]
  have ha : someContract.exact.asset = 100 := by rw [someContract_exact]; simp [Exact.asset]
  have hT : someContract.exact.T = 1 := by rw [someContract_exact]
  rw [he, ha, hT, Real.sqrt_one]
  norm_num
  linarith

example : ∃ g, someContract.gamma someLibm = some g := by
  obtain ⟨g, h1, -⟩ := C105_gamma_error someLibm _ some_lower some_upper someLibm_accurate someLibm_tail someContract someContract_ordinary
    someContract_fine
  exact ⟨g, h1⟩

example : ∃ g, someContract.strikeGamma someLibm = some g := by
  obtain ⟨g, h1, -⟩ := C105_strike_gamma_error someLibm _ some_lower some_upper someLibm_accurate someLibm_tail someContract
    someContract_ordinary someContract_fine
  exact ⟨g, h1⟩

example : ∃ g, someContract.rho someLibm = some g := by
  obtain ⟨g, h1, -⟩ := C105_rho_error someLibm _ some_lower some_upper someLibm_accurate someContract someContract_ordinary someContract_fine
  exact ⟨g, h1⟩

example : ∃ g, someContract.phi someLibm = some g := by
  obtain ⟨g, h1, -⟩ := C105_phi_error someLibm _ some_lower some_upper someLibm_accurate someContract someContract_ordinary someContract_fine
  exact ⟨g, h1⟩

example : ∃ g z, someContract.strikeDelta someLibm = some g ∧ someContract.zeta someLibm = some z := by
  obtain ⟨⟨g, h1, -⟩, z, h2, -⟩ := C105_strike_delta_error someLibm _ some_lower some_upper someLibm_accurate someContract
    someContract_ordinary someContract_fine
  exact ⟨g, z, h1, h2⟩

end Verif.Float.Bsm
