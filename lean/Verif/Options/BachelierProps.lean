import Verif.Options.Bachelier
import Verif.Options.BsmProps
import Mathlib.MeasureTheory.Integral.IntegralEqImproper
import Mathlib.Analysis.SpecialFunctions.Gaussian.GaussianIntegral

/-!
# C59: the Bachelier model

Specification: the price is the discounted expectation of the payoff when the underlying at expiry is the normal variate
`f + v √t z`; a Greek is a partial derivative of the price. Throughout `t, v > 0`; `f, k, r` are arbitrary reals.
-/

namespace Verif.Options.Bachelier

open Real MeasureTheory ProbabilityTheory Filter Topology Verif.Distributions
open Bsm (N n N_deriv n_deriv N_neg N_pos N_lt_one n_pos n_eq n_integrable N_Ioi gaussian_integral N_atTop N_atBot)

/-- The intrinsic value of an option. -/
noncomputable def intrinsic (f k : ℝ) : TypeFlag → ℝ
  | .call => max (f - k) 0
  | .put => max (k - f) 0

/-! ## Helper lemmas -/

theorem n_atTop : Tendsto n atTop (𝓝 0) := by
  have h1 : Tendsto (fun x : ℝ => x ^ 2 / 2) atTop atTop := (tendsto_pow_atTop two_ne_zero).atTop_div_const two_pos
  have h2 := (Real.tendsto_exp_neg_atTop_nhds_zero.comp h1).const_mul (√(2 * π))⁻¹
  rw [mul_zero] at h2
  refine h2.congr fun x => ?_
  rw [n_eq, Function.comp_apply, neg_div]

theorem mul_n_integrable : Integrable fun z => z * n z := by
  have := (integrable_mul_exp_neg_mul_sq (b := 1 / 2) (by norm_num)).const_mul (√(2 * π))⁻¹
  refine this.congr (Eventually.of_forall fun z => ?_)
  simp only [n_eq]
  rw [show -z ^ 2 / 2 = -(1 / 2) * z ^ 2 by ring]
  ring

theorem integral_mul_n_Ioi (a : ℝ) : ∫ z in Set.Ioi a, z * n z = n a := by
  have h := integral_Ioi_of_hasDerivAt_of_tendsto' (a := a) (f := fun z => -n z) (f' := fun z => z * n z) (m := -0)
    (fun x _ => by simpa using (n_deriv x).fun_neg) mul_n_integrable.integrableOn n_atTop.neg
  rw [h]; ring

theorem n_neg (x : ℝ) : n (-x) = n x := Gaussian.std_pdf_neg x

theorem call_integral (f k w : ℝ) (hw : 0 < w) :
    ∫ z, max (f + w * z - k) 0 ∂gaussianReal 0 1 = (f - k) * N ((f - k) / w) + w * n ((f - k) / w) := by
  set a := (f - k) / w with ha
  rw [gaussian_integral]
  have e : ∀ z, n z * max (f + w * z - k) 0 =
      Set.indicator (Set.Ioi (-a)) (fun z => (f - k) * n z + w * (z * n z)) z := by
    intro z
    have hlt : z ∈ Set.Ioi (-a) ↔ 0 < f + w * z - k := by
      rw [Set.mem_Ioi, ha, ← neg_div, div_lt_iff₀ hw]
      constructor <;> intro h <;> linarith
    by_cases h : z ∈ Set.Ioi (-a)
    · rw [Set.indicator_of_mem h, max_eq_left (hlt.mp h).le]; ring
    · rw [Set.indicator_of_notMem h, max_eq_right (by
        have := fun h' => h (hlt.mpr h'); linarith [not_lt.mp this]), mul_zero]
  simp only [e]
  rw [integral_indicator measurableSet_Ioi, integral_add, integral_const_mul, integral_const_mul, integral_mul_n_Ioi,
    ← N_Ioi, n_neg]
  · exact (n_integrable.const_mul _).integrableOn
  · exact (mul_n_integrable.const_mul _).integrableOn

theorem parity (f k t r v : ℝ) : putPrice f k t r v = callPrice f k t r v - df r t * (f - k) := by
  unfold putPrice callPrice
  rw [N_neg]; ring

theorem d_df (k t v f : ℝ) : HasDerivAt (fun f => d f k t v) (1 / (v * √t)) f := by
  unfold d
  exact ((hasDerivAt_id f).sub_const k).div_const _

/-- The undiscounted price as a function of a parameter, through `g = f - k` and `w = v √t`. -/
theorem price_deriv {g w : ℝ → ℝ} {g' w' x : ℝ} (hg : HasDerivAt g g' x) (hw : HasDerivAt w w' x) (h0 : w x ≠ 0) :
    HasDerivAt (fun x => g x * N (g x / w x) + w x * n (g x / w x)) (g' * N (g x / w x) + w' * n (g x / w x)) x := by
  have hq := hg.fun_div hw h0
  have hN := (N_deriv (g x / w x)).comp x hq
  have hn := (n_deriv (g x / w x)).comp x hq
  refine ((hg.fun_mul hN).fun_add (hw.fun_mul hn)).congr_deriv ?_
  simp only [Function.comp_apply]
  generalize N (g x / w x) = P at *
  generalize n (g x / w x) = Q at *
  field_simp
  ring

/-! ## Prices -/

/-- **C59.** Put-call parity. -/
theorem C59_parity (m : Bachelier) (k t : ℝ) :
    m.price k t .call - m.price k t .put = exp (-m.r * t) * (m.f - k) := by
  simp only [price, parity, df]; ring

/-- **C59.** The price is the discounted expectation of the payoff with a normally distributed underlying. -/
theorem C59_expectation (m : Bachelier) (k t : ℝ) (ht : 0 < t) (hv : 0 < m.v) (flag : TypeFlag) :
    m.price k t flag = exp (-m.r * t) * ∫ z, intrinsic (m.f + m.v * √t * z) k flag ∂gaussianReal 0 1 := by
  have hw : 0 < m.v * √t := by positivity
  have hc := call_integral m.f k _ hw
  cases flag with
  | call => simp only [price, callPrice, df, intrinsic, d]; rw [hc]
  | put =>
    simp only [price, intrinsic, parity]
    have e : ∀ z : ℝ, max (k - (m.f + m.v * √t * z)) 0 =
        max (m.f + m.v * √t * z - k) 0 - (m.f + m.v * √t * z - k) := by
      intro z
      rcases le_total k (m.f + m.v * √t * z) with h | h
      · rw [max_eq_right (by linarith), max_eq_left (by linarith)]; ring
      · rw [max_eq_left (by linarith), max_eq_right (by linarith)]; ring
    have hz : Integrable (fun z : ℝ => z) (gaussianReal 0 1) :=
      (memLp_id_gaussianReal (μ := 0) (v := 1) 1).integrable le_rfl
    have hi : Integrable (fun z => m.f + m.v * √t * z - k) (gaussianReal 0 1) :=
      ((integrable_const _).add (hz.const_mul _)).sub (integrable_const _)
    have hi2 : Integrable (fun z => max (m.f + m.v * √t * z - k) 0) (gaussianReal 0 1) := hi.sup (integrable_const 0)
    simp only [e]
    rw [integral_sub hi2 hi, hc, integral_sub (f := fun z => m.f + m.v * √t * z)
      ((integrable_const _).add (hz.const_mul _)) (integrable_const _),
      integral_add (f := fun _ => m.f) (integrable_const _) (hz.const_mul _), integral_const_mul, integral_id_gaussianReal]
    simp only [integral_const, probReal_univ, one_smul, mul_zero, add_zero, callPrice, df, d]
    ring

example := C59_expectation ⟨100, 0.05, 20⟩ 110 (1 / 2) (by norm_num) (by norm_num) .put

/-! ## Greeks -/

/-- **C59.** Delta, gamma and vega are the derivatives of the *undiscounted* price: the derivatives of the price are
`e^{-rt}` times the reported Greeks. -/
theorem C59_greeks (m : Bachelier) (k t : ℝ) (ht : 0 < t) (hv : 0 < m.v) (flag : TypeFlag) :
    HasDerivAt (fun f => { m with f := f }.price k t flag) (exp (-m.r * t) * m.delta k t flag) m.f ∧
    HasDerivAt (fun f => { m with f := f }.delta k t flag) (m.gamma k t flag) m.f ∧
    HasDerivAt (fun v => { m with v := v }.price k t flag) (exp (-m.r * t) * m.vega k t flag) m.v := by
  have hw : m.v * √t ≠ 0 := by positivity
  have hcf : HasDerivAt (fun f => callPrice f k t m.r m.v) (exp (-m.r * t) * callDelta m.f k t m.v) m.f := by
    have := (price_deriv ((hasDerivAt_id m.f).sub_const k) (hasDerivAt_const m.f (m.v * √t)) hw).const_mul
      (exp (-m.r * t))
    refine this.congr_deriv ?_
    simp [callDelta, d]
  have hcv : HasDerivAt (fun v => callPrice m.f k t m.r v) (exp (-m.r * t) * callVega m.f k t m.v) m.v := by
    have := (price_deriv (hasDerivAt_const m.v (m.f - k)) ((hasDerivAt_id m.v).mul_const (√t)) hw).const_mul
      (exp (-m.r * t))
    refine this.congr_deriv ?_
    simp [callVega, d]
  have hd : HasDerivAt (fun f => callDelta f k t m.v) (callGamma m.f k t m.v) m.f := by
    refine ((N_deriv _).comp m.f (d_df k t m.v m.f)).congr_deriv ?_
    unfold callGamma; ring
  cases flag with
  | call => exact ⟨hcf, hd, hcv⟩
  | put =>
    simp only [price, delta, gamma, vega, parity, putGamma, putVega]
    refine ⟨?_, hd.sub_const 1, hcv.sub_const _⟩
    refine (hcf.fun_sub (((hasDerivAt_id m.f).sub_const k).const_mul (df m.r t))).congr_deriv ?_
    unfold putDelta callDelta df; ring

/-- **C59.** Theta is minus the derivative in the time to expiry of the undiscounted price; the decay of the price itself is
`e^{-rt} theta + r price`. -/
theorem C59_theta (m : Bachelier) (k t : ℝ) (ht : 0 < t) (hv : 0 < m.v) (flag : TypeFlag) :
    HasDerivAt (fun t => m.price k t flag) (-(exp (-m.r * t) * m.theta k t flag + m.r * m.price k t flag)) t := by
  have hw : m.v * √t ≠ 0 := by positivity
  have hs : HasDerivAt (fun t => m.v * √t) (m.v / (2 * √t)) t := by
    refine ((Real.hasDerivAt_sqrt ht.ne').const_mul m.v).congr_deriv ?_
    ring
  have he : HasDerivAt (fun t => exp (-m.r * t)) (-m.r * exp (-m.r * t)) t := by
    refine (((hasDerivAt_id t).const_mul (-m.r)).exp).congr_deriv ?_
    simp; ring
  have hc : HasDerivAt (fun t => callPrice m.f k t m.r m.v)
      (-(exp (-m.r * t) * callTheta m.f k t m.v + m.r * callPrice m.f k t m.r m.v)) t := by
    refine (he.fun_mul (price_deriv (hasDerivAt_const t (m.f - k)) hs hw)).congr_deriv ?_
    simp only [callTheta, callPrice, df, d]
    ring
  cases flag with
  | call => exact hc
  | put =>
    simp only [price, theta, parity]
    refine (hc.fun_sub (he.mul_const (m.f - k))).congr_deriv ?_
    simp only [putTheta, callTheta, df]
    ring

example := C59_theta ⟨100, 0.05, 20⟩ 110 (1 / 2) (by norm_num) (by norm_num) .put

/-- **C59.** Consequence: with a non-zero rate the reported delta, vega and theta are never the sensitivities of the
reported price (delta, vega), and theta is only if it happens to cancel. -/
theorem C59_greeks_ignore_discounting (m : Bachelier) (k t : ℝ) (ht : 0 < t) (hv : 0 < m.v) (hr : m.r ≠ 0)
    (flag : TypeFlag) :
    ¬ HasDerivAt (fun f => { m with f := f }.price k t flag) (m.delta k t flag) m.f ∧
    ¬ HasDerivAt (fun v => { m with v := v }.price k t flag) (m.vega k t flag) m.v := by
  obtain ⟨h1, -, h3⟩ := C59_greeks m k t ht hv flag
  have he : exp (-m.r * t) ≠ 1 := by
    rw [Ne, exp_eq_one_iff]
    exact mul_ne_zero (neg_ne_zero.2 hr) ht.ne'
  have key : ∀ x : ℝ, x ≠ 0 → exp (-m.r * t) * x ≠ x := by
    intro x hx h
    exact he (mul_right_cancel₀ hx (h.trans (one_mul x).symm))
  constructor
  · intro h
    refine key _ ?_ (h1.unique h)
    cases flag with
    | call => exact (N_pos _).ne'
    | put => exact (sub_neg.2 (N_lt_one _)).ne
  · intro h
    refine key _ ?_ (h3.unique h)
    have : 0 < √t * n (d m.f k t m.v) := mul_pos (by positivity) (n_pos _)
    cases flag <;> exact this.ne'

/-- **C59.** The heat equation: `theta = -½ v² gamma`. -/
theorem C59_heat_equation (m : Bachelier) (k t : ℝ) (ht : 0 < t) (hv : 0 < m.v) (flag : TypeFlag) :
    m.theta k t flag = -(1 / 2) * m.v ^ 2 * m.gamma k t flag := by
  have h2 : √t * √t = t := Real.mul_self_sqrt ht.le
  have hw : 0 < √t := by positivity
  cases flag <;> simp only [theta, gamma, callTheta, putTheta, putGamma, callGamma] <;>
  · generalize n (d m.f k t m.v) = q
    field_simp

example := C59_heat_equation ⟨100, 0.05, 20⟩ 110 (1 / 2) (by norm_num) (by norm_num) .put

/-- **C59.** Signs and bounds: a call delta is strictly between 0 and 1, a put delta is the call delta minus one, gamma and
vega are positive and equal for calls and puts, theta is negative. -/
theorem C59_greek_bounds (m : Bachelier) (k t : ℝ) (ht : 0 < t) (hv : 0 < m.v) :
    0 < m.delta k t .call ∧ m.delta k t .call < 1 ∧ m.delta k t .put = m.delta k t .call - 1 ∧
    (∀ flag, 0 < m.gamma k t flag ∧ m.gamma k t flag = m.gamma k t .call) ∧
    (∀ flag, 0 < m.vega k t flag ∧ m.vega k t flag = m.vega k t .call) ∧
    (∀ flag, m.theta k t flag < 0 ∧ m.theta k t flag = m.theta k t .call) := by
  have hn := n_pos (d m.f k t m.v)
  have hw : 0 < √t := by positivity
  have hg : 0 < callGamma m.f k t m.v := by unfold callGamma; positivity
  refine ⟨N_pos _, N_lt_one _, rfl, ?_, ?_, ?_⟩
  · intro flag; cases flag <;> exact ⟨hg, rfl⟩
  · have : 0 < callVega m.f k t m.v := by unfold callVega; positivity
    intro flag; cases flag <;> exact ⟨this, rfl⟩
  · intro flag
    have h := C59_heat_equation m k t ht hv flag
    have h' : m.gamma k t flag = callGamma m.f k t m.v := by cases flag <;> rfl
    refine ⟨?_, by cases flag <;> rfl⟩
    rw [h, h']
    have : 0 < 1 / 2 * m.v ^ 2 * callGamma m.f k t m.v := by positivity
    linarith

example := C59_greek_bounds ⟨100, 0.05, 20⟩ 110 (1 / 2) (by norm_num) (by norm_num)

/-! ## Volatility -/

theorem callPrice_zero (f k t r : ℝ) (ht : 0 < t) :
    Tendsto (fun v => callPrice f k t r v) (𝓝[>] 0) (𝓝 (exp (-r * t) * max (f - k) 0)) := by
  have hw : 0 < √t := by positivity
  have hb : ∀ x, n x ≤ (√(2 * π))⁻¹ := by
    intro x
    rw [n_eq]
    have : exp (-x ^ 2 / 2) ≤ 1 := by rw [exp_le_one_iff]; nlinarith [sq_nonneg x]
    exact mul_le_of_le_one_right (by positivity) this
  have hvt : Tendsto (fun v : ℝ => v * √t * (√(2 * π))⁻¹) (𝓝[>] 0) (𝓝 0) := by
    have : Tendsto (fun v : ℝ => v * √t * (√(2 * π))⁻¹) (𝓝 0) (𝓝 (0 * √t * (√(2 * π))⁻¹)) := by
      apply Continuous.tendsto; fun_prop
    simp only [zero_mul] at this
    exact this.mono_left nhdsWithin_le_nhds
  have h2 : Tendsto (fun v => v * √t * n (d f k t v)) (𝓝[>] 0) (𝓝 0) := by
    refine tendsto_of_tendsto_of_tendsto_of_le_of_le' tendsto_const_nhds hvt ?_ ?_
    · filter_upwards [self_mem_nhdsWithin] with v hv
      have : (0 : ℝ) < v := hv
      have := n_pos (d f k t v)
      positivity
    · filter_upwards [self_mem_nhdsWithin] with v hv
      have h0 : (0 : ℝ) < v := hv
      exact mul_le_mul_of_nonneg_left (hb _) (by positivity)
  have hd : ∀ v : ℝ, d f k t v = (f - k) / √t * v⁻¹ := by
    intro v; unfold d; rw [div_mul_eq_div_div_swap, div_eq_mul_inv _ v]
  have h1 : Tendsto (fun v => (f - k) * N (d f k t v)) (𝓝[>] 0) (𝓝 (max (f - k) 0)) := by
    simp only [hd]
    rcases lt_trichotomy (f - k) 0 with h | h | h
    · have hi : Tendsto (fun v : ℝ => (f - k) / √t * v⁻¹) (𝓝[>] 0) atBot :=
        tendsto_inv_nhdsGT_zero.const_mul_atTop_of_neg (div_neg_of_neg_of_pos h hw)
      have := (N_atBot.comp hi).const_mul (f - k)
      rw [mul_zero] at this
      rw [max_eq_right h.le]; exact this
    · rw [h]; simp
    · have hi : Tendsto (fun v : ℝ => (f - k) / √t * v⁻¹) (𝓝[>] 0) atTop :=
        tendsto_inv_nhdsGT_zero.const_mul_atTop (div_pos h hw)
      have := (N_atTop.comp hi).const_mul (f - k)
      rw [mul_one] at this
      rw [max_eq_left h.le]; exact this
  have := (h1.add h2).const_mul (df r t)
  rw [add_zero] at this
  exact this

theorem callPrice_atTop (f k t r : ℝ) (ht : 0 < t) : Tendsto (fun v => callPrice f k t r v) atTop atTop := by
  have hw : 0 < √t := by positivity
  have hd : Tendsto (fun v : ℝ => d f k t v) atTop (𝓝 0) := by
    have : Tendsto (fun v : ℝ => (f - k) / √t * v⁻¹) atTop (𝓝 0) := by
      simpa using tendsto_inv_atTop_zero.const_mul ((f - k) / √t)
    refine this.congr fun v => ?_
    unfold d; rw [div_mul_eq_div_div_swap, div_eq_mul_inv _ v]
  have hn : Tendsto (fun v => n (d f k t v)) atTop (𝓝 (n 0)) := ((n_deriv 0).continuousAt.tendsto).comp hd
  have hN : Tendsto (fun v => N (d f k t v)) atTop (𝓝 (N 0)) := ((N_deriv 0).continuousAt.tendsto).comp hd
  have hv : Tendsto (fun v : ℝ => v * √t) atTop atTop := tendsto_id.atTop_mul_const hw
  exact ((hN.const_mul (f - k)).add_atTop (hv.atTop_mul_pos (n_pos 0) hn)).const_mul_atTop (exp_pos _)

/-- **C59.** In the volatility the price increases strictly from the discounted intrinsic value to infinity. -/
theorem C59_volatility (m : Bachelier) (k t : ℝ) (ht : 0 < t) (flag : TypeFlag) :
    StrictMonoOn (fun v => { m with v := v }.price k t flag) (Set.Ioi 0) ∧
    Tendsto (fun v => { m with v := v }.price k t flag) (𝓝[>] 0) (𝓝 (exp (-m.r * t) * intrinsic m.f k flag)) ∧
    Tendsto (fun v => { m with v := v }.price k t flag) atTop atTop := by
  have hg (v : ℝ) (hv : 0 < v) := (C59_greeks { m with v := v } k t ht hv flag).2.2
  have hm : StrictMonoOn (fun v => { m with v := v }.price k t flag) (Set.Ioi 0) := by
    refine strictMonoOn_of_deriv_pos (convex_Ioi 0) (fun v hv => (hg v hv).continuousAt.continuousWithinAt) ?_
    intro v hv
    rw [interior_Ioi] at hv
    have := (hg v hv).deriv
    simp only at this
    rw [this]
    exact mul_pos (exp_pos _) ((C59_greek_bounds { m with v := v } k t ht hv).2.2.2.2.1 flag).1
  refine ⟨hm, ?_⟩
  cases flag with
  | call => exact ⟨callPrice_zero m.f k t m.r ht, callPrice_atTop m.f k t m.r ht⟩
  | put =>
    simp only [price, parity, intrinsic]
    constructor
    · have := (callPrice_zero m.f k t m.r ht).sub_const (df m.r t * (m.f - k))
      convert this using 2
      unfold df
      rw [← mul_sub]
      congr 1
      rcases le_total m.f k with h | h
      · rw [max_eq_left (by linarith), max_eq_right (by linarith)]; ring
      · rw [max_eq_right (by linarith), max_eq_left (by linarith)]; ring
    · exact tendsto_atTop_add_const_right _ _ (callPrice_atTop m.f k t m.r ht)

example := C59_volatility ⟨100, 0.05, 20⟩ 110 (1 / 2) (by norm_num) .put

/-- **C59.** Implied normal volatility is well defined: a price is attained by exactly one positive volatility if and only
if it exceeds the discounted intrinsic value. -/
theorem C59_implied_volatility (m : Bachelier) (k t p : ℝ) (ht : 0 < t) (flag : TypeFlag) :
    (∃! v, 0 < v ∧ { m with v := v }.price k t flag = p) ↔ exp (-m.r * t) * intrinsic m.f k flag < p := by
  obtain ⟨hm, h0, h1⟩ := C59_volatility m k t ht flag
  have hc : ContinuousOn (fun v => { m with v := v }.price k t flag) (Set.Ioi 0) :=
    fun v hv => (C59_greeks { m with v := v } k t ht hv flag).2.2.continuousAt.continuousWithinAt
  constructor
  · rintro ⟨v, ⟨hv, rfl⟩, _⟩
    exact Bsm.lt_of_strictMono_tendsto hm h0 hv
  · intro hl
    obtain ⟨a, ha0, ha⟩ := ((h0.eventually (gt_mem_nhds hl)).and self_mem_nhdsWithin).exists
    obtain ⟨c, hc0, hc1⟩ := ((h1.eventually_gt_atTop p).and (Filter.eventually_gt_atTop 0)).exists
    have hac : a < c := by
      by_contra hn
      rcases (not_lt.mp hn).eq_or_lt with h | h
      · rw [h] at hc0; linarith
      · have := hm hc1 ha h; simp only at this; linarith
    obtain ⟨v, hv, hvp⟩ := intermediate_value_Icc hac.le
      (hc.mono fun x hx => lt_of_lt_of_le ha hx.1) ⟨ha0.le, hc0.le⟩
    have hv0 : 0 < v := lt_of_lt_of_le ha hv.1
    exact ⟨v, ⟨hv0, hvp⟩, fun y hy => hm.injOn hy.1 hv0 (hy.2.trans hvp.symm)⟩

/-- **C59.** At the money: the price is the discounted `atm_price`, and `atm_vol` recovers the volatility from it;
`atm_vol` applied to the model's own (discounted) at-the-money price returns `e^{-rt} v`. -/
theorem C59_at_the_money (m : Bachelier) (t : ℝ) (ht : 0 < t) (flag : TypeFlag) :
    m.price m.f t flag = exp (-m.r * t) * m.atmPrice t ∧ atmVol (m.atmPrice t) t = m.v ∧
    atmVol (m.price m.f t flag) t = exp (-m.r * t) * m.v := by
  have h0 : n 0 = (√(2 * π))⁻¹ := by rw [n_eq]; simp
  have h1 : m.price m.f t flag = exp (-m.r * t) * m.atmPrice t := by
    cases flag <;> simp only [price, callPrice, putPrice, atmPrice, d, df, sub_self, zero_div, neg_zero, zero_mul,
      zero_add, h0, Real.sqrt_div ht.le] <;> ring
  have h2 : atmVol (m.atmPrice t) t = m.v := by
    unfold atmVol atmPrice
    rw [mul_assoc, ← Real.sqrt_mul (by positivity)]
    rw [show t / (2 * π) * (2 * π / t) = 1 by field_simp]
    simp
  refine ⟨h1, h2, ?_⟩
  rw [h1, ← h2]
  unfold atmVol
  ring

example := C59_at_the_money ⟨100, 0.05, 20⟩ (1 / 2) (by norm_num) .put

/-! ## The explicit implied volatility -/

theorem sumTable_A (x : ℝ) : sumTable A 0 x = 3.99496168734513e-1 + 2.10096079506849e+1 * x + 4.98034021785508e+1 * x ^ 2
    + 5.98876110269099e+2 * x ^ 3 + 1.84848969543709e+3 * x ^ 4 + 6.10632240786705e+3 * x ^ 5
    + 2.49341528534936e+4 * x ^ 6 + 1.26645805134824e+4 * x ^ 7 := by
  simp only [sumTable, A, List.zipIdx_cons, List.zipIdx_nil, List.drop_zero, List.foldl_cons, List.foldl_nil]
  push_cast
  norm_num

theorem sumTable_B1 (x : ℝ) : sumTable B 1 x = 3.09357393674311e+1 * x + 1.49510500831099e+3 * x ^ 2
    + 1.32361453789973e+3 * x ^ 3 + 1.59891969767974e+4 * x ^ 4 + 2.39200889172078e+4 * x ^ 5
    + 3.60881710837503e+3 * x ^ 6 - 2.06771948640092e+2 * x ^ 7 + 1.17424059930601e+1 * x ^ 8 := by
  simp only [sumTable, B, List.zipIdx_cons, List.zipIdx_nil, List.drop_succ_cons, List.drop_zero, List.foldl_cons,
    List.foldl_nil]
  push_cast
  norm_num
  ring

theorem sumTable_B0 (x : ℝ) : sumTable B 0 x = 4.99053415358942e+1 + sumTable B 1 x := by
  rw [sumTable_B1]
  simp only [sumTable, B, List.zipIdx_cons, List.zipIdx_nil, List.drop_zero, List.foldl_cons, List.foldl_nil]
  push_cast
  norm_num
  ring

theorem sumTable_A_pos {x : ℝ} (h : 0 ≤ x) : 0 < sumTable A 0 x := by
  rw [sumTable_A]; positivity

theorem sumTable_B_nonneg {x : ℝ} (h : 0 ≤ x) (h1 : x ≤ 1) : 0 ≤ sumTable B 1 x := by
  have h7 : x ^ 7 ≤ x ^ 6 := pow_le_pow_of_le_one h h1 (by norm_num)
  rw [sumTable_B1]
  have : 0 ≤ 3.60881710837503e+3 * x ^ 6 - 2.06771948640092e+2 * x ^ 7 := by
    have := pow_nonneg h 6
    norm_num at *
    linarith
  have h2 : 0 ≤ 3.09357393674311e+1 * x + 1.49510500831099e+3 * x ^ 2
    + 1.32361453789973e+3 * x ^ 3 + 1.59891969767974e+4 * x ^ 4 + 2.39200889172078e+4 * x ^ 5
      + 1.17424059930601e+1 * x ^ 8 := by positivity
  linarith

theorem hasDerivAt_halflog {x : ℝ} (h0 : -1 < x) (h1 : x < 1) :
    HasDerivAt (fun x : ℝ => (log (1 + x) - log (1 - x)) / 2) (1 / (1 - x ^ 2)) x := by
  have a : (1 + x) ≠ 0 := by linarith
  have b : (1 - x) ≠ 0 := by linarith
  refine (((((hasDerivAt_id x).const_add 1).log a).fun_sub (((hasDerivAt_id x).const_sub 1).log b)).div_const 2).congr_deriv ?_
  have c : 1 - x ^ 2 ≠ 0 := by
    rw [show 1 - x ^ 2 = (1 + x) * (1 - x) by ring]; exact mul_ne_zero a b
  simp only [id]
  field_simp
  ring

theorem artanh_eq {x : ℝ} (h0 : -1 < x) (h1 : x < 1) : artanh x = (log (1 + x) - log (1 - x)) / 2 := by
  rw [artanh_eq_half_log ⟨h0.le, h1.le⟩, log_div (by linarith) (by linarith)]; ring

theorem self_lt_artanh {v : ℝ} (h0 : 0 < v) (h1 : v < 1) : v < artanh v := by
  have hd : ∀ x ∈ Set.Ico (0 : ℝ) 1, HasDerivAt (fun x : ℝ => (log (1 + x) - log (1 - x)) / 2 - x) (1 / (1 - x ^ 2) - 1) x :=
    fun x hx => (hasDerivAt_halflog (by linarith [hx.1]) hx.2).fun_sub (hasDerivAt_id x)
  have hm : StrictMonoOn (fun x : ℝ => (log (1 + x) - log (1 - x)) / 2 - x) (Set.Ico 0 1) := by
    refine strictMonoOn_of_deriv_pos (convex_Ico 0 1) (fun x hx => (hd x hx).continuousAt.continuousWithinAt) ?_
    intro x hx
    rw [interior_Ico] at hx
    rw [(hd x ⟨hx.1.le, hx.2⟩).deriv]
    have h2 : 0 < 1 - x ^ 2 := by nlinarith [hx.1, hx.2]
    have h3 : 0 < x ^ 2 := pow_pos hx.1 2
    rw [sub_pos, lt_div_iff₀ h2]
    linarith
  have := hm ⟨le_rfl, zero_lt_one⟩ ⟨h0.le, h1⟩ h0
  rw [artanh_eq (by linarith) h1]
  simp at this
  linarith

/-- The argument of the rational approximation lies strictly between 0 and 1. -/
theorem eta_bounds {v : ℝ} (h0 : 0 < v) (h1 : v < 1) : 0 < v / artanh v ∧ v / artanh v < 1 := by
  have h := self_lt_artanh h0 h1
  exact ⟨div_pos h0 (h0.trans h), (div_lt_one (h0.trans h)).2 h⟩

theorem ivBody_eq {den f k t : ℝ} (ht : 0 < t) (hne : f ≠ k) (hden : |f - k| < den) (s : ℕ) :
    ivBody den f k t s = some (√(π / 2 / t) * den *
      (√(|f - k| / den / artanh (|f - k| / den)) * sumTable A 0 (|f - k| / den / artanh (|f - k| / den)) /
        (1 + sumTable B s (|f - k| / den / artanh (|f - k| / den))))) := by
  have h0 : 0 < |f - k| := abs_pos.2 (sub_ne_zero.2 hne)
  have hd : 0 < den := h0.trans hden
  have hv : |f - k| / den < 1 := (div_lt_one hd).2 hden
  have hv0 : 0 < |f - k| / den := div_pos h0 hd
  have hc : ¬ (t ≤ 0 ∨ den = 0 ∨ f = k ∨ 1 < |(|f - k| / den)|) := by
    rw [abs_of_pos hv0]
    simp only [not_or, not_le, not_lt]
    exact ⟨ht, hd.ne', hne, hv.le⟩
  have hc1 : ¬ |(|f - k| / den)| = 1 := by rw [abs_of_pos hv0]; exact hv.ne
  simp only [ivBody]
  rw [if_neg hc, if_neg hc1]

/-- **C59.** `iv` answers NaN at the money, although the volatility is determined there (by `atm_vol`), and for a
non-positive expiry. -/
theorem C59_iv_at_the_money (m : Bachelier) (p t : ℝ) (flag : TypeFlag) :
    m.iv p m.f t flag = none ∧ ∀ k, t ≤ 0 → m.iv p k t flag = none := by
  constructor
  · cases flag <;> simp [iv, callIv, putIv, ivBody]
  · intro k ht
    cases flag <;> simp [iv, callIv, putIv, ivBody, ht]

/-- **C59.** Away from the money `iv` answers NaN exactly for the positive prices below the intrinsic value, and an option
at its intrinsic value has implied volatility zero. -/
theorem C59_iv_intrinsic (m : Bachelier) (k t : ℝ) (ht : 0 < t) (hk : k ≠ m.f) (flag : TypeFlag) :
    m.iv (intrinsic m.f k flag) k t flag = some 0 ∧
    ∀ p, 0 < p → (m.iv p k t flag = none ↔ p < intrinsic m.f k flag) := by
  have hz : 0 < |m.f - k| := abs_pos.2 (sub_ne_zero.2 hk.symm)
  have hbody : ∀ (den : ℝ) (s : ℕ), -|m.f - k| < den → (ivBody den m.f k t s = none ↔ den < |m.f - k|) := by
    intro den s hd
    simp only [ivBody]
    split_ifs with h
    · simp only [true_iff]
      rcases h with h | h | h | h
      · linarith
      · linarith
      · exact absurd h.symm hk
      · by_contra hn
        have hp : 0 < den := by linarith
        rw [abs_of_pos (div_pos hz hp), one_lt_div hp] at h
        exact hn h
    · simp only [not_or, not_lt, not_le] at h
      simp only [false_iff, not_lt]
      obtain ⟨-, h1, -, h2⟩ := h
      rw [abs_div, abs_abs, div_le_one (abs_pos.2 h1)] at h2
      rcases le_abs'.1 h2 with h3 | h3 <;> linarith
  have hzero : ∀ s : ℕ, ivBody |m.f - k| m.f k t s = some 0 := by
    intro s
    have h1 : |m.f - k| / |m.f - k| = 1 := div_self hz.ne'
    have : ¬ (t ≤ 0 ∨ |m.f - k| = 0 ∨ m.f = k ∨ (1 : ℝ) < 1) := by
      simp only [not_or, not_le, lt_irrefl, not_false_iff, and_true]
      exact ⟨ht, hz.ne', hk.symm⟩
    simp only [ivBody, h1, abs_one]
    rw [if_neg this]
    simp
  rcases lt_or_gt_of_ne hk with h | h
  · have ha : |m.f - k| = m.f - k := abs_of_pos (by linarith)
    rw [ha] at hbody hzero hz
    cases flag with
    | call =>
      simp only [intrinsic, max_eq_left hz.le, iv, callIv]
      refine ⟨by rw [show 2 * (m.f - k) - (m.f - k) = m.f - k by ring]; exact hzero 0, fun p hp => ?_⟩
      rw [hbody _ _ (by linarith)]
      constructor <;> intro h <;> linarith
    | put =>
      simp only [intrinsic, max_eq_right (show k - m.f ≤ 0 by linarith), iv, putIv]
      refine ⟨by rw [mul_zero, zero_add]; exact hzero 1, fun p hp => ?_⟩
      rw [hbody _ _ (by linarith)]
      constructor <;> intro h <;> linarith
  · have ha : |m.f - k| = k - m.f := by rw [abs_of_neg (by linarith)]; ring
    rw [ha] at hbody hzero hz
    cases flag with
    | call =>
      simp only [intrinsic, max_eq_right (show m.f - k ≤ 0 by linarith), iv, callIv]
      refine ⟨by rw [mul_zero, zero_sub, neg_sub]; exact hzero 0, fun p hp => ?_⟩
      rw [hbody _ _ (by linarith)]
      constructor <;> intro h <;> linarith
    | put =>
      simp only [intrinsic, max_eq_left hz.le, iv, putIv]
      refine ⟨by rw [show 2 * (k - m.f) + (m.f - k) = k - m.f by ring]; exact hzero 1, fun p hp => ?_⟩
      rw [hbody _ _ (by linarith)]
      constructor <;> intro h <;> linarith

/-- **C59, defect.** A call and a put that satisfy (undiscounted) put-call parity have the same implied volatility, but
`iv` answers a strictly smaller one for the call: the call's rational approximation uses the powers `0..8` of `eta` with
the table `B`, the put's drops the first entry, while the published approximation pairs `B` with the powers `1..9`. -/
theorem C59_iv_disagree (m : Bachelier) (k t p : ℝ) (ht : 0 < t) (hk : k ≠ m.f) (hp : intrinsic m.f k .call < p) :
    ∃ c u, m.iv p k t .call = some c ∧ m.iv (p - (m.f - k)) k t .put = some u ∧ 0 < c ∧ c < u := by
  have hz : 0 < |m.f - k| := abs_pos.2 (sub_ne_zero.2 hk.symm)
  have hden : |m.f - k| < 2 * p - (m.f - k) := by
    simp only [intrinsic] at hp
    have h1 := le_max_left (m.f - k) 0
    have h2 := le_max_right (m.f - k) 0
    rw [abs_lt]; constructor <;> linarith
  have hd := hz.trans hden
  obtain ⟨e0, e1⟩ := eta_bounds (div_pos hz hd) ((div_lt_one hd).2 hden)
  have hA := sumTable_A_pos e0.le
  have hB := sumTable_B_nonneg e0.le e1.le
  have hden2 : 2 * (p - (m.f - k)) + (m.f - k) = 2 * p - (m.f - k) := by ring
  refine ⟨_, _, ivBody_eq ht hk.symm hden 0, by rw [iv, putIv, hden2]; exact ivBody_eq ht hk.symm hden 1, ?_, ?_⟩
  · rw [sumTable_B0]
    positivity
  · rw [sumTable_B0]
    have : 0 < √(π / 2 / t) * (2 * p - (m.f - k)) := by positivity
    refine mul_lt_mul_of_pos_left ?_ this
    refine div_lt_div_of_pos_left (by positivity) (by linarith) ?_
    norm_num

theorem eta_tendsto : Tendsto (fun v : ℝ => v / artanh v) (𝓝[>] 0) (𝓝 1) := by
  have h := (hasDerivAt_halflog (x := 0) (by norm_num) (by norm_num)).tendsto_slope.mono_left
    (nhdsWithin_mono 0 (fun x hx => ne_of_gt hx) : 𝓝[>] (0 : ℝ) ≤ 𝓝[≠] 0)
  have h2 := h.inv₀ (by norm_num)
  norm_num at h2
  refine h2.congr' ?_
  have : Set.Ioo (0 : ℝ) 1 ∈ 𝓝[>] (0 : ℝ) := Ioo_mem_nhdsGT one_pos
  filter_upwards [this] with v hv
  rw [artanh_eq (by linarith [hv.1]) hv.2, slope_def_field]
  simp

theorem sumTable_continuous (l : List ℚ) (s : ℕ) : Continuous (sumTable l s) := by
  unfold sumTable
  generalize List.drop s l.zipIdx = q
  have : ∀ c : ℝ → ℝ, Continuous c →
      Continuous fun eta : ℝ => q.foldl (fun sum (p : ℚ × ℕ) => sum + (p.1 : ℝ) * eta ^ p.2) (c eta) := by
    induction q with
    | nil => intro c hc; exact hc
    | cons a q ih =>
      intro c hc
      simp only [List.foldl_cons]
      exact ih _ (by fun_prop)
  exact this (fun _ => 0) continuous_const

theorem ivBody_tendsto (f t p : ℝ) (ht : 0 < t) (hp : 0 < p) (sgn : ℝ) (s : ℕ) (hB : sumTable B s 1 ≠ -1) :
    Tendsto (fun k => (ivBody (2 * p + sgn * (f - k)) f k t s).getD 0) (𝓝[≠] f)
      (𝓝 (atmVol p t * (sumTable A 0 1 / (1 + sumTable B s 1)))) := by
  have hden : Tendsto (fun k => 2 * p + sgn * (f - k)) (𝓝[≠] f) (𝓝 (2 * p)) := by
    have : Tendsto (fun k => 2 * p + sgn * (f - k)) (𝓝 f) (𝓝 (2 * p + sgn * (f - f))) := by
      apply Continuous.tendsto; fun_prop
    rw [sub_self, mul_zero, add_zero] at this
    exact this.mono_left nhdsWithin_le_nhds
  have hnum : Tendsto (fun k => |f - k|) (𝓝[≠] f) (𝓝 0) := by
    have : Tendsto (fun k => |f - k|) (𝓝 f) (𝓝 |f - f|) := by
      apply Continuous.tendsto; fun_prop
    rw [sub_self, abs_zero] at this
    exact this.mono_left nhdsWithin_le_nhds
  have hlt : ∀ᶠ k in 𝓝[≠] f, |f - k| < 2 * p + sgn * (f - k) := hnum.eventually_lt hden (by linarith)
  have hv : Tendsto (fun k => |f - k| / (2 * p + sgn * (f - k))) (𝓝[≠] f) (𝓝[>] 0) := by
    refine tendsto_nhdsWithin_iff.2 ⟨?_, ?_⟩
    · have := hnum.div hden (by positivity)
      rwa [zero_div] at this
    · filter_upwards [hlt, self_mem_nhdsWithin] with k h1 h2
      have h3 : 0 < |f - k| := abs_pos.2 (sub_ne_zero.2 (Ne.symm h2))
      exact div_pos h3 (h3.trans h1)
  have he := eta_tendsto.comp hv
  have h1 := (Real.continuous_sqrt.tendsto 1).comp he
  have h2 := ((sumTable_continuous A 0).tendsto 1).comp he
  have h3 := (((sumTable_continuous B s).tendsto 1).comp he).const_add 1
  have h4 := (hden.const_mul (√(π / 2 / t))).mul ((h1.mul h2).div h3 (by intro h; exact hB (by linarith)))
  have hval : √(π / 2 / t) * (2 * p) * (√1 * sumTable A 0 1 / (1 + sumTable B s 1)) =
      atmVol p t * (sumTable A 0 1 / (1 + sumTable B s 1)) := by
    unfold atmVol
    rw [show 2 * π / t = 2 ^ 2 * (π / 2 / t) by ring, Real.sqrt_mul (by norm_num), Real.sqrt_sq (by norm_num),
      Real.sqrt_one]
    ring
  rw [hval] at h4
  refine h4.congr' ?_
  filter_upwards [hlt, self_mem_nhdsWithin] with k hk1 hk2
  rw [ivBody_eq ht (Ne.symm hk2) hk1]
  rfl

/-- **C59, defect.** As the strike approaches the forward, `iv` of a call tends to the exact volatility up to `1e-15`
relative, but `iv` of a put tends to a value more than `0.1%` too large. -/
theorem C59_iv_limit (m : Bachelier) (t p : ℝ) (ht : 0 < t) (hp : 0 < p) :
    (∃ c, |c - 1| < 1e-15 ∧ Tendsto (fun k => (m.iv p k t .call).getD 0) (𝓝[≠] m.f) (𝓝 (c * atmVol p t))) ∧
    (∃ u, 1.001 < u ∧ Tendsto (fun k => (m.iv p k t .put).getD 0) (𝓝[≠] m.f) (𝓝 (u * atmVol p t))) := by
  have hc := ivBody_tendsto m.f t p ht hp (-1) 0 (by rw [sumTable_B0, sumTable_B1]; norm_num)
  have hu := ivBody_tendsto m.f t p ht hp 1 1 (by rw [sumTable_B1]; norm_num)
  refine ⟨⟨sumTable A 0 1 / (1 + sumTable B 0 1), ?_, ?_⟩, ⟨sumTable A 0 1 / (1 + sumTable B 1 1), ?_, ?_⟩⟩
  · rw [sumTable_B0, sumTable_B1, sumTable_A, abs_lt]; norm_num
  · rw [mul_comm]
    refine hc.congr fun k => ?_
    rw [iv, callIv]
    congr 2
    ring
  · rw [sumTable_B1, sumTable_A]; norm_num
  · rw [mul_comm]
    refine hu.congr fun k => ?_
    rw [iv, putIv]
    congr 2
    ring

/-! ## Non-vacuity -/

/-- The forward at 100, a normal volatility of 20 and a rate of 5 percent, one year to expiry. -/
noncomputable def ex : Bachelier := ⟨100, 5 / 100, 20⟩

example : ¬ HasDerivAt (fun f => { ex with f := f }.price 110 1 .call) (ex.delta 110 1 .call) 100 :=
  (C59_greeks_ignore_discounting ex 110 1 one_pos (by norm_num [ex]) (by norm_num [ex]) .call).1

example : ∃! v, 0 < v ∧ { ex with v := v }.price 90 1 .call = 12 := by
  rw [C59_implied_volatility ex 90 1 12 one_pos]
  have h : exp (-(5 / 100) * 1) ≤ 1 := exp_le_one_iff.2 (by norm_num)
  have h2 : intrinsic 100 90 .call = 10 := by norm_num [intrinsic]
  simp only [ex, h2]
  linarith

example : ∃ c u, ex.iv 12 90 1 .call = some c ∧ ex.iv (12 - (100 - 90)) 90 1 .put = some u ∧ 0 < c ∧ c < u :=
  C59_iv_disagree ex 90 1 12 one_pos (by norm_num [ex]) (by norm_num [ex, intrinsic])

example : ex.iv 5 90 1 .call = none :=
  ((C59_iv_intrinsic ex 90 1 one_pos (by norm_num [ex]) .call).2 5 (by norm_num)).2 (by norm_num [ex, intrinsic])

end Verif.Options.Bachelier
