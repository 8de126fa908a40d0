import Verif.Options.Bsm
import Verif.Distributions.GaussianLemmas
import Mathlib.MeasureTheory.Group.Integral

/-! Helper lemmas about the Black-Scholes-Merton formulas: derivatives of `d1`, `d2`, the identity
`s e^{bt} n(d1) = k n(d2)` and a general derivative formula for the price. -/

namespace Verif.Options.Bsm

open Real Verif.Distributions

theorem N_deriv (x : ℝ) : HasDerivAt N (n x) x := Gaussian.std_cdf_hasDerivAt x

theorem N_neg (x : ℝ) : N (-x) = 1 - N x := Gaussian.std_cdf_neg x

theorem N_pos (x : ℝ) : 0 < N x := Gaussian.std_cdf_pos x

theorem N_lt_one (x : ℝ) : N x < 1 := Gaussian.std_cdf_lt_one x

theorem N_mono : StrictMono N := Gaussian.std_cdf_strictMono

theorem n_eq (x : ℝ) : n x = (√(2 * π))⁻¹ * exp (-x ^ 2 / 2) := Gaussian.std_pdf x

theorem n_pos (x : ℝ) : 0 < n x := Gaussian.std_pdf_pos x

theorem n_deriv (x : ℝ) : HasDerivAt n (-x * n x) x := by
  have e : n = fun x => (√(2 * π))⁻¹ * exp (-x ^ 2 / 2) := funext n_eq
  rw [e]
  have h := (((hasDerivAt_pow 2 x).neg.div_const 2).exp).const_mul ((√(2 * π))⁻¹)
  refine h.congr_deriv ?_
  simp only [Pi.neg_apply]
  push_cast; ring

variable {s k t r b v : ℝ}

/-- The identity behind all Greeks. -/
theorem key (hs : 0 < s) (hk : 0 < k) (ht : 0 < t) (hv : 0 < v) :
    s * exp ((b - r) * t) * n (d1 s k t b v) = k * exp (-r * t) * n (d2 s k t b v) := by
  have hw : (0:ℝ) < √t := by positivity
  rw [n_eq, n_eq]
  have e : -d2 s k t b v ^ 2 / 2 = -d1 s k t b v ^ 2 / 2 + (log s - log k + b * t) := by
    have h1 : d1 s k t b v * (v * √t) = log s - log k + (b + 0.5 * v ^ 2) * t := by
      rw [d1, div_mul_cancel₀ _ (by positivity), log_div hs.ne' hk.ne']
    have h2 : √t * √t = t := Real.mul_self_sqrt ht.le
    rw [d2]
    have : (d1 s k t b v - v * √t) ^ 2 = d1 s k t b v ^ 2 - 2 * (d1 s k t b v * (v * √t)) + v ^ 2 * (√t * √t) := by
      ring
    rw [this, h1, h2]; ring
  rw [e, exp_add, exp_add, exp_sub, exp_log hs, exp_log hk, sub_mul, exp_sub, neg_mul, exp_neg]
  have : exp (r * t) ≠ 0 := (exp_pos _).ne'
  field_simp

theorem d1_ds (hs : 0 < s) (hk : 0 < k) :
    HasDerivAt (fun s => d1 s k t b v) (1 / (s * v * √t)) s := by
  have h : HasDerivAt (fun s => log (s / k)) (1 / s) s := by
    have := (((hasDerivAt_id s).div_const k).log (by simp only [id]; positivity))
    refine this.congr_deriv ?_
    simp only [id]; field_simp
  refine ((h.add_const ((b + 0.5 * v ^ 2) * t)).div_const (v * √t)).congr_deriv ?_
  rw [div_div, mul_assoc]

theorem d1_dk (hs : 0 < s) (hk : 0 < k) :
    HasDerivAt (fun k => d1 s k t b v) (-(1 / (k * v * √t))) k := by
  have h : HasDerivAt (fun k => log (s / k)) (-(1 / k)) k := by
    have := ((((hasDerivAt_id k).inv hk.ne').const_mul s).log (by simp only [id, Pi.inv_apply]; positivity))
    refine (this.congr_deriv ?_)
    simp only [id, Pi.inv_apply]; field_simp
  refine ((h.add_const ((b + 0.5 * v ^ 2) * t)).div_const (v * √t)).congr_deriv ?_
  rw [neg_div, div_div, mul_assoc]

theorem d1_db (ht : 0 < t) : HasDerivAt (fun b => d1 s k t b v) (√t / v) b := by
  have h := (((((hasDerivAt_id b).add_const (0.5 * v ^ 2)).mul_const t).const_add (log (s / k))).div_const
    (v * √t))
  refine h.congr_deriv ?_
  have hw : (0:ℝ) < √t := by positivity
  have h2 : √t * √t = t := Real.mul_self_sqrt ht.le
  by_cases hv : v = 0
  · simp [hv]
  · rw [one_mul, div_eq_div_iff (by positivity) hv]
    linear_combination -v * h2

theorem d1_dv (ht : 0 < t) (hv : 0 < v) :
    HasDerivAt (fun v => d1 s k t b v) (-(d2 s k t b v / v)) v := by
  have hw : (0:ℝ) < √t := by positivity
  have h2 : √t * √t = t := Real.mul_self_sqrt ht.le
  have h1 := ((((hasDerivAt_pow 2 v).const_mul (0.5:ℝ)).const_add b).mul_const t).const_add (log (s / k))
  have h3 := h1.fun_div ((hasDerivAt_id v).mul_const (√t)) (by simp only [id]; positivity)
  refine h3.congr_deriv ?_
  simp only [id, d2, d1]
  push_cast
  rw [one_mul]
  generalize log (s / k) = L
  generalize √t = w at hw h2
  subst h2
  field_simp
  ring

theorem d1_dt (ht : 0 < t) (hv : 0 < v) :
    HasDerivAt (fun t => d1 s k t b v) (b / (v * √t) - d2 s k t b v / (2 * t)) t := by
  have hw : (0:ℝ) < √t := by positivity
  have h2 : √t * √t = t := Real.mul_self_sqrt ht.le
  have h1 := ((hasDerivAt_id t).const_mul (b + 0.5 * v ^ 2)).const_add (log (s / k))
  have h3 := h1.fun_div ((Real.hasDerivAt_sqrt ht.ne').const_mul v) (by positivity)
  refine h3.congr_deriv ?_
  simp only [id, d2, d1]
  generalize log (s / k) = L
  generalize √t = w at hw h2
  subst h2
  field_simp
  ring

theorem w_dt (ht : 0 < t) : HasDerivAt (fun t => v * √t) (v / (2 * √t)) t := by
  refine ((Real.hasDerivAt_sqrt ht.ne').const_mul v).congr_deriv ?_
  ring

theorem w_dv : HasDerivAt (fun v => v * √t) (√t) v := by
  simpa using (hasDerivAt_id v).mul_const (√t)

/-- The derivative of `A N(D) - B N(D - W)` along any smooth curve of parameters, at a point where
`A n(D) = B n(D - W)`. -/
theorem price_deriv {A B D W : ℝ → ℝ} {A' B' D' W' x : ℝ} (hA : HasDerivAt A A' x)
    (hB : HasDerivAt B B' x) (hD : HasDerivAt D D' x) (hW : HasDerivAt W W' x)
    (hkey : A x * n (D x) = B x * n (D x - W x)) :
    HasDerivAt (fun x => A x * N (D x) - B x * N (D x - W x))
      (A' * N (D x) - B' * N (D x - W x) + A x * n (D x) * W') x := by
  have h1 := hA.fun_mul ((N_deriv (D x)).comp x hD)
  have h2 := hB.fun_mul ((N_deriv (D x - W x)).comp x (hD.fun_sub hW))
  refine (h1.fun_sub h2).congr_deriv ?_
  simp only [Function.comp]
  linear_combination (D' - W') * hkey

/-- Put-call parity of the formulas. -/
theorem parity (s k t r b v : ℝ) : putPrice s k t r b v =
    callPrice s k t r b v - s * exp ((b - r) * t) + k * exp (-r * t) := by
  rw [putPrice, callPrice, N_neg, N_neg]; ring

theorem A_ds : HasDerivAt (fun s => s * exp ((b - r) * t)) (exp ((b - r) * t)) s := by
  simpa using (hasDerivAt_id s).mul_const (exp ((b - r) * t))

theorem A_dt : HasDerivAt (fun t => s * exp ((b - r) * t)) ((b - r) * s * exp ((b - r) * t)) t := by
  refine ((((hasDerivAt_id t).const_mul (b - r)).exp).const_mul s).congr_deriv ?_
  simp only [id]; ring

theorem A_db : HasDerivAt (fun b => s * exp ((b - r) * t)) (t * s * exp ((b - r) * t)) b := by
  refine (((((hasDerivAt_id b).sub_const r).mul_const t).exp).const_mul s).congr_deriv ?_
  simp only [id]; ring

theorem B_dt : HasDerivAt (fun t => k * exp (-r * t)) (-(r * k * exp (-r * t))) t := by
  refine ((((hasDerivAt_id t).const_mul (-r)).exp).const_mul k).congr_deriv ?_
  simp only [id]; ring

theorem B_dr : HasDerivAt (fun r => k * exp (-r * t)) (-(t * k * exp (-r * t))) r := by
  refine ((((hasDerivAt_id r).neg.mul_const t).exp).const_mul k).congr_deriv ?_
  simp only [id, Pi.neg_apply]; ring

theorem B_dk : HasDerivAt (fun k => k * exp (-r * t)) (exp (-r * t)) k := by
  simpa using (hasDerivAt_id k).mul_const (exp (-r * t))

/-! ### The price as an expectation -/

open MeasureTheory ProbabilityTheory

theorem integral_Ioi_shift (f : ℝ → ℝ) (a w : ℝ) :
    ∫ z in Set.Ioi a, f (z - w) = ∫ z in Set.Ioi (a - w), f z := by
  rw [← integral_indicator measurableSet_Ioi, ← integral_indicator measurableSet_Ioi,
    ← integral_sub_right_eq_self (Set.indicator (Set.Ioi (a - w)) f) w]
  congr 1; funext z
  simp only [Set.indicator, Set.mem_Ioi, sub_lt_sub_iff_right]

theorem N_Ioi (x : ℝ) : N x = ∫ z in Set.Ioi (-x), n z := by
  have e2 := integral_comp_neg_Iic x Gaussian.std.pdf
  simp only [Gaussian.std_pdf_neg] at e2
  rw [N, Gaussian.std_cdf, e2]; rfl

theorem exp_mul_n (w z : ℝ) : exp (w * z) * n z = exp (w ^ 2 / 2) * n (z - w) := by
  rw [n_eq, n_eq]
  have : ∀ a b c : ℝ, exp a * (c * exp b) = c * exp (a + b) := by intros; rw [exp_add]; ring
  rw [this, this]; congr 2; ring

theorem gaussian_integral (f : ℝ → ℝ) : ∫ z, f z ∂gaussianReal 0 1 = ∫ z, n z * f z := by
  rw [integral_gaussianReal_eq_integral_smul one_ne_zero]
  simp only [smul_eq_mul, n, Gaussian.std_pdf_eq]

theorem n_integrable : Integrable n := Gaussian.std_pdf_integrable

theorem call_integral (s k m w : ℝ) (hs : 0 < s) (hk : 0 < k) (hw : 0 < w) :
    ∫ z, max (s * exp (m + w * z) - k) 0 ∂gaussianReal 0 1 =
      s * exp (m + w ^ 2 / 2) * N ((log (s / k) + m) / w + w) - k * N ((log (s / k) + m) / w) := by
  set a := (log (s / k) + m) / w with ha
  rw [gaussian_integral]
  have e : ∀ z, n z * max (s * exp (m + w * z) - k) 0 =
      Set.indicator (Set.Ioi (-a)) (fun z => s * exp (m + w ^ 2 / 2) * n (z - w) - k * n z) z := by
    intro z
    have hlt : z ∈ Set.Ioi (-a) ↔ k < s * exp (m + w * z) := by
      rw [Set.mem_Ioi, ← div_lt_iff₀' hs, ← Real.log_lt_iff_lt_exp (by positivity), ha,
        log_div hk.ne' hs.ne', log_div hs.ne' hk.ne', ← neg_div, div_lt_iff₀ hw]
      constructor <;> intro h <;> nlinarith
    have hx : s * exp (m + w ^ 2 / 2) * n (z - w) = s * exp (m + w * z) * n z := by
      rw [exp_add, exp_add]
      linear_combination (-(s * exp m)) * exp_mul_n w z
    by_cases h : z ∈ Set.Ioi (-a)
    · rw [Set.indicator_of_mem h, max_eq_left (by linarith [hlt.mp h]), hx]; ring
    · rw [Set.indicator_of_notMem h, max_eq_right (by
        have := fun h' => h (hlt.mpr h'); linarith [not_lt.mp this]), mul_zero]
  simp only [e]
  rw [integral_indicator measurableSet_Ioi, integral_sub, integral_const_mul, integral_const_mul,
    integral_Ioi_shift n, ← N_Ioi, show -a - w = -(a + w) by ring, ← N_Ioi]
  · exact ((n_integrable.comp_sub_right w).const_mul _).integrableOn
  · exact (n_integrable.const_mul _).integrableOn

theorem lognormal_integrable (s m w : ℝ) :
    Integrable (fun z => s * exp (m + w * z)) (gaussianReal 0 1) := by
  have := (integrable_exp_mul_gaussianReal (μ := 0) (v := 1) w).const_mul (s * exp m)
  refine this.congr (Filter.Eventually.of_forall fun z => ?_)
  simp only [exp_add]; ring

theorem lognormal_mean (s m w : ℝ) :
    ∫ z, s * exp (m + w * z) ∂gaussianReal 0 1 = s * exp (m + w ^ 2 / 2) := by
  have h := congrFun (mgf_id_gaussianReal (μ := 0) (v := 1)) w
  simp only [mgf, id] at h
  have e : ∀ z, s * exp (m + w * z) = s * exp m * exp (w * z) := by intro z; rw [exp_add]; ring
  simp only [e]
  rw [integral_const_mul, h, exp_add m, mul_assoc]
  simp

/-! ### Limits in the volatility -/

theorem N_atTop : Filter.Tendsto N Filter.atTop (nhds 1) := by
  rw [show N = ProbabilityTheory.cdf (gaussianReal 0 1) from funext Gaussian.std_cdf_law]
  exact ProbabilityTheory.tendsto_cdf_atTop _

theorem N_atBot : Filter.Tendsto N Filter.atBot (nhds 0) := by
  rw [show N = ProbabilityTheory.cdf (gaussianReal 0 1) from funext Gaussian.std_cdf_law]
  exact ProbabilityTheory.tendsto_cdf_atBot _

theorem d1_split (ht : 0 < t) (hv : v ≠ 0) :
    d1 s k t b v = (log (s / k) + b * t) / √t * v⁻¹ + √t / 2 * v := by
  have hw : (0:ℝ) < √t := by positivity
  have h2 : √t * √t = t := Real.mul_self_sqrt ht.le
  unfold d1
  field_simp
  rw [Real.sq_sqrt ht.le]; ring

theorem d2_split (ht : 0 < t) (hv : v ≠ 0) :
    d2 s k t b v = (log (s / k) + b * t) / √t * v⁻¹ + -(√t / 2) * v := by
  rw [d2, d1_split ht hv]; ring

theorem callPrice_tendsto (l : Filter ℝ) (hl : ∀ᶠ v in l, 0 < v) (ht : 0 < t) (a1 a2 : ℝ)
    (h1 : Filter.Tendsto (fun v => N ((log (s / k) + b * t) / √t * v⁻¹ + √t / 2 * v)) l (nhds a1))
    (h2 : Filter.Tendsto (fun v => N ((log (s / k) + b * t) / √t * v⁻¹ + -(√t / 2) * v)) l (nhds a2)) :
    Filter.Tendsto (fun v => callPrice s k t r b v) l
      (nhds (s * exp ((b - r) * t) * a1 - k * exp (-r * t) * a2)) := by
  refine (((h1.const_mul (s * exp ((b - r) * t))).sub (h2.const_mul (k * exp (-r * t))))).congr' ?_
  filter_upwards [hl] with v hv
  rw [callPrice, d1_split ht hv.ne', d2_split ht hv.ne']

theorem callPrice_atTop (ht : 0 < t) :
    Filter.Tendsto (fun v => callPrice s k t r b v) Filter.atTop (nhds (s * exp ((b - r) * t))) := by
  have hw : (0:ℝ) < √t := by positivity
  have h0 : Filter.Tendsto (fun v : ℝ => (log (s / k) + b * t) / √t * v⁻¹) Filter.atTop (nhds 0) := by
    simpa using tendsto_inv_atTop_zero.const_mul ((log (s / k) + b * t) / √t)
  have h1 := N_atTop.comp (h0.add_atTop (Filter.tendsto_id.const_mul_atTop (half_pos hw)))
  have h2 := N_atBot.comp (h0.add_atBot
    ((Filter.tendsto_id.const_mul_atTop_of_neg (r := -(√t / 2)) (by linarith))))
  simpa using callPrice_tendsto (r := r) Filter.atTop (Filter.eventually_gt_atTop 0) ht 1 0 h1 h2

theorem callPrice_zero (hs : 0 < s) (hk : 0 < k) (ht : 0 < t) :
    Filter.Tendsto (fun v => callPrice s k t r b v) (nhdsWithin 0 (Set.Ioi 0))
      (nhds (max (s * exp ((b - r) * t) - k * exp (-r * t)) 0)) := by
  have hw : (0:ℝ) < √t := by positivity
  have hl : ∀ᶠ v in nhdsWithin (0:ℝ) (Set.Ioi 0), 0 < v := eventually_mem_nhdsWithin
  have hid : ∀ c : ℝ, Filter.Tendsto (fun v : ℝ => c * v) (nhdsWithin 0 (Set.Ioi 0)) (nhds 0) := by
    intro c
    have : Filter.Tendsto (fun v : ℝ => c * v) (nhds 0) (nhds (c * 0)) :=
      (continuous_const.mul continuous_id).tendsto 0
    rw [mul_zero] at this
    exact this.mono_left nhdsWithin_le_nhds
  have hcmp : ∀ c : ℝ, c = log (s / k) + b * t →
      s * exp ((b - r) * t) = k * exp (-r * t) * exp c := by
    intro c hc
    rw [hc, exp_add, exp_log (by positivity), show (b - r) * t = b * t + -r * t by ring, exp_add]
    field_simp
  have hB : 0 < k * exp (-r * t) := by positivity
  have hcc := hcmp _ rfl
  rcases lt_trichotomy (log (s / k) + b * t) 0 with hc | hc | hc
  · have hi : Filter.Tendsto (fun v : ℝ => (log (s / k) + b * t) / √t * v⁻¹)
        (nhdsWithin 0 (Set.Ioi 0)) Filter.atBot :=
      tendsto_inv_nhdsGT_zero.const_mul_atTop_of_neg (div_neg_of_neg_of_pos hc hw)
    have h1 := N_atBot.comp (hi.atBot_add (hid (√t / 2)))
    have h2 := N_atBot.comp (hi.atBot_add (hid (-(√t / 2))))
    have := callPrice_tendsto (r := r) _ hl ht 0 0 h1 h2
    rw [max_eq_right]
    · simpa using this
    · rw [hcc]
      have : exp (log (s / k) + b * t) < 1 := by simpa using hc
      nlinarith
  · have e1 : (fun v : ℝ => N ((log (s / k) + b * t) / √t * v⁻¹ + √t / 2 * v)) =
        fun v => N (√t / 2 * v) := by funext v; rw [hc]; simp
    have e2 : (fun v : ℝ => N ((log (s / k) + b * t) / √t * v⁻¹ + -(√t / 2) * v)) =
        fun v => N (-(√t / 2) * v) := by funext v; rw [hc]; simp
    have hN : Filter.Tendsto N (nhds 0) (nhds (N 0)) := (N_deriv 0).continuousAt.tendsto
    have := callPrice_tendsto (s := s) (k := k) (b := b) (r := r) _ hl ht (N 0) (N 0)
      (by rw [e1]; exact hN.comp (hid _)) (by rw [e2]; exact hN.comp (hid _))
    rw [hc, exp_zero, mul_one] at hcc
    rw [hcc] at this ⊢
    simpa using this
  · have hi : Filter.Tendsto (fun v : ℝ => (log (s / k) + b * t) / √t * v⁻¹)
        (nhdsWithin 0 (Set.Ioi 0)) Filter.atTop :=
      tendsto_inv_nhdsGT_zero.const_mul_atTop (div_pos hc hw)
    have h1 := N_atTop.comp (hi.atTop_add (hid (√t / 2)))
    have h2 := N_atTop.comp (hi.atTop_add (hid (-(√t / 2))))
    have := callPrice_tendsto (r := r) _ hl ht 1 1 h1 h2
    rw [max_eq_left]
    · simpa using this
    · rw [hcc]
      have : 1 < exp (log (s / k) + b * t) := by simpa using hc
      nlinarith

end Verif.Options.Bsm
