import Verif.Options.FdErrorProps
import Verif.Options.BsmProps

/-! Helper lemmas for the comparison of the finite-difference pricer with the Black-Scholes-Merton formula: the
undiscounted put value as a function of the time to expiry and the logarithm of the price, its derivatives and their
bounds. -/

namespace Verif.Options.Bsm

open Real Verif.Distributions MeasureTheory ProbabilityTheory

/-- `d2` as a function of the time to expiry `t` and the logarithm `x` of the price. -/
noncomputable def dd (K r v t x : ℝ) : ℝ := (x - log K + (r - v ^ 2 / 2) * t) / (v * √t)

/-- The undiscounted value of the asset part of a put. -/
noncomputable def aa (K r v t x : ℝ) : ℝ := exp (x + r * t) * N (-(dd K r v t x + v * √t))

/-- The undiscounted value of a put. -/
noncomputable def uu (K r v t x : ℝ) : ℝ := K * N (-dd K r v t x) - aa K r v t x

/-- The strike times the density. -/
noncomputable def bb (K r v t x : ℝ) : ℝ := K * n (dd K r v t x)

variable {K r v t x : ℝ}

theorem d2_eq_dd {S : ℝ} (hS : 0 < S) (hK : 0 < K) (ht : 0 < t) (hv : 0 < v) :
    d2 S K t r v = dd K r v t (log S) := by
  have hw : (0:ℝ) < √t := by positivity
  have h2 : √t * √t = t := Real.mul_self_sqrt ht.le
  rw [d2, d1, dd, log_div hS.ne' hK.ne', sub_eq_iff_eq_add, div_add' _ _ _ (by positivity)]
  congr 1
  linear_combination (-v ^ 2) * h2

theorem put_eq_uu {S : ℝ} (hS : 0 < S) (hK : 0 < K) (ht : 0 < t) (hv : 0 < v) :
    putPrice S K t r r v = exp (-r * t) * uu K r v t (log S) := by
  have e1 : d1 S K t r v = d2 S K t r v + v * √t := by rw [d2]; ring
  rw [putPrice, e1, d2_eq_dd hS hK ht hv, uu, aa, exp_add, exp_log hS, sub_self, zero_mul, exp_zero]
  have : exp (-r * t) * exp (r * t) = 1 := by rw [← exp_add]; simp
  linear_combination (-S * N (-(dd K r v t (log S) + v * √t))) * this.symm

theorem key_dd (hK : 0 < K) (ht : 0 < t) (hv : 0 < v) :
    exp (x + r * t) * n (dd K r v t x + v * √t) = bb K r v t x := by
  have hw : (0:ℝ) < √t := by positivity
  have h2 : √t * √t = t := Real.mul_self_sqrt ht.le
  have hd : dd K r v t x * (v * √t) = x - log K + (r - v ^ 2 / 2) * t := by
    rw [dd, div_mul_cancel₀ _ (by positivity)]
  rw [bb, n_eq, n_eq]
  have e : x + r * t + -(dd K r v t x + v * √t) ^ 2 / 2 = log K + -dd K r v t x ^ 2 / 2 := by
    linear_combination (-1) * hd - v ^ 2 / 2 * h2
  calc exp (x + r * t) * ((√(2 * π))⁻¹ * exp (-(dd K r v t x + v * √t) ^ 2 / 2))
      = (√(2 * π))⁻¹ * exp (x + r * t + -(dd K r v t x + v * √t) ^ 2 / 2) := by
        rw [exp_add (x + r * t)]; ring
    _ = K * ((√(2 * π))⁻¹ * exp (-dd K r v t x ^ 2 / 2)) := by rw [e, exp_add, exp_log hK]; ring

theorem dd_dx : HasDerivAt (fun x => dd K r v t x) (1 / (v * √t)) x := by
  unfold dd
  exact ((((hasDerivAt_id x).sub_const _).add_const _).div_const _).congr_deriv (by simp)

theorem sqrt_dt (ht : 0 < t) : HasDerivAt (fun t => v * √t) (v / (2 * √t)) t :=
  ((Real.hasDerivAt_sqrt ht.ne').const_mul v).congr_deriv (by ring)

theorem dd_dt (ht : 0 < t) (hv : 0 < v) :
    HasDerivAt (fun t => dd K r v t x) (-dd K r v t x / (2 * t) + (r - v ^ 2 / 2) / (v * √t)) t := by
  have hw : (0:ℝ) < √t := by positivity
  have h2 : √t * √t = t := Real.mul_self_sqrt ht.le
  unfold dd
  have h := ((((hasDerivAt_id t).const_mul (r - v ^ 2 / 2)).const_add (x - log K)).div (sqrt_dt (v := v) ht)
    (by positivity))
  refine h.congr_deriv ?_
  simp only [id]
  set c := x - log K + (r - v ^ 2 / 2) * t
  rw [← h2]
  simp only [Real.sqrt_mul_self hw.le]
  field_simp
  ring

theorem aa_dx (hK : 0 < K) (ht : 0 < t) (hv : 0 < v) :
    HasDerivAt (fun x => aa K r v t x) (aa K r v t x - bb K r v t x / (v * √t)) x := by
  unfold aa
  have h1 : HasDerivAt (fun x => exp (x + r * t)) (exp (x + r * t)) x :=
    (((hasDerivAt_id x).add_const (r * t)).exp).congr_deriv (by simp)
  have h2 : HasDerivAt (fun x => N (-(dd K r v t x + v * √t)))
      (n (dd K r v t x + v * √t) * -(1 / (v * √t))) x := by
    have := (N_deriv (-(dd K r v t x + v * √t))).comp x ((dd_dx (K := K) (r := r) (v := v) (t := t) (x := x)).add_const
      (v * √t)).neg
    refine this.congr_deriv ?_
    rw [show n (-(dd K r v t x + v * √t)) = n (dd K r v t x + v * √t) from Gaussian.std_pdf_neg _]
  refine (h1.mul h2).congr_deriv ?_
  rw [← key_dd (x := x) (r := r) hK ht hv]
  ring

theorem bb_dx : HasDerivAt (fun x => bb K r v t x) (-dd K r v t x * bb K r v t x / (v * √t)) x := by
  unfold bb
  have := ((n_deriv (dd K r v t x)).comp x (dd_dx (K := K) (r := r) (v := v) (t := t) (x := x))).const_mul K
  exact this.congr_deriv (by ring)

theorem uu_dx (hK : 0 < K) (ht : 0 < t) (hv : 0 < v) :
    HasDerivAt (fun x => uu K r v t x) (-aa K r v t x) x := by
  unfold uu
  have h1 : HasDerivAt (fun x => N (-dd K r v t x)) (n (dd K r v t x) * -(1 / (v * √t))) x := by
    have := (N_deriv (-dd K r v t x)).comp x (dd_dx (K := K) (r := r) (v := v) (t := t) (x := x)).neg
    refine this.congr_deriv ?_
    rw [show n (-dd K r v t x) = n (dd K r v t x) from Gaussian.std_pdf_neg _]
  refine ((h1.const_mul K).sub (aa_dx hK ht hv)).congr_deriv ?_
  unfold bb
  ring

theorem aa_dt (hK : 0 < K) (ht : 0 < t) (hv : 0 < v) :
    HasDerivAt (fun t => aa K r v t x) (r * aa K r v t x - bb K r v t x *
      (-dd K r v t x / (2 * t) + (r - v ^ 2 / 2) / (v * √t) + v / (2 * √t))) t := by
  unfold aa
  have h1 : HasDerivAt (fun t => exp (x + r * t)) (exp (x + r * t) * r) t :=
    ((((hasDerivAt_id t).const_mul r).const_add x).exp).congr_deriv (by simp)
  have h2 : HasDerivAt (fun t => N (-(dd K r v t x + v * √t)))
      (n (dd K r v t x + v * √t) * -(-dd K r v t x / (2 * t) + (r - v ^ 2 / 2) / (v * √t) + v / (2 * √t))) t := by
    have := (N_deriv (-(dd K r v t x + v * √t))).comp t ((dd_dt (K := K) (r := r) (x := x) ht hv).add
      (sqrt_dt (v := v) ht)).neg
    refine this.congr_deriv ?_
    rw [show n (-(dd K r v t x + v * √t)) = n (dd K r v t x + v * √t) from Gaussian.std_pdf_neg _]
  refine (h1.mul h2).congr_deriv ?_
  rw [← key_dd (x := x) (r := r) hK ht hv]
  ring

theorem bb_dt (ht : 0 < t) (hv : 0 < v) : HasDerivAt (fun t => bb K r v t x)
    (-dd K r v t x * bb K r v t x * (-dd K r v t x / (2 * t) + (r - v ^ 2 / 2) / (v * √t))) t := by
  unfold bb
  have := ((n_deriv (dd K r v t x)).comp t (dd_dt (K := K) (r := r) (x := x) ht hv)).const_mul K
  exact this.congr_deriv (by ring)

theorem uu_dt (hK : 0 < K) (ht : 0 < t) (hv : 0 < v) :
    HasDerivAt (fun t => uu K r v t x) (-r * aa K r v t x + bb K r v t x * (v / (2 * √t))) t := by
  unfold uu
  have h1 : HasDerivAt (fun t => N (-dd K r v t x))
      (n (dd K r v t x) * -(-dd K r v t x / (2 * t) + (r - v ^ 2 / 2) / (v * √t))) t := by
    have := (N_deriv (-dd K r v t x)).comp t (dd_dt (K := K) (r := r) (x := x) ht hv).neg
    refine this.congr_deriv ?_
    rw [show n (-dd K r v t x) = n (dd K r v t x) from Gaussian.std_pdf_neg _]
  refine ((h1.const_mul K).sub (aa_dt hK ht hv)).congr_deriv ?_
  unfold bb
  ring

/-! ### Bounds -/

theorem n_bound (d : ℝ) : n d * (2 + d ^ 2) ≤ 1 := by
  rw [n_eq]
  have h1 : 2 ≤ √(2 * π) := by
    rw [Real.le_sqrt (by norm_num) (by positivity)]
    have := Real.two_le_pi
    linarith
  have h2 : exp (-d ^ 2 / 2) * (1 + d ^ 2 / 2) ≤ 1 := by
    have := add_one_le_exp (d ^ 2 / 2)
    have e : exp (-d ^ 2 / 2) * exp (d ^ 2 / 2) = 1 := by rw [← exp_add, ← exp_zero]; congr 1; ring
    have hp := exp_pos (-d ^ 2 / 2)
    nlinarith
  have h3 : (√(2 * π))⁻¹ ≤ 1 / 2 := by
    rw [one_div]; exact inv_anti₀ (by norm_num) h1
  have h4 : (0:ℝ) ≤ (√(2 * π))⁻¹ := by positivity
  have hp := exp_pos (-d ^ 2 / 2)
  have h5 : 0 ≤ exp (-d ^ 2 / 2) * (1 + d ^ 2 / 2) := by positivity
  nlinarith

theorem bb_nonneg (hK : 0 < K) : 0 ≤ bb K r v t x := (mul_pos hK (n_pos _)).le

theorem bb_bound (hK : 0 < K) : bb K r v t x * (2 + dd K r v t x ^ 2) ≤ K := by
  unfold bb
  have := n_bound (dd K r v t x)
  nlinarith

theorem bb_le (hK : 0 < K) : bb K r v t x ≤ K / 2 := by
  have := bb_bound (K := K) (r := r) (v := v) (t := t) (x := x) hK
  have := mul_nonneg (bb_nonneg (K := K) (r := r) (v := v) (t := t) (x := x) hK) (sq_nonneg (dd K r v t x))
  linarith

theorem bb_le1 (hK : 0 < K) : |dd K r v t x * bb K r v t x| ≤ K / 2 := by
  have h := bb_bound (K := K) (r := r) (v := v) (t := t) (x := x) hK
  have h0 := bb_nonneg (K := K) (r := r) (v := v) (t := t) (x := x) hK
  rw [abs_le]
  constructor <;> nlinarith [mul_nonneg h0 (sq_nonneg (dd K r v t x - 1)), mul_nonneg h0 (sq_nonneg (dd K r v t x + 1))]

theorem bb_le2 (hK : 0 < K) : dd K r v t x ^ 2 * bb K r v t x ≤ K := by
  have h := bb_bound (K := K) (r := r) (v := v) (t := t) (x := x) hK
  have h0 := bb_nonneg (K := K) (r := r) (v := v) (t := t) (x := x) hK
  nlinarith

theorem bb_le3 (hK : 0 < K) : |(dd K r v t x ^ 2 - 1) * bb K r v t x| ≤ K := by
  have h := bb_bound (K := K) (r := r) (v := v) (t := t) (x := x) hK
  have h0 := bb_nonneg (K := K) (r := r) (v := v) (t := t) (x := x) hK
  have h1 := mul_nonneg h0 (sq_nonneg (dd K r v t x))
  rw [abs_le]
  constructor <;> nlinarith

theorem uu_integral (hK : 0 < K) (ht : 0 < t) (hv : 0 < v) :
    uu K r v t x = ∫ z, max (K - exp (x + ((r - v ^ 2 / 2) * t + v * √t * z))) 0 ∂gaussianReal 0 1 := by
  have h := (C47_expectation (s := exp x) (k := K) (t := t) (r := r) (b := r) (v := v) (exp_pos x) hK ht hv).2
  rw [put_eq_uu (exp_pos x) hK ht hv, log_exp] at h
  have := mul_left_cancel₀ (exp_pos (-r * t)).ne' h
  rw [this]
  simp only [spotAt, exp_add x]

theorem payoff_integrable (K x c w : ℝ) :
    Integrable (fun z => max (K - exp (x + (c + w * z))) 0) (gaussianReal 0 1) := by
  have h : Integrable (fun z => exp (x + (c + w * z))) (gaussianReal 0 1) := by
    refine (lognormal_integrable (exp x) c w).congr (Filter.Eventually.of_forall fun z => ?_)
    simp only [exp_add x]
  exact ((integrable_const K).sub h).sup (integrable_const 0)

theorem uu_nonneg (hK : 0 < K) (ht : 0 < t) (hv : 0 < v) : 0 ≤ uu K r v t x := by
  rw [uu_integral hK ht hv]
  exact integral_nonneg fun z => le_max_right _ _

theorem aa_nonneg : 0 ≤ aa K r v t x := (mul_pos (exp_pos _) (N_pos _)).le

theorem uu_le (hK : 0 < K) : uu K r v t x ≤ K := by
  have h1 := N_lt_one (-dd K r v t x)
  have := aa_nonneg (K := K) (r := r) (v := v) (t := t) (x := x)
  unfold uu
  nlinarith

theorem aa_le (hK : 0 < K) (ht : 0 < t) (hv : 0 < v) : aa K r v t x ≤ K := by
  have h0 := uu_nonneg (K := K) (r := r) (v := v) (t := t) (x := x) hK ht hv
  have h1 := N_lt_one (-dd K r v t x)
  unfold uu at h0
  nlinarith

theorem payoff_lipschitz (hK : 0 < K) (x y : ℝ) : max (K - exp x) 0 - max (K - exp y) 0 ≤ K * |x - y| := by
  have hn : 0 ≤ K * |x - y| := by positivity
  rcases le_total (K - exp x) 0 with h | h
  · rw [max_eq_right h]
    have := le_max_right (K - exp y) 0
    linarith
  · rw [max_eq_left h]
    have h1 := le_max_left (K - exp y) 0
    rcases le_total y x with hyx | hyx
    · have := exp_le_exp.mpr hyx
      linarith
    · -- e^y - e^x; either beyond the strike or by the mean value
      rcases le_total (exp y) K with h2 | h2
      · have h3 : exp y - exp x ≤ exp y * (y - x) := by
          have := add_one_le_exp (x - y)
          have e : exp x = exp y * exp (x - y) := by rw [← exp_add]; congr 1; ring
          have hp := exp_pos y
          nlinarith
        rw [abs_of_nonpos (by linarith), neg_sub]
        have := mul_le_mul_of_nonneg_right h2 (sub_nonneg.mpr hyx)
        linarith
      · have h2' := le_max_right (K - exp y) 0
        have h3 : K - exp x ≤ K * (log K - x) := by
          have := add_one_le_exp (x - log K)
          have e : exp x = K * exp (x - log K) := by rw [exp_sub, exp_log hK]; field_simp
          nlinarith
        have h4 : log K ≤ y := by rwa [Real.log_le_iff_le_exp hK]
        rw [abs_of_nonpos (by linarith), neg_sub]
        have := mul_le_mul_of_nonneg_left (sub_le_sub_right h4 x) hK.le
        linarith

theorem payoff_lipschitz' (hK : 0 < K) (x y : ℝ) : |max (K - exp x) 0 - max (K - exp y) 0| ≤ K * |x - y| := by
  rw [abs_le]
  have h1 := payoff_lipschitz hK x y
  have h2 := payoff_lipschitz hK y x
  rw [abs_sub_comm] at h2
  constructor <;> linarith

theorem abs_integral_le_one : ∫ z, |z| ∂gaussianReal 0 1 ≤ 1 := by
  have i2 : Integrable (fun z : ℝ => z ^ 2) (gaussianReal 0 1) :=
    (memLp_id_gaussianReal (μ := 0) (v := 1) 2).integrable_sq
  have h : ∫ z, |z| ∂gaussianReal 0 1 ≤ ∫ z, (1 / 2 + z ^ 2 / 2) ∂gaussianReal 0 1 := by
    refine integral_mono_of_nonneg (Filter.Eventually.of_forall fun z => abs_nonneg z)
      ((integrable_const _).add (i2.div_const 2)) (Filter.Eventually.of_forall fun z => ?_)
    simp only
    nlinarith [sq_nonneg (|z| - 1), sq_abs z]
  refine h.trans ?_
  rw [integral_add (integrable_const _) (i2.div_const 2), integral_div 2 (fun z : ℝ => z ^ 2)]
  have hv := variance_id_gaussianReal (μ := 0) (v := 1)
  rw [variance_eq_integral measurable_id.aemeasurable] at hv
  simp only [id, integral_id_gaussianReal, sub_zero] at hv
  rw [hv]
  norm_num

/-- Just before expiry the value is close to the payoff. -/
theorem uu_payoff (hK : 0 < K) (ht : 0 < t) (hv : 0 < v) :
    |max (K - exp x) 0 - uu K r v t x| ≤ K * (|r - v ^ 2 / 2| * t + v * √t) := by
  have hi := payoff_integrable K x ((r - v ^ 2 / 2) * t) (v * √t)
  have e : max (K - exp x) 0 = ∫ _z : ℝ, max (K - exp x) 0 ∂gaussianReal 0 1 := by simp
  rw [uu_integral hK ht hv, e, ← integral_sub (integrable_const _) hi]
  have ia : Integrable (fun z : ℝ => |z|) (gaussianReal 0 1) :=
    ((memLp_id_gaussianReal (μ := 0) (v := 1) 1).integrable le_rfl).abs
  have ib : Integrable (fun z : ℝ => K * (|r - v ^ 2 / 2| * t + v * √t * |z|)) (gaussianReal 0 1) :=
    ((integrable_const _).add (ia.const_mul _)).const_mul _
  refine (abs_integral_le_integral_abs).trans ?_
  refine (integral_mono_of_nonneg (Filter.Eventually.of_forall fun z => abs_nonneg _) ib
    (Filter.Eventually.of_forall fun z => ?_)).trans ?_
  · refine (payoff_lipschitz' hK _ _).trans (mul_le_mul_of_nonneg_left ?_ hK.le)
    rw [sub_add_cancel_left, abs_neg]
    refine (abs_add_le _ _).trans (le_of_eq ?_)
    rw [abs_mul, abs_mul, abs_of_pos ht, abs_of_pos (show 0 < v * √t by positivity)]
  · rw [integral_const_mul, integral_add (integrable_const _) (ia.const_mul _), integral_const_mul (v * √t) (fun z : ℝ => |z|)]
    simp only [integral_const, probReal_univ, one_smul]
    have := abs_integral_le_one
    have hp : 0 < v * √t := by positivity
    refine mul_le_mul_of_nonneg_left ?_ hK.le
    nlinarith

theorem inv_mono {δ : ℝ} (hδ : 0 < δ) (ht : δ ≤ t) : 0 < (√t)⁻¹ ∧ (√t)⁻¹ ≤ (√δ)⁻¹ := by
  have h : 0 < √δ := by positivity
  have h2 : √δ ≤ √t := Real.sqrt_le_sqrt ht
  exact ⟨by have := h.trans_le h2; positivity, inv_anti₀ h h2⟩

/-- Bound of the third derivative in the logarithm of the price, at least `δ` before expiry. -/
theorem uu_bound3 {δ : ℝ} (hK : 0 < K) (hδ : 0 < δ) (ht : δ ≤ t) (hv : 0 < v) :
    |-aa K r v t x + bb K r v t x / (v * √t) - dd K r v t x * bb K r v t x / (v * √t) ^ 2| ≤
      K * (1 + 1 / (v * √δ) + 1 / (v * √δ) ^ 2) := by
  have ht0 := hδ.trans_le ht
  have hs : 0 < v * √δ := by positivity
  have hst : v * √δ ≤ v * √t := mul_le_mul_of_nonneg_left (Real.sqrt_le_sqrt ht) hv.le
  have hs' : 0 < v * √t := hs.trans_le hst
  have a0 := aa_nonneg (K := K) (r := r) (v := v) (t := t) (x := x)
  have a1 := aa_le (K := K) (r := r) (v := v) (t := t) (x := x) hK ht0 hv
  have b0 := bb_nonneg (K := K) (r := r) (v := v) (t := t) (x := x) hK
  have b1 := bb_le (K := K) (r := r) (v := v) (t := t) (x := x) hK
  have b2 := bb_le1 (K := K) (r := r) (v := v) (t := t) (x := x) hK
  have c1 : |bb K r v t x / (v * √t)| ≤ K * (1 / (v * √δ)) := by
    rw [abs_of_nonneg (by positivity), mul_one_div]
    exact div_le_div₀ hK.le (by linarith) hs hst
  have c2 : |dd K r v t x * bb K r v t x / (v * √t) ^ 2| ≤ K * (1 / (v * √δ) ^ 2) := by
    rw [abs_div, abs_of_pos (show 0 < (v * √t) ^ 2 by positivity), mul_one_div]
    exact div_le_div₀ hK.le (by linarith) (by positivity) (pow_le_pow_left₀ hs.le hst 2)
  have c0 : |-aa K r v t x| ≤ K := by rw [abs_neg, abs_of_nonneg a0]; exact a1
  refine (abs_sub _ _).trans ?_
  have := abs_add_le (-aa K r v t x) (bb K r v t x / (v * √t))
  linarith

/-- Bound of the fourth derivative in the logarithm of the price, at least `δ` before expiry. -/
theorem uu_bound4 {δ : ℝ} (hK : 0 < K) (hδ : 0 < δ) (ht : δ ≤ t) (hv : 0 < v) :
    |-aa K r v t x + bb K r v t x / (v * √t) - dd K r v t x * bb K r v t x / (v * √t) ^ 2 +
      (dd K r v t x ^ 2 - 1) * bb K r v t x / (v * √t) ^ 3| ≤
      K * (1 + 1 / (v * √δ) + 1 / (v * √δ) ^ 2 + 1 / (v * √δ) ^ 3) := by
  have h3 := uu_bound3 (r := r) (x := x) hK hδ ht hv
  have hs : 0 < v * √δ := by positivity
  have hst : v * √δ ≤ v * √t := mul_le_mul_of_nonneg_left (Real.sqrt_le_sqrt ht) hv.le
  have hs' : 0 < v * √t := hs.trans_le hst
  have b3 := bb_le3 (K := K) (r := r) (v := v) (t := t) (x := x) hK
  have c3 : |(dd K r v t x ^ 2 - 1) * bb K r v t x / (v * √t) ^ 3| ≤ K * (1 / (v * √δ) ^ 3) := by
    rw [abs_div, abs_of_pos (show 0 < (v * √t) ^ 3 by positivity), mul_one_div]
    exact div_le_div₀ hK.le b3 (by positivity) (pow_le_pow_left₀ hs.le hst 3)
  refine (abs_add_le _ _).trans ?_
  linarith

/-- The second derivative in time. -/
noncomputable def uutt (K r v t x : ℝ) : ℝ :=
  -r * (r * aa K r v t x - bb K r v t x *
      (-dd K r v t x / (2 * t) + (r - v ^ 2 / 2) / (v * √t) + v / (2 * √t))) +
    (-dd K r v t x * bb K r v t x * (-dd K r v t x / (2 * t) + (r - v ^ 2 / 2) / (v * √t)) * (v / (2 * √t)) +
      bb K r v t x * -(v / (4 * (t * √t))))

theorem uu_dtt (hK : 0 < K) (ht : 0 < t) (hv : 0 < v) :
    HasDerivAt (fun t => -r * aa K r v t x + bb K r v t x * (v / (2 * √t))) (uutt K r v t x) t := by
  have hw : (0:ℝ) < √t := by positivity
  have h1 : HasDerivAt (fun t => v / (2 * √t)) (-(v / (4 * (t * √t)))) t := by
    have := (hasDerivAt_const t v).div ((Real.hasDerivAt_sqrt ht.ne').const_mul 2) (by positivity)
    refine this.congr_deriv ?_
    have h2 : √t ^ 2 = t := Real.sq_sqrt ht.le
    rw [mul_pow, h2]
    field_simp
    ring
  exact ((aa_dt hK ht hv).const_mul (-r)).add ((bb_dt ht hv).mul h1)

/-- Bound of the second derivative in time, at least `δ` before expiry. -/
theorem uu_bound2 {δ : ℝ} (hK : 0 < K) (hr : 0 < r) (hδ : 0 < δ) (ht : δ ≤ t) (hv : 0 < v) :
    |uutt K r v t x| ≤ K * (r ^ 2 + r * (1 / δ + |r - v ^ 2 / 2| / (v * √δ) + v / √δ) +
      v / √δ * (2 / δ + |r - v ^ 2 / 2| / (v * √δ))) := by
  have ht0 := hδ.trans_le ht
  have hq : 0 < √δ := by positivity
  have hqt : √δ ≤ √t := Real.sqrt_le_sqrt ht
  have hq' := hq.trans_le hqt
  have hs : 0 < v * √δ := by positivity
  have hst : v * √δ ≤ v * √t := mul_le_mul_of_nonneg_left hqt hv.le
  have hs' : 0 < v * √t := hs.trans_le hst
  set A := aa K r v t x
  set B := bb K r v t x
  set d := dd K r v t x
  set ν := r - v ^ 2 / 2
  have a0 : 0 ≤ A := aa_nonneg
  have a1 : A ≤ K := aa_le hK ht0 hv
  have b0 : 0 ≤ B := bb_nonneg hK
  have b1 : B ≤ K / 2 := bb_le hK
  have b2 : |d * B| ≤ K / 2 := bb_le1 hK
  have b3 : d ^ 2 * B ≤ K := bb_le2 hK
  have e : uutt K r v t x = -(r ^ 2 * A) + r * (-(d * B / (2 * t)) + ν * B / (v * √t) + B * v / (2 * √t)) +
      (v / (2 * √t)) * (d ^ 2 * B / (2 * t) - ν * (d * B) / (v * √t) - B / (2 * t)) := by
    change -r * (r * A - B * (-d / (2 * t) + ν / (v * √t) + v / (2 * √t))) +
      (-d * B * (-d / (2 * t) + ν / (v * √t)) * (v / (2 * √t)) + B * -(v / (4 * (t * √t)))) = _
    field_simp
    ring
  have t1 : |r ^ 2 * A| ≤ r ^ 2 * K := by
    rw [abs_of_nonneg (by positivity)]
    exact mul_le_mul_of_nonneg_left a1 (by positivity)
  have t2 : |d * B / (2 * t)| ≤ K / δ := by
    rw [abs_div, abs_of_pos (show 0 < 2 * t by positivity)]
    exact div_le_div₀ hK.le (by linarith) hδ (by linarith)
  have t3 : |ν * B / (v * √t)| ≤ |ν| * K / (v * √δ) := by
    rw [abs_div, abs_of_pos hs', abs_mul, abs_of_nonneg b0]
    exact div_le_div₀ (by positivity) (mul_le_mul_of_nonneg_left (by linarith) (abs_nonneg _)) hs hst
  have t4 : |B * v / (2 * √t)| ≤ K * v / √δ := by
    rw [abs_of_nonneg (by positivity)]
    exact div_le_div₀ (by positivity) (mul_le_mul_of_nonneg_right (by linarith) hv.le) hq (by linarith)
  have t5 : |d ^ 2 * B / (2 * t)| ≤ K / δ := by
    rw [abs_of_nonneg (by positivity)]
    exact div_le_div₀ hK.le b3 hδ (by linarith)
  have t6 : |ν * (d * B) / (v * √t)| ≤ |ν| * K / (v * √δ) := by
    rw [abs_div, abs_of_pos hs', abs_mul]
    exact div_le_div₀ (by positivity) (mul_le_mul_of_nonneg_left (by linarith) (abs_nonneg _)) hs hst
  have t7 : |B / (2 * t)| ≤ K / δ := by
    rw [abs_of_nonneg (by positivity)]
    exact div_le_div₀ hK.le (by linarith) hδ (by linarith)
  have u1 : |-(d * B / (2 * t)) + ν * B / (v * √t) + B * v / (2 * √t)| ≤ K / δ + |ν| * K / (v * √δ) + K * v / √δ := by
    refine (abs_add_three _ _ _).trans ?_
    rw [abs_neg]
    linarith
  have u2 : |d ^ 2 * B / (2 * t) - ν * (d * B) / (v * √t) - B / (2 * t)| ≤ K / δ + |ν| * K / (v * √δ) + K / δ := by
    refine (abs_sub _ _).trans ?_
    have := abs_sub (d ^ 2 * B / (2 * t)) (ν * (d * B) / (v * √t))
    linarith
  have u3 : v / (2 * √t) ≤ v / √δ := div_le_div₀ hv.le le_rfl hq (by linarith)
  rw [e]
  refine (abs_add_three _ _ _).trans ?_
  rw [abs_neg, abs_mul r, abs_of_pos hr, abs_mul (v / (2 * √t)), abs_of_nonneg (show 0 ≤ v / (2 * √t) by positivity)]
  have w1 := mul_le_mul_of_nonneg_left u1 hr.le
  have w2 := mul_le_mul u3 u2 (abs_nonneg _) (by positivity)
  refine (add_le_add (add_le_add t1 w1) w2).trans (le_of_eq ?_)
  ring

/-- The value changes slowly in time away from expiry. -/
theorem uu_shift {δ : ℝ} (hK : 0 < K) (hr : 0 < r) (ht : 0 < t) (hδ : 0 ≤ δ) (hv : 0 < v) :
    |uu K r v (t + δ) x - uu K r v t x| ≤ K * (r + v / (4 * √t)) * δ := by
  have hb : ∀ y ∈ Set.Icc t (t + δ), ‖-r * aa K r v y x + bb K r v y x * (v / (2 * √y))‖ ≤ K * (r + v / (4 * √t)) := by
    intro y hy
    have hy0 := ht.trans_le hy.1
    have a0 := aa_nonneg (K := K) (r := r) (v := v) (t := y) (x := x)
    have a1 := aa_le (K := K) (r := r) (v := v) (t := y) (x := x) hK hy0 hv
    have b0 := bb_nonneg (K := K) (r := r) (v := v) (t := y) (x := x) hK
    have b1 := bb_le (K := K) (r := r) (v := v) (t := y) (x := x) hK
    have hq : 0 < √t := by positivity
    have hqy : √t ≤ √y := Real.sqrt_le_sqrt hy.1
    have hqp := hq.trans_le hqy
    have c1 : bb K r v y x * (v / (2 * √y)) ≤ K / 2 * (v / (2 * √t)) :=
      mul_le_mul b1 (div_le_div₀ hv.le le_rfl (by positivity) (by linarith)) (by positivity) (by positivity)
    have c0 : 0 ≤ bb K r v y x * (v / (2 * √y)) := by positivity
    have c2 := mul_le_mul_of_nonneg_left a1 hr.le
    have c3 := mul_nonneg hr.le a0
    have e : K * (r + v / (4 * √t)) = r * K + K / 2 * (v / (2 * √t)) := by field_simp; ring
    have c4 : 0 ≤ K / 2 * (v / (2 * √t)) := by positivity
    have c5 := mul_nonneg hr.le hK.le
    rw [Real.norm_eq_abs, e, abs_le]
    constructor <;> linarith
  have := (convex_Icc t (t + δ)).norm_image_sub_le_of_norm_hasDerivWithin_le (f := fun t => uu K r v t x)
    (fun y hy => (uu_dt hK (ht.trans_le hy.1) hv).hasDerivWithinAt) hb
    (Set.left_mem_Icc.mpr (by linarith)) (Set.right_mem_Icc.mpr (by linarith))
  simpa [Real.norm_eq_abs, abs_of_nonneg hδ] using this

theorem uu_lipschitz (hK : 0 < K) (ht : 0 < t) (hv : 0 < v) (x y : ℝ) :
    |uu K r v t x - uu K r v t y| ≤ K * |x - y| := by
  have := convex_univ.norm_image_sub_le_of_norm_hasDerivWithin_le (f := fun x => uu K r v t x) (C := K)
    (fun y _ => (uu_dx hK ht hv).hasDerivWithinAt) (fun y _ => by
      rw [norm_neg, Real.norm_eq_abs, abs_of_nonneg aa_nonneg]
      exact aa_le hK ht hv) (Set.mem_univ y) (Set.mem_univ x)
  simpa [Real.norm_eq_abs] using this

end Verif.Options.Bsm
