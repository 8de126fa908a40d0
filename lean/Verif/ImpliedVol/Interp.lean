import Verif.ImpliedVol.Model
import Mathlib.Analysis.Calculus.Deriv.MeanValue
import Mathlib.Analysis.Calculus.Deriv.Inv
import Mathlib.Analysis.Calculus.Deriv.Pow

/-! Helper lemmas about the rational cubic interpolation. -/

namespace Verif.ImpliedVol

open Real Set Classical

variable {xl xr yl yr dl dr r : ℝ}

/-- Numerator and denominator in the reduced variable. -/
noncomputable def P (h yl yr dl dr r t : ℝ) : ℝ :=
  yr * t ^ 3 + (r * yr - h * dr) * t ^ 2 * (1 - t) + (r * yl + h * dl) * t * (1 - t) ^ 2 + yl * (1 - t) ^ 3

noncomputable def Q (r t : ℝ) : ℝ := 1 + (r - 3) * t * (1 - t)

theorem Q_pos (hr : -1 < r) (t : ℝ) (h0 : 0 ≤ t) (h1 : t ≤ 1) : 0 < Q r t := by
  have e : Q r t = (1 - 2 * t) ^ 2 + (r + 1) * (t * (1 - t)) := by unfold Q; ring
  have hw : 0 ≤ t * (1 - t) := mul_nonneg h0 (by linarith)
  rcases hw.lt_or_eq with h | h
  · rw [e]
    have : 0 < (r + 1) * (t * (1 - t)) := mul_pos (by linarith) h
    positivity
  · rw [Q, mul_assoc, ← h]; norm_num

theorem interpolation_eq (hx : xl < xr) (hm : r < maxControl) (x : ℝ) :
    interpolation x xl xr yl yr dl dr r = P (xr - xl) yl yr dl dr r ((x - xl) / (xr - xl)) / Q r ((x - xl) / (xr - xl)) := by
  have h0 : ¬ |xr - xl| ≤ 0 := by
    rw [not_le, abs_pos]; linarith
  simp only [interpolation, h0, hm, if_false, if_true, P, Q]
  congr 1; ring

theorem interpolation_linear (hx : xl < xr) (hm : ¬ r < maxControl) (x : ℝ) :
    interpolation x xl xr yl yr dl dr r = yr * ((x - xl) / (xr - xl)) + yl * (1 - (x - xl) / (xr - xl)) := by
  have h0 : ¬ |xr - xl| ≤ 0 := by
    rw [not_le, abs_pos]; linarith
  simp only [interpolation, h0, hm, if_false]

theorem P_deriv (h t : ℝ) : HasDerivAt (P h yl yr dl dr r)
    (3 * yr * t ^ 2 + (r * yr - h * dr) * (2 * t * (1 - t) - t ^ 2) + (r * yl + h * dl) * ((1 - t) ^ 2 - 2 * t * (1 - t))
      - 3 * yl * (1 - t) ^ 2) t := by
  have ht := hasDerivAt_id t
  have ho : HasDerivAt (fun t : ℝ => 1 - t) (-1) t := by simpa using ht.const_sub 1
  have h1 := ((((ht.fun_pow 3).const_mul yr).fun_add ((((ht.fun_pow 2).const_mul (r * yr - h * dr)).fun_mul ho))).fun_add
    (((ht.const_mul (r * yl + h * dl)).fun_mul (ho.fun_pow 2)))).fun_add ((ho.fun_pow 3).const_mul yl)
  refine h1.congr_deriv ?_
  simp only [id]; push_cast; ring

theorem Q_deriv (t : ℝ) : HasDerivAt (Q r) ((r - 3) * (1 - 2 * t)) t := by
  have ht := hasDerivAt_id t
  have ho : HasDerivAt (fun t : ℝ => 1 - t) (-1) t := by simpa using ht.const_sub 1
  refine (((ht.const_mul (r - 3)).fun_mul ho).const_add 1).congr_deriv ?_
  simp only [id]; ring

/-- The numerator of the derivative. -/
noncomputable def P' (yl yr dl dr r h t : ℝ) : ℝ :=
  dr * t ^ 4 + 2 * (r * ((yr - yl) / h) - dl) * t ^ 3 * (1 - t)
    + ((r ^ 2 + 3) * ((yr - yl) / h) - r * (dl + dr)) * t ^ 2 * (1 - t) ^ 2
    + 2 * (r * ((yr - yl) / h) - dr) * t * (1 - t) ^ 3 + dl * (1 - t) ^ 4

theorem rational_deriv (hx : xl < xr) (hm : r < maxControl) (x : ℝ) (hQ : Q r ((x - xl) / (xr - xl)) ≠ 0) :
    HasDerivAt (fun x => interpolation x xl xr yl yr dl dr r)
      (P' yl yr dl dr r (xr - xl) ((x - xl) / (xr - xl)) / Q r ((x - xl) / (xr - xl)) ^ 2) x := by
  simp only [interpolation_eq hx hm]
  have h0 : xr - xl ≠ 0 := by linarith
  have ht : HasDerivAt (fun x => (x - xl) / (xr - xl)) (1 / (xr - xl)) x :=
    ((hasDerivAt_id x).sub_const xl).div_const _
  have h1 := (((P_deriv (yl := yl) (yr := yr) (dl := dl) (dr := dr) (r := r) (xr - xl) _).fun_div (Q_deriv (r := r) _)
    hQ)).comp x ht
  refine h1.congr_deriv ?_
  generalize (x - xl) / (xr - xl) = t at hQ ⊢
  rw [div_mul_eq_mul_div]
  congr 1
  rw [mul_one_div, div_eq_iff h0]
  unfold P P' Q
  field_simp
  ring

theorem value_left (hx : xl < xr) : interpolation xl xl xr yl yr dl dr r = yl := by
  by_cases hm : r < maxControl
  · rw [interpolation_eq hx hm]; simp [P, Q]
  · rw [interpolation_linear hx hm]; simp

theorem value_right (hx : xl < xr) : interpolation xr xl xr yl yr dl dr r = yr := by
  have : xr - xl ≠ 0 := by linarith
  by_cases hm : r < maxControl
  · rw [interpolation_eq hx hm, div_self this]; simp [P, Q]
  · rw [interpolation_linear hx hm, div_self this]; simp

theorem slope_left (hx : xl < xr) (hm : r < maxControl) :
    HasDerivAt (fun x => interpolation x xl xr yl yr dl dr r) dl xl := by
  refine (rational_deriv hx hm xl (by simp [Q])).congr_deriv ?_
  simp [P', Q]

theorem slope_right (hx : xl < xr) (hm : r < maxControl) :
    HasDerivAt (fun x => interpolation x xl xr yl yr dl dr r) dr xr := by
  have h : (xr - xl) / (xr - xl) = 1 := div_self (by linarith)
  refine (rational_deriv hx hm xr (by simp [Q, h])).congr_deriv ?_
  rw [h]; simp [P', Q]

theorem second_aux (t : ℝ) (h : ℝ) (hQ : Q r t ≠ 0) : HasDerivAt (fun t => P' yl yr dl dr r h t / Q r t ^ 2)
    (((4 * dr * t ^ 3 + 2 * (r * ((yr - yl) / h) - dl) * (3 * t ^ 2 * (1 - t) - t ^ 3)
      + ((r ^ 2 + 3) * ((yr - yl) / h) - r * (dl + dr)) * (2 * t * (1 - t) ^ 2 - 2 * t ^ 2 * (1 - t))
      + 2 * (r * ((yr - yl) / h) - dr) * ((1 - t) ^ 3 - 3 * t * (1 - t) ^ 2) - 4 * dl * (1 - t) ^ 3) * Q r t ^ 2
      - P' yl yr dl dr r h t * (2 * Q r t * ((r - 3) * (1 - 2 * t)))) / (Q r t ^ 2) ^ 2) t := by
  have ht := hasDerivAt_id t
  have ho : HasDerivAt (fun t : ℝ => 1 - t) (-1) t := by simpa using ht.const_sub 1
  have h1 := ((((((ht.fun_pow 4).const_mul dr).fun_add (((ht.fun_pow 3).const_mul (2 * (r * ((yr - yl) / h) - dl))).fun_mul
    ho)).fun_add (((ht.fun_pow 2).const_mul ((r ^ 2 + 3) * ((yr - yl) / h) - r * (dl + dr))).fun_mul
    (ho.fun_pow 2))).fun_add ((ht.const_mul (2 * (r * ((yr - yl) / h) - dr))).fun_mul (ho.fun_pow 3))).fun_add
    ((ho.fun_pow 4).const_mul dl)).fun_div ((Q_deriv (r := r) t).fun_pow 2) (pow_ne_zero 2 hQ)
  refine h1.congr_deriv ?_
  congr 1
  simp only [id, P']
  push_cast
  ring

/-- The second derivative at the left end. -/
theorem second_left (hx : xl < xr) (hm : r < maxControl) :
    HasDerivAt (deriv fun x => interpolation x xl xr yl yr dl dr r)
      (2 / (xr - xl) * (r * ((yr - yl) / (xr - xl) - dl) - (dr - dl))) xl := by
  have h0 : xr - xl ≠ 0 := by linarith
  have hev : ∀ᶠ x in nhds xl, Q r ((x - xl) / (xr - xl)) ≠ 0 := by
    have hc : ContinuousAt (fun x => Q r ((x - xl) / (xr - xl))) xl := by unfold Q; fun_prop
    exact hc.eventually_ne (by simp [Q])
  have he : (deriv fun x => interpolation x xl xr yl yr dl dr r) =ᶠ[nhds xl]
      fun x => P' yl yr dl dr r (xr - xl) ((x - xl) / (xr - xl)) / Q r ((x - xl) / (xr - xl)) ^ 2 :=
    hev.mono fun x hq => (rational_deriv hx hm x hq).deriv
  refine HasDerivAt.congr_of_eventuallyEq ?_ he
  have ht : HasDerivAt (fun x => (x - xl) / (xr - xl)) (1 / (xr - xl)) xl :=
    ((hasDerivAt_id xl).sub_const xl).div_const _
  have h1 := (second_aux (yl := yl) (yr := yr) (dl := dl) (dr := dr) (r := r) ((xl - xl) / (xr - xl)) (xr - xl)
    (by simp [Q])).comp xl ht
  refine h1.congr_deriv ?_
  simp [P', Q]
  field_simp
  ring

/-- The second derivative at the right end. -/
theorem second_right (hx : xl < xr) (hm : r < maxControl) :
    HasDerivAt (deriv fun x => interpolation x xl xr yl yr dl dr r)
      (2 / (xr - xl) * (r * (dr - (yr - yl) / (xr - xl)) - (dr - dl))) xr := by
  have h0 : xr - xl ≠ 0 := by linarith
  have hd : (xr - xl) / (xr - xl) = 1 := div_self h0
  have hev : ∀ᶠ x in nhds xr, Q r ((x - xl) / (xr - xl)) ≠ 0 := by
    have hc : ContinuousAt (fun x => Q r ((x - xl) / (xr - xl))) xr := by unfold Q; fun_prop
    exact hc.eventually_ne (by simp [Q, hd])
  have he : (deriv fun x => interpolation x xl xr yl yr dl dr r) =ᶠ[nhds xr]
      fun x => P' yl yr dl dr r (xr - xl) ((x - xl) / (xr - xl)) / Q r ((x - xl) / (xr - xl)) ^ 2 :=
    hev.mono fun x hq => (rational_deriv hx hm x hq).deriv
  refine HasDerivAt.congr_of_eventuallyEq ?_ he
  have ht : HasDerivAt (fun x => (x - xl) / (xr - xl)) (1 / (xr - xl)) xr :=
    ((hasDerivAt_id xr).sub_const xl).div_const _
  have h1 := (second_aux (yl := yl) (yr := yr) (dl := dl) (dr := dr) (r := r) ((xr - xl) / (xr - xl)) (xr - xl)
    (by simp [Q, hd])).comp xr ht
  refine h1.congr_deriv ?_
  rw [hd]
  simp [P', Q]
  field_simp
  ring

/-- With slopes of the same sign as the secant and a control parameter at least `(dl + dr)/slope` the interpolation is
increasing. -/
theorem interp_mono (hx : xl < xr) (hy : yl < yr) (hl : 0 ≤ dl) (hd : 0 ≤ dr)
    (hr : (dl + dr) / ((yr - yl) / (xr - xl)) ≤ r) :
    MonotoneOn (fun x => interpolation x xl xr yl yr dl dr r) (Icc xl xr) := by
  have h0 : 0 < xr - xl := by linarith
  have hΔ : 0 < (yr - yl) / (xr - xl) := div_pos (by linarith) h0
  by_cases hm : r < maxControl
  · have hr0 : 0 ≤ r := le_trans (by positivity) hr
    have ht : ∀ x ∈ Icc xl xr, 0 ≤ (x - xl) / (xr - xl) ∧ (x - xl) / (xr - xl) ≤ 1 := fun x hx' =>
      ⟨div_nonneg (by linarith [hx'.1]) h0.le, by rw [div_le_one h0]; linarith [hx'.2]⟩
    have hD : ∀ x ∈ Icc xl xr, HasDerivAt (fun x => interpolation x xl xr yl yr dl dr r)
        (P' yl yr dl dr r (xr - xl) ((x - xl) / (xr - xl)) / Q r ((x - xl) / (xr - xl)) ^ 2) x := fun x hx' =>
      rational_deriv hx hm x (Q_pos (by linarith) _ (ht x hx').1 (ht x hx').2).ne'
    refine monotoneOn_of_deriv_nonneg (convex_Icc _ _) (fun x hx' => (hD x hx').continuousAt.continuousWithinAt)
      (fun x hx' => (hD x (interior_subset hx')).differentiableAt.differentiableWithinAt) fun x hx' => ?_
    have hx'' := interior_subset hx'
    rw [(hD x hx'').deriv]
    refine div_nonneg ?_ (sq_nonneg _)
    obtain ⟨t0, t1⟩ := ht x hx''
    generalize (x - xl) / (xr - xl) = t at t0 t1
    have ho : 0 ≤ 1 - t := by linarith
    rw [div_le_iff₀ hΔ] at hr
    unfold P'
    generalize (yr - yl) / (xr - xl) = Δ at hΔ hr ⊢
    have c1 : 0 ≤ r * Δ - dl := by linarith
    have c2 : 0 ≤ r * Δ - dr := by linarith
    have c3 : 0 ≤ (r ^ 2 + 3) * Δ - r * (dl + dr) := by nlinarith
    positivity
  · intro a ha b hb hab
    simp only [interpolation_linear hx hm]
    have : (a - xl) / (xr - xl) ≤ (b - xl) / (xr - xl) := by gcongr
    nlinarith

/-- Exchanging the sign of the ordinates. -/
theorem interp_neg (x : ℝ) : interpolation x xl xr (-yl) (-yr) (-dl) (-dr) r = -interpolation x xl xr yl yr dl dr r := by
  simp only [interpolation]
  split_ifs
  · ring
  · rw [← neg_div]; congr 1; ring
  · ring

theorem minControl_pos : 0 < minControl := by norm_num [minControl]

theorem maxControl_pos : 0 < maxControl := by unfold maxControl epsilon; positivity

/-- The minimal parameter enforces monotonicity where the secant is not negligible or shape is preferred. -/
theorem minimumControl_ge (s : ℝ) (shape : Bool) (hm : 0 ≤ dl * s ∧ 0 ≤ dr * s) (hs : ¬ isZero s) :
    (dl + dr) / s ≤ minimumControl dl dr s shape := by
  have h1 : ¬ (¬ (0 ≤ dl * s ∧ 0 ≤ dr * s) ∧ ¬ (dl ≤ s ∧ s ≤ dr) ∧ ¬ (s ≤ dl ∧ dr ≤ s)) := fun h => h.1 hm
  simp only [minimumControl]
  rw [if_neg h1, if_pos hm, if_pos hs, add_comm dl]
  exact le_max_of_le_right (le_max_left _ _)

theorem minimumControl_shape (s : ℝ) (hm : 0 ≤ dl * s ∧ 0 ≤ dr * s) (hs : isZero s) :
    maxControl ≤ minimumControl dl dr s true := by
  have h1 : ¬ (¬ (0 ≤ dl * s ∧ 0 ≤ dr * s) ∧ ¬ (dl ≤ s ∧ s ≤ dr) ∧ ¬ (s ≤ dl ∧ dr ≤ s)) := fun h => h.1 hm
  simp only [minimumControl]
  rw [if_neg h1, if_pos hm, if_neg (not_not.2 hs), if_pos trivial]
  exact le_max_of_le_right (le_max_left _ _)

/-- Strict positivity and the bound by the right ordinate for an increasing interpolation. -/
theorem interp_range (hx : xl < xr) (h0 : 0 ≤ yl) (hy : yl < yr) (hl : 0 ≤ dl) (hd : 0 ≤ dr)
    (hr : (dl + dr) / ((yr - yl) / (xr - xl)) ≤ r ∨ maxControl ≤ r) (x : ℝ) (hx1 : xl ≤ x) (hx2 : x ≤ xr)
    (hp : 0 < yl ∨ xl < x) :
    0 < interpolation x xl xr yl yr dl dr r ∧ interpolation x xl xr yl yr dl dr r ≤ yr := by
  have hh : 0 < xr - xl := by linarith
  have t0 : 0 ≤ (x - xl) / (xr - xl) := div_nonneg (by linarith) hh.le
  have t1 : (x - xl) / (xr - xl) ≤ 1 := by rw [div_le_one hh]; linarith
  have tp : 0 < yl ∨ 0 < (x - xl) / (xr - xl) := hp.imp_right fun h => div_pos (by linarith) hh
  by_cases hm : r < maxControl
  · have hr := hr.resolve_right (not_le.2 hm)
    have hΔ : 0 < (yr - yl) / (xr - xl) := div_pos (by linarith) hh
    have hr0 : 0 ≤ r := le_trans (by positivity) hr
    rw [div_le_iff₀ hΔ] at hr
    have hr' : (xr - xl) * (dl + dr) ≤ r * (yr - yl) := by
      have : (yr - yl) = (yr - yl) / (xr - xl) * (xr - xl) := by field_simp
      rw [this]; nlinarith
    rw [interpolation_eq hx hm]
    have hQ := Q_pos (r := r) (by linarith) _ t0 t1
    generalize (x - xl) / (xr - xl) = t at *
    have ho : 0 ≤ 1 - t := by linarith
    have hyr : 0 < yr := by linarith
    have hhl : 0 ≤ (xr - xl) * dl := by positivity
    have hhr : 0 ≤ (xr - xl) * dr := by positivity
    have c1 : 0 ≤ r * yr - (xr - xl) * dr := by nlinarith
    have c2 : 0 ≤ r * yl + (xr - xl) * dl := by positivity
    constructor
    · refine div_pos ?_ hQ
      unfold P
      rcases lt_or_eq_of_le t0 with h | h
      · have : 0 < yr * t ^ 3 := by positivity
        have : 0 ≤ (r * yr - (xr - xl) * dr) * t ^ 2 * (1 - t) := by positivity
        have : 0 ≤ (r * yl + (xr - xl) * dl) * t * (1 - t) ^ 2 := by positivity
        have : 0 ≤ yl * (1 - t) ^ 3 := by positivity
        linarith
      · rw [← h] at tp ⊢
        have := tp.resolve_right (lt_irrefl _)
        simpa using this
    · rw [div_le_iff₀ hQ]
      have e : yr * Q r t - P (xr - xl) yl yr dl dr r t =
          (xr - xl) * dr * t ^ 2 * (1 - t) + (r * (yr - yl) - (xr - xl) * dl) * t * (1 - t) ^ 2
            + (yr - yl) * (1 - t) ^ 3 := by unfold P Q; ring
      have c3 : 0 ≤ r * (yr - yl) - (xr - xl) * dl := by linarith
      have c4 : 0 ≤ yr - yl := by linarith
      have : 0 ≤ yr * Q r t - P (xr - xl) yl yr dl dr r t := by rw [e]; positivity
      linarith
  · rw [interpolation_linear hx hm]
    generalize (x - xl) / (xr - xl) = t at *
    have hyr : 0 < yr := by linarith
    constructor
    · rcases tp with h | h
      · rcases lt_or_eq_of_le t0 with h' | h'
        · have : 0 < yr * t := by positivity
          have : 0 ≤ yl * (1 - t) := mul_nonneg h0 (by linarith)
          linarith
        · rw [← h']; simpa using h
      · have : 0 < yr * t := by positivity
        have : 0 ≤ yl * (1 - t) := mul_nonneg h0 (by linarith)
        linarith
    · nlinarith

/-- Strict positivity and the bound by the left ordinate for an interpolation that decreases to zero. -/
theorem interp_range_dec (hx : xl < xr) (hy : 0 < yl) (hl : dl ≤ 0) (hd : dr ≤ 0)
    (hr : (dl + dr) / ((0 - yl) / (xr - xl)) ≤ r ∨ maxControl ≤ r) (x : ℝ) (hx1 : xl ≤ x) (hx2 : x < xr) :
    0 < interpolation x xl xr yl 0 dl dr r ∧ interpolation x xl xr yl 0 dl dr r ≤ yl := by
  have hh : 0 < xr - xl := by linarith
  have t0 : 0 ≤ (x - xl) / (xr - xl) := div_nonneg (by linarith) hh.le
  have t1 : (x - xl) / (xr - xl) < 1 := by rw [div_lt_one hh]; linarith
  by_cases hm : r < maxControl
  · have hr := hr.resolve_right (not_le.2 hm)
    have hr' : -((xr - xl) * (dl + dr)) ≤ r * yl := by
      rw [show (dl + dr) / ((0 - yl) / (xr - xl)) = -((xr - xl) * (dl + dr)) / yl by
        rw [zero_sub, neg_div, div_neg, div_div_eq_mul_div]; ring, div_le_iff₀ hy] at hr
      exact hr
    have hl' : (xr - xl) * dl ≤ 0 := mul_nonpos_of_nonneg_of_nonpos hh.le hl
    have hd' : (xr - xl) * dr ≤ 0 := mul_nonpos_of_nonneg_of_nonpos hh.le hd
    have hr0 : 0 ≤ r := by
      by_contra h
      push Not at h
      nlinarith
    rw [interpolation_eq hx hm]
    have hQ := Q_pos (r := r) (by linarith) _ t0 t1.le
    generalize (x - xl) / (xr - xl) = t at *
    have ho : 0 < 1 - t := by linarith
    have c1 : 0 ≤ r * 0 - (xr - xl) * dr := by linarith
    have c2 : 0 ≤ r * yl + (xr - xl) * dl := by linarith
    constructor
    · refine div_pos ?_ hQ
      unfold P
      have : 0 < yl * (1 - t) ^ 3 := by positivity
      have : 0 ≤ (r * 0 - (xr - xl) * dr) * t ^ 2 * (1 - t) := by positivity
      have : 0 ≤ (r * yl + (xr - xl) * dl) * t * (1 - t) ^ 2 := by positivity
      linarith
    · rw [div_le_iff₀ hQ]
      have e : yl * Q r t - P (xr - xl) yl 0 dl dr r t =
          yl * t ^ 3 + (r * yl + (xr - xl) * dr) * t ^ 2 * (1 - t) + (-((xr - xl) * dl)) * t * (1 - t) ^ 2 := by
        unfold P Q; ring
      have c3 : 0 ≤ r * yl + (xr - xl) * dr := by linarith
      have c4 : 0 ≤ -((xr - xl) * dl) := by linarith
      have : 0 ≤ yl * Q r t - P (xr - xl) yl 0 dl dr r t := by rw [e]; positivity
      linarith
  · rw [interpolation_linear hx hm]
    generalize (x - xl) / (xr - xl) = t at *
    constructor
    · have : 0 < yl * (1 - t) := mul_pos hy (by linarith)
      linarith
    · nlinarith

end Verif.ImpliedVol
