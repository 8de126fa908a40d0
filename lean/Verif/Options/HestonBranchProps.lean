import Verif.Options.HestonProps
import Mathlib.Analysis.Complex.Trigonometric
import Mathlib.Analysis.SpecialFunctions.Complex.Log
import Mathlib.Topology.Order.IntermediateValue

/-!
# C61: where the Heston formula is finite, and its branch cut
-/

namespace Verif.Options.Heston93

open Complex (I)
open Math.Quadrature (rule dec)
open Filter Topology

/-! ## Helpers -/

theorem d_re_pos {m : Heston93} (hm : m.Regular) (j : Switch) {phi : ℝ} (h : phi ≠ 0) : 0 < (m.d j phi).re := by
  have hd := d_ne_zero hm j h
  have h2 := d_sq_re_pos hm j h
  have hn : 0 ≤ (m.d j phi).re := by
    unfold d
    set z : ℂ := (m.rho * m.sigma * I * phi - m.b j) ^ 2 - m.sigma ^ 2 * (2 * u j * I * phi - phi ^ 2) with hz
    have hz0 : z ≠ 0 := by
      intro e
      apply hd
      unfold d
      rw [← hz, e, Complex.zero_cpow (by norm_num)]
    rw [Complex.cpow_def_of_ne_zero hz0, Complex.exp_re]
    apply mul_nonneg (Real.exp_pos _).le
    have him : (Complex.log z * (1 / 2)).im = Complex.arg z / 2 := by
      rw [show (1 / 2 : ℂ) = ((1 / 2 : ℝ) : ℂ) by norm_num, mul_comm, Complex.im_ofReal_mul, Complex.log_im]
      ring
    rw [him]
    apply Real.cos_nonneg_of_neg_pi_div_two_le_of_le
    · have := Complex.neg_pi_lt_arg z; linarith
    · have := Complex.arg_le_pi z; linarith
  rcases hn.lt_or_eq with h' | h'
  · exact h'
  · exfalso
    rw [sq, Complex.mul_re, ← h'] at h2
    nlinarith [mul_self_nonneg (m.d j phi).im]

/-- The mean reversion dominates the correlation. -/
structure MeanReverting (m : Heston93) : Prop extends m.Regular where
  kappa_pos : 0 < m.kappa
  feller : m.rho * m.sigma < m.kappa

theorem normSq_lt {m : Heston93} (hm : m.MeanReverting) (j : Switch) {phi : ℝ} (h : phi ≠ 0) :
    ‖m.B j phi - m.d j phi‖ < ‖m.B j phi + m.d j phi‖ := by
  have hd := d_re_pos hm.toRegular j h
  have e1 := d_sq_re m j phi
  have e2 := d_sq_im m j phi
  rw [sq, Complex.mul_re] at e1
  rw [sq, Complex.mul_im] at e2
  have key : 0 < (m.B j phi).re * (m.d j phi).re + (m.B j phi).im * (m.d j phi).im := by
    rw [B_re, B_im]
    generalize (m.d j phi).re = x at *
    generalize (m.d j phi).im = y at *
    have hs := hm.sigma_pos
    have hk := hm.kappa_pos
    have hf := hm.feller
    have hb : 0 < m.b j := by cases j <;> simp only [b] <;> linarith
    have hbu : 0 < m.b j + u j * m.rho * m.sigma := by cases j <;> simp only [b, u] <;> nlinarith
    have hxy : x * y = -(m.b j * m.rho * m.sigma * phi) - m.sigma ^ 2 * u j * phi := by linarith
    have hxx : m.b j ^ 2 + (1 - m.rho ^ 2) * (m.sigma * phi) ^ 2 ≤ x * x := by nlinarith [mul_self_nonneg y]
    have hp : 0 < phi ^ 2 := by positivity
    have goal' : 0 < x * (m.b j * x + -(m.rho * m.sigma * phi) * y) := by
      have : x * (m.b j * x + -(m.rho * m.sigma * phi) * y) =
          m.b j * (x * x) - m.rho * m.sigma * phi * (x * y) := by ring
      rw [this, hxy]
      have h3 : m.b j * (m.b j ^ 2 + (1 - m.rho ^ 2) * (m.sigma * phi) ^ 2) ≤ m.b j * (x * x) :=
        mul_le_mul_of_nonneg_left hxx hb.le
      have h4 : 0 < m.sigma ^ 2 * phi ^ 2 * (m.b j + u j * m.rho * m.sigma) := by positivity
      have h5 : 0 < m.b j ^ 3 := by positivity
      nlinarith
    exact pos_of_mul_pos_right (by linarith) hd.le
  rw [← sq_lt_sq₀ (norm_nonneg _) (norm_nonneg _), ← Complex.normSq_eq_norm_sq, ← Complex.normSq_eq_norm_sq,
    Complex.normSq_apply, Complex.normSq_apply]
  simp only [Complex.sub_re, Complex.sub_im, Complex.add_re, Complex.add_im]
  nlinarith

theorem norm_exp_dt (m : Heston93) (j : Switch) (phi t : ℝ) :
    ‖Complex.exp (m.d j phi * t)‖ = Real.exp ((m.d j phi).re * t) := by
  rw [Complex.norm_exp]
  simp

theorem M_eq (m : Heston93) (t : ℝ) (j : Switch) (phi : ℝ) :
    m.M t j phi = (m.B j phi + m.d j phi) * Complex.exp (m.d j phi * t) - (m.B j phi - m.d j phi) := by
  unfold M; ring

theorem logArg_ne_zero {m : Heston93} (hm : m.MeanReverting) (j : Switch) {phi : ℝ} (h : phi ≠ 0) {t : ℝ} (ht : 0 ≤ t) :
    m.logArg t j phi ≠ 0 := by
  rw [logArg_eq hm.toRegular j h]
  refine div_ne_zero ?_ (mul_ne_zero two_ne_zero (d_ne_zero hm.toRegular j h))
  rw [M_eq]
  intro e
  have e' := congrArg norm (sub_eq_zero.1 e)
  rw [norm_mul, norm_exp_dt] at e'
  have h1 := normSq_lt hm j h
  have h2 : 1 ≤ Real.exp ((m.d j phi).re * t) := Real.one_le_exp (mul_nonneg (d_re_pos hm.toRegular j h).le ht)
  nlinarith [norm_nonneg (m.B j phi + m.d j phi)]

/-! ## Theorems -/

/-- **C61.** With mean reversion `κ > 0`, `κ > ρσ`, no integrand value is NaN for any non-negative time to expiry: every
node of the quadrature counts. -/
theorem C61_finite (m : Heston93) (hm : m.MeanReverting) (hs : 0 < m.s) (k : ℝ) (hk : 0 < k) (t : ℝ) (ht : 0 ≤ t)
    (j : Switch) (phi : ℝ) (h : phi ≠ 0) :
    (m.integrand k t j phi).isSome ∧ (m.gammaIntegrand k t phi).isSome := by
  have hF : ∀ j, m.Finite k t j phi := fun j =>
    finite_of (s := m.s) (v := m.v) hm.toRegular hs hk t j h (logArg_ne_zero hm j h ht)
  constructor
  · simp [integrand, hF j, h]
  · simp [gammaIntegrand, hF .one]

theorem B_norm_le {m : Heston93} (hm : m.Regular) (hk : 0 ≤ m.kappa) (j : Switch) {phi : ℝ}
    (h : phi ∈ Set.Icc (0.00001 : ℝ) 50) : ‖m.B j phi‖ ≤ m.kappa + 51 * m.sigma := by
  have hs := hm.sigma_pos
  have hr : |m.rho| ≤ 1 := by
    rw [abs_le_one_iff_mul_self_le_one]; nlinarith [hm.rho_sq]
  have hphi : 0 ≤ phi := le_trans (by norm_num) h.1
  have h1 : ‖(m.b j : ℂ)‖ ≤ m.kappa + m.sigma := by
    rw [Complex.norm_real, Real.norm_eq_abs]
    cases j <;> simp only [b, add_zero]
    · calc |m.kappa - m.rho * m.sigma| ≤ |m.kappa| + |m.rho * m.sigma| := abs_sub _ _
        _ ≤ m.kappa + m.sigma := by
          rw [abs_of_nonneg hk, abs_mul, abs_of_pos hs]; nlinarith
    · rw [abs_of_nonneg hk]; linarith
  have h2 : ‖(m.rho * m.sigma * I * phi : ℂ)‖ ≤ 50 * m.sigma := by
    rw [norm_mul, norm_mul, norm_mul, Complex.norm_I, Complex.norm_real, Complex.norm_real, Complex.norm_real,
      Real.norm_eq_abs, Real.norm_eq_abs, Real.norm_eq_abs, abs_of_pos hs, abs_of_nonneg hphi, mul_one]
    have : |m.rho| * m.sigma ≤ m.sigma := by nlinarith
    have h50 := h.2
    nlinarith [mul_nonneg (abs_nonneg m.rho) hs.le]
  calc ‖m.B j phi‖ ≤ ‖(m.b j : ℂ)‖ + ‖(m.rho * m.sigma * I * phi : ℂ)‖ := norm_sub_le _ _
    _ ≤ m.kappa + 51 * m.sigma := by linarith

theorem d_norm_le {m : Heston93} (hm : m.Regular) (hk : 0 ≤ m.kappa) (j : Switch) {phi : ℝ}
    (h : phi ∈ Set.Icc (0.00001 : ℝ) 50) : ‖m.d j phi‖ ≤ m.kappa + 102 * m.sigma := by
  have hs := hm.sigma_pos
  have hB := B_norm_le hm hk j h
  have hphi : 0 ≤ phi := le_trans (by norm_num) h.1
  have hW : ‖W j phi‖ ≤ 2550 := by
    have : ‖(2 * u j * I * phi : ℂ)‖ ≤ 50 := by
      rw [norm_mul, norm_mul, norm_mul, Complex.norm_I, Complex.norm_real, Complex.norm_real, Real.norm_eq_abs,
        Real.norm_eq_abs, abs_of_nonneg hphi]
      have : |u j| = 1 / 2 := by cases j <;> norm_num [u, abs_of_pos, abs_of_neg]
      rw [this]
      have := h.2
      norm_num
      linarith
    have h2 : ‖(phi ^ 2 : ℂ)‖ ≤ 2500 := by
      rw [norm_pow, Complex.norm_real, Real.norm_eq_abs, sq_abs]
      have := h.2
      nlinarith
    calc ‖W j phi‖ ≤ ‖(2 * u j * I * phi : ℂ)‖ + ‖(phi ^ 2 : ℂ)‖ := norm_sub_le _ _
      _ ≤ 2550 := by linarith
  have h3 : ‖m.d j phi‖ ^ 2 ≤ ‖m.B j phi‖ ^ 2 + m.sigma ^ 2 * 2550 := by
    rw [← norm_pow, d_sq]
    calc ‖m.B j phi ^ 2 - m.sigma ^ 2 * W j phi‖ ≤ ‖m.B j phi ^ 2‖ + ‖(m.sigma ^ 2 * W j phi : ℂ)‖ := norm_sub_le _ _
      _ ≤ ‖m.B j phi‖ ^ 2 + m.sigma ^ 2 * 2550 := by
        rw [norm_pow, norm_mul, norm_pow, Complex.norm_real, Real.norm_eq_abs, sq_abs]
        gcongr
  apply le_of_sq_le_sq _ (by positivity) |> fun h => h
  nlinarith [norm_nonneg (m.B j phi)]

/-- **C61.** For expiries below `1 / (2κ + 153σ)` the logarithm is off its branch cut, so that there the price solves
Heston's equation. -/
theorem C61_short_expiry (m : Heston93) (hm : m.Regular) (hk : 0 ≤ m.kappa) (t : ℝ) (ht : 0 ≤ t)
    (hlt : t * (2 * m.kappa + 153 * m.sigma) < 1) : m.OffBranchCut t := by
  intro j phi h
  have hphi := phi_ne h
  have hd := d_ne_zero hm j hphi
  have hs := hm.sigma_pos
  have h1 := B_norm_le hm hk j h
  have h2 := d_norm_le hm hk j h
  change m.logArg t j phi ∈ _
  have e : m.logArg t j phi = 1 + (m.B j phi + m.d j phi) * (Complex.exp (m.d j phi * t) - 1) / (2 * m.d j phi) := by
    rw [logArg_eq hm j hphi, M]
    field_simp
    ring
  rw [e]
  apply Complex.mem_slitPlane_of_norm_lt_one
  have hdt : ‖m.d j phi * t‖ ≤ 1 := by
    rw [norm_mul, Complex.norm_real, Real.norm_eq_abs, abs_of_nonneg ht]
    nlinarith
  have h3 := Complex.norm_exp_sub_one_le hdt
  rw [norm_mul, Complex.norm_real, Real.norm_eq_abs, abs_of_nonneg ht] at h3
  have hdn : 0 < ‖m.d j phi‖ := norm_pos_iff.2 hd
  rw [norm_div, norm_mul, norm_mul, Complex.norm_ofNat, div_lt_one (by positivity)]
  have h4 : ‖m.B j phi + m.d j phi‖ ≤ 2 * m.kappa + 153 * m.sigma := (norm_add_le _ _).trans (by linarith)
  calc ‖m.B j phi + m.d j phi‖ * ‖Complex.exp (m.d j phi * t) - 1‖
      ≤ (2 * m.kappa + 153 * m.sigma) * (2 * (‖m.d j phi‖ * t)) := by
        apply mul_le_mul h4 h3 (norm_nonneg _) (by positivity)
    _ = (t * (2 * m.kappa + 153 * m.sigma)) * (2 * ‖m.d j phi‖) := by ring
    _ < 1 * (2 * ‖m.d j phi‖) := by
        apply mul_lt_mul_of_pos_right hlt (by positivity)
    _ = 2 * ‖m.d j phi‖ := one_mul _

/-! ## The branch cut -/

/-- If `z t = exp (w t + h t)` with `h` continuous and bounded and `w` not real, the power `z ^ (-a)` computed with the
principal logarithm jumps, unless `a` is an integer. -/
theorem power_jumps (z h : ℝ → ℂ) (w : ℂ) (a K : ℝ) (hz : ∀ t : ℝ, 0 < t → z t = Complex.exp (w * t + h t))
    (hc : ∀ t : ℝ, 0 < t → ContinuousAt h t) (hK : ∀ t : ℝ, 0 < t → |(h t).im| ≤ K) (hw : w.im ≠ 0) (ha : ∀ n : ℤ, a ≠ n) :
    ∃ t : ℝ, 0 < t ∧ ¬ ContinuousAt (fun t => Complex.exp (-a * Complex.log (z t))) t := by
  by_contra hcon
  push Not at hcon
  have hn : ∀ t : ℝ, ∃ n : ℤ, 0 < t → Complex.log (z t) = w * t + h t + n * (2 * Real.pi * I) := by
    intro t
    by_cases ht : 0 < t
    · have hz0 : z t ≠ 0 := by rw [hz t ht]; exact Complex.exp_ne_zero _
      have := Complex.exp_log hz0
      rw [hz t ht] at this
      obtain ⟨n, hn⟩ := Complex.exp_eq_exp_iff_exists_int.1 this
      exact ⟨n, fun _ => by rw [hz t ht]; exact hn⟩
    · exact ⟨0, fun h => absurd h ht⟩
  choose n hn using hn
  have him : ∀ t : ℝ, 0 < t → (Complex.log (z t)).im = (w * t + h t).im + n t * (2 * Real.pi) := by
    intro t ht
    rw [hn t ht, Complex.add_im (w * t + h t)]
    congr 1
    simp
  have hwc : ∀ t : ℝ, 0 < t → ContinuousAt (fun t : ℝ => w * t + h t) t := fun t ht =>
    (continuousAt_const.mul Complex.continuous_ofReal.continuousAt).add (hc t ht)
  have hpi := Real.pi_pos
  -- the phase is continuous
  have hphase : ∀ t : ℝ, 0 < t → ContinuousAt (fun t => Complex.exp (-a * (n t * (2 * Real.pi * I)))) t := by
    intro t ht
    have h1 : ContinuousAt (fun t : ℝ => Complex.exp (-a * Complex.log (z t)) * Complex.exp (a * (w * t + h t))) t :=
      (hcon t ht).mul (Complex.continuous_exp.continuousAt.comp (continuousAt_const.mul (hwc t ht)))
    refine h1.congr ?_
    filter_upwards [lt_mem_nhds ht] with s hs
    rw [hn s hs, ← Complex.exp_add]
    congr 1
    ring
  have hne : ∀ e : ℤ, e = 1 ∨ e = -1 → Complex.exp (-a * (e * (2 * Real.pi * I))) ≠ 1 := by
    intro e he hexp
    obtain ⟨k, hk⟩ := Complex.exp_eq_one_iff.1 hexp
    have h2 : (2 * Real.pi * I : ℂ) ≠ 0 := Complex.two_pi_I_ne_zero
    have h3 : (-a * e : ℂ) = k := by
      apply mul_right_cancel₀ h2
      rw [← hk]; ring
    have h4 : -a * e = k := by exact_mod_cast h3
    rcases he with rfl | rfl
    · exact ha (-k) (by push_cast at h4 ⊢; linarith)
    · exact ha k (by push_cast at h4 ⊢; linarith)
  have hloc : ∀ t : ℝ, 0 < t → ∀ᶠ s in 𝓝 t, n s = n t := by
    intro t ht
    set ε := min ‖Complex.exp (-a * ((1 : ℤ) * (2 * Real.pi * I))) - 1‖
      ‖Complex.exp (-a * ((-1 : ℤ) * (2 * Real.pi * I))) - 1‖ with hε
    have hε0 : 0 < ε := lt_min (norm_pos_iff.2 (sub_ne_zero.2 (hne 1 (Or.inl rfl))))
      (norm_pos_iff.2 (sub_ne_zero.2 (hne (-1) (Or.inr rfl))))
    have e1 := Metric.continuousAt_iff'.1 (hphase t ht) ε hε0
    have e2 := Metric.continuousAt_iff'.1 (hwc t ht) Real.pi hpi
    filter_upwards [e1, e2, lt_mem_nhds ht] with s h1 h2 hs
    have h3 : |(w * s + h s).im - (w * t + h t).im| < Real.pi := by
      rw [← Complex.sub_im]
      exact (Complex.abs_im_le_norm _).trans_lt (by rwa [dist_eq_norm] at h2)
    have h4 := him s hs
    have h5 := him t ht
    have b1 := Complex.neg_pi_lt_log_im (z s)
    have b2 := Complex.log_im_le_pi (z s)
    have b3 := Complex.neg_pi_lt_log_im (z t)
    have b4 := Complex.log_im_le_pi (z t)
    rw [abs_lt] at h3
    have u1 : ((n s - n t : ℤ) : ℝ) < 2 := by
      push_cast
      by_contra hh
      push Not at hh
      nlinarith
    have u2 : (-2 : ℝ) < ((n s - n t : ℤ) : ℝ) := by
      push_cast
      by_contra hh
      push Not at hh
      nlinarith
    have u1' : n s - n t < 2 := by exact_mod_cast u1
    have u2' : -2 < n s - n t := by exact_mod_cast u2
    by_contra hns
    have hcase : n s - n t = 1 ∨ n s - n t = -1 := by omega
    have hfac : Complex.exp (-a * (n s * (2 * Real.pi * I))) - Complex.exp (-a * (n t * (2 * Real.pi * I))) =
        Complex.exp (-a * (n t * (2 * Real.pi * I))) *
          (Complex.exp (-a * ((n s - n t : ℤ) * (2 * Real.pi * I))) - 1) := by
      rw [mul_sub, ← Complex.exp_add, mul_one]
      congr 2
      push_cast
      ring
    have hun : ‖Complex.exp (-a * (n t * (2 * Real.pi * I)))‖ = 1 := by
      rw [Complex.norm_exp]
      simp
    rw [dist_eq_norm, hfac, norm_mul, hun, one_mul] at h1
    rcases hcase with hc' | hc'
    · rw [hc'] at h1
      exact absurd h1 (not_lt.2 (min_le_left _ _))
    · rw [hc'] at h1
      exact absurd h1 (not_lt.2 (min_le_right _ _))
  have hcont : ContinuousOn n (Set.Ioi 0) := by
    intro t ht
    apply ContinuousAt.continuousWithinAt
    exact (continuousAt_const (y := n t)).congr ((hloc t ht).mono fun s hs => hs.symm)
  have hconst : ∀ t : ℝ, 0 < t → n t = n 1 := fun t ht =>
    isPreconnected_Ioi.constant hcont (Set.mem_Ioi.2 ht) (Set.mem_Ioi.2 one_pos)
  -- but the imaginary part of `w t` is unbounded
  set R := Real.pi + K + |(n 1 : ℝ)| * (2 * Real.pi) with hR
  have hK0 : 0 ≤ K := (abs_nonneg _).trans (hK 1 one_pos)
  have hR0 : 0 < R := by positivity
  have hwp : 0 < |w.im| := abs_pos.2 hw
  set T := (R + 1) / |w.im| with hT
  have hT0 : 0 < T := by positivity
  have e := him T hT0
  rw [hconst T hT0, Complex.add_im, Complex.im_mul_ofReal] at e
  have hl : |(Complex.log (z T)).im| ≤ Real.pi := by
    rw [abs_le]
    exact ⟨(Complex.neg_pi_lt_log_im _).le, Complex.log_im_le_pi _⟩
  have e' : w.im * T = (Complex.log (z T)).im - (h T).im - n 1 * (2 * Real.pi) := by linarith
  have hb : |w.im * T| ≤ R := by
    rw [e']
    calc _ ≤ |(Complex.log (z T)).im - (h T).im| + |(n 1 : ℝ) * (2 * Real.pi)| := abs_sub _ _
      _ ≤ |(Complex.log (z T)).im| + |(h T).im| + |(n 1 : ℝ) * (2 * Real.pi)| := by
        gcongr; exact abs_sub _ _
      _ ≤ R := by
        rw [abs_mul, abs_of_pos (by positivity : (0:ℝ) < 2 * Real.pi)]
        have := hK T hT0
        rw [hR]; linarith
  rw [abs_mul, abs_of_pos hT0, hT, mul_div_cancel₀ _ hwp.ne'] at hb
  linarith

theorem d_im_ne {m : Heston93} (hm : m.Regular) (j : Switch) {phi : ℝ} (h : phi ≠ 0)
    (hj : m.b j * m.rho + m.sigma * u j ≠ 0) : (m.d j phi).im ≠ 0 := by
  intro e
  have e2 := d_sq_im m j phi
  rw [sq, Complex.mul_im, e] at e2
  apply hj
  have : m.sigma * phi * (m.b j * m.rho + m.sigma * u j) = 0 := by linarith
  exact (mul_eq_zero.1 this).resolve_left (mul_ne_zero hm.sigma_pos.ne' h)

theorem f_jumps {m : Heston93} (hm : m.MeanReverting) (ha : ∀ n : ℤ, 2 * m.kappa * m.theta / m.sigma ^ 2 ≠ n) (j : Switch)
    {phi : ℝ} (h : phi ≠ 0) (hj : m.b j * m.rho + m.sigma * u j ≠ 0) :
    ∃ t : ℝ, 0 < t ∧ ¬ ContinuousAt (fun t => m.f t j phi) t := by
  have hd := d_ne_zero hm.toRegular j h
  have hlt := normSq_lt hm j h
  have hp : m.B j phi + m.d j phi ≠ 0 := norm_pos_iff.1 ((norm_nonneg _).trans_lt hlt)
  have hx := d_re_pos hm.toRegular j h
  set c : ℂ := (m.B j phi + m.d j phi) / (2 * m.d j phi) with hc
  have hc0 : c ≠ 0 := div_ne_zero hp (mul_ne_zero two_ne_zero hd)
  set r : ℂ := (m.B j phi - m.d j phi) / (m.B j phi + m.d j phi) with hr
  have hr1 : ‖r‖ < 1 := by
    rw [hr, norm_div, div_lt_one (norm_pos_iff.2 hp)]; exact hlt
  have hslit : ∀ t : ℝ, 0 < t → 1 - r * Complex.exp (-m.d j phi * t) ∈ Complex.slitPlane := by
    intro t ht
    rw [sub_eq_add_neg]
    apply Complex.mem_slitPlane_of_norm_lt_one
    rw [norm_neg, norm_mul, Complex.norm_exp]
    have : Real.exp ((-m.d j phi * t).re) ≤ 1 := by
      rw [Real.exp_le_one_iff]
      simp only [Complex.re_mul_ofReal, Complex.neg_re]
      nlinarith
    nlinarith [norm_nonneg r, Real.exp_pos ((-m.d j phi * t).re)]
  obtain ⟨t, ht, hjump⟩ := power_jumps (fun t => m.logArg t j phi)
    (fun t : ℝ => Complex.log c + Complex.log (1 - r * Complex.exp (-m.d j phi * t))) (m.d j phi)
    (2 * m.kappa * m.theta / m.sigma ^ 2) (2 * Real.pi)
    (by
      intro t ht
      rw [Complex.exp_add, Complex.exp_add, Complex.exp_log hc0,
        Complex.exp_log (Complex.slitPlane_ne_zero (hslit t ht)), logArg_eq hm.toRegular j h, M_eq]
      have e : Complex.exp (m.d j phi * t) * Complex.exp (-m.d j phi * t) = 1 := by
        rw [← Complex.exp_add]; simp
      rw [hc, hr]
      generalize Complex.exp (-m.d j phi * t) = e' at *
      field_simp
      linear_combination (m.B j phi - m.d j phi) * e)
    (by
      intro t ht
      refine continuousAt_const.add (ContinuousAt.clog ?_ (hslit t ht))
      exact continuousAt_const.sub (continuousAt_const.mul (hasDerivAt_exp _ t).continuousAt))
    (by
      intro t ht
      have hb : ∀ y : ℂ, |(Complex.log y).im| ≤ Real.pi := fun y => by
        rw [abs_le]; exact ⟨(Complex.neg_pi_lt_log_im _).le, Complex.log_im_le_pi _⟩
      rw [Complex.add_im]
      calc _ ≤ _ := abs_add_le _ _
        _ ≤ Real.pi + Real.pi := add_le_add (hb _) (hb _)
        _ = 2 * Real.pi := by ring)
    (d_im_ne hm.toRegular j h hj) ha
  refine ⟨t, ht, fun hf => hjump ?_⟩
  have hD : ContinuousAt (fun t => m.D t j phi) t :=
    (hasDerivAt_D hm.toRegular j h t (logArg_ne_zero hm j h ht.le)).continuousAt
  have hX : ContinuousAt (fun t : ℝ => (m.r - m.q) * I * phi * t
      + (m.kappa * m.theta / m.sigma ^ 2) * ((m.B j phi + m.d j phi) * t) + m.D t j phi * m.v
      + I * phi * Real.log m.s) t := by
    have hof : ContinuousAt (fun t : ℝ => (t : ℂ)) t := Complex.continuous_ofReal.continuousAt
    exact (((continuousAt_const.mul hof).add (continuousAt_const.mul (continuousAt_const.mul hof))).add
      (hD.mul continuousAt_const)).add continuousAt_const
  have h1 := hf.mul (Complex.continuous_exp.continuousAt.comp hX.neg)
  refine h1.congr (Filter.Eventually.of_forall fun t => ?_)
  simp only [Function.comp_apply, Pi.mul_apply, Pi.neg_apply, f, C]
  rw [← Complex.exp_add]
  congr 1
  rw [logArg, B]
  push_cast
  ring

/-- **C61** (defect). The integrand of the code is not continuous in the time to expiry: when `2κθ/σ²` is not an integer and the discriminant is not real, at every argument `φ` there are an expiry
and a strike at which the integrand jumps, because the logarithm crosses its branch cut. -/
theorem C61_branch (m : Heston93) (hm : m.MeanReverting) (hs : 0 < m.s)
    (ha : ∀ n : ℤ, 2 * m.kappa * m.theta / m.sigma ^ 2 ≠ n) (j : Switch) (phi : ℝ) (h : phi ≠ 0)
    (hj : m.b j * m.rho + m.sigma * u j ≠ 0) :
    ∃ t : ℝ, 0 < t ∧ ∃ k : ℝ, 0 < k ∧ ¬ ContinuousAt (fun t => (m.integrand k t j phi).getD 0) t := by
  obtain ⟨t, ht, hjump⟩ := f_jumps hm ha j h hj
  refine ⟨t, ht, ?_⟩
  by_contra hcon
  push Not at hcon
  have hval : ∀ k : ℝ, 0 < k → ContinuousAt
      (fun t => (m.f t j phi * Complex.exp (-I * phi * Real.log k) / (I * phi)).re) t := by
    intro k hk
    refine (hcon k hk).congr ?_
    filter_upwards [lt_mem_nhds ht] with s hs'
    have hF : m.Finite k s j phi :=
      finite_of (s := m.s) (v := m.v) hm.toRegular hs hk s j h (logArg_ne_zero hm j h hs'.le)
    simp [integrand, hF, h]
  have hphi : (phi : ℂ) ≠ 0 := Complex.ofReal_ne_zero.2 h
  have hdiv : ∀ z : ℂ, z / (I * phi) = ((z.im / phi : ℝ) : ℂ) - ((z.re / phi : ℝ) : ℂ) * I := by
    intro z
    rw [div_eq_iff (mul_ne_zero Complex.I_ne_zero hphi)]
    conv_lhs => rw [← Complex.re_add_im z]
    push_cast
    field_simp
    linear_combination (z.re : ℂ) * Complex.I_sq
  have him : ContinuousAt (fun t => (m.f t j phi).im) t := by
    have h1 := (hval 1 one_pos).mul_const phi
    refine h1.congr (Filter.Eventually.of_forall fun t => ?_)
    simp only [Real.log_one, Complex.ofReal_zero, mul_zero, Complex.exp_zero, mul_one]
    rw [hdiv]
    simp [h]
  have hre : ContinuousAt (fun t => (m.f t j phi).re) t := by
    have h1 := (hval (Real.exp (-(Real.pi / 2 / phi))) (Real.exp_pos _)).mul_const phi
    refine h1.congr (Filter.Eventually.of_forall fun t => ?_)
    have e : Complex.exp (-I * phi * Real.log (Real.exp (-(Real.pi / 2 / phi)))) = I := by
      have e' : (-I * phi * ((-(Real.pi / 2 / phi) : ℝ) : ℂ)) = Real.pi / 2 * I := by
        push_cast
        field_simp
      rw [Real.log_exp, e', Complex.exp_pi_div_two_mul_I]
    simp only [e]
    rw [hdiv]
    simp [h]
  apply hjump
  have h2 : ContinuousAt (fun t => ((m.f t j phi).re : ℂ) + ((m.f t j phi).im : ℂ) * I) t :=
    (Complex.continuous_ofReal.continuousAt.comp hre).add
      ((Complex.continuous_ofReal.continuousAt.comp him).mul continuousAt_const)
  exact h2.congr (Filter.Eventually.of_forall fun t => Complex.re_add_im _)

/-! ## The hypotheses are met -/

/-- `κ = 1`, `θ = 4%`, `σ = 30%`, `ρ = -1/2`. -/
noncomputable def sample : Heston93 := ⟨100, 0.04, 0.05, 0, -0.5, 1, 0.04, 0.3⟩

theorem sample_mr : sample.MeanReverting where
  sigma_pos := by norm_num [sample]
  rho_sq := by norm_num [sample]
  kappa_pos := by norm_num [sample]
  feller := by norm_num [sample]

/-- C61_short_expiry, C61_riccati, C61_heston_equation, C61_gamma, C61_delta_rho: a one-week expiry. -/
example : sample.Regular ∧ sample.OffBranchCut 0.02 :=
  ⟨sample_mr.toRegular, C61_short_expiry sample sample_mr.toRegular (by norm_num [sample]) 0.02 (by norm_num)
    (by norm_num [sample])⟩

/-- C61_finite. -/
example : (sample.integrand 100 1 .one 1).isSome :=
  (C61_finite sample sample_mr (by norm_num [sample]) 100 (by norm_num) 1 (by norm_num) .one 1 (by norm_num)).1

/-- C61_branch: `2κθ/σ² = 8/9`. -/
example : ∃ t : ℝ, 0 < t ∧ ∃ k : ℝ, 0 < k ∧ ¬ ContinuousAt (fun t => (sample.integrand k t .two 1).getD 0) t := by
  refine C61_branch sample sample_mr (by norm_num [sample]) ?_ .two 1 one_ne_zero (by norm_num [sample, b, u])
  intro n hn
  have h9 : (8 : ℝ) = 9 * n := by
    rw [← hn]; norm_num [sample]
  have : (8 : ℤ) = 9 * n := by exact_mod_cast h9
  omega

theorem sample_offBranchCut : sample.OffBranchCut 0.02 :=
  C61_short_expiry sample sample_mr.toRegular (by norm_num [sample]) 0.02 (by norm_num) (by norm_num [sample])

/-! Instances of the theorems of `HestonProps`. -/

example := C61_homogeneous sample 110 1 2 (by norm_num [sample]) (by norm_num) (by norm_num) .put

example := C61_riccati sample sample_mr.toRegular .one 1 0.02 one_ne_zero (sample_offBranchCut .one 1 (by norm_num))

example := C61_heston_equation sample sample_mr.toRegular 110 (by norm_num) 0.02 sample_offBranchCut .put

example := C61_gamma sample sample_mr.toRegular (by norm_num [sample]) 110 (by norm_num) 0.02 sample_offBranchCut .put

example := C61_delta_rho sample sample_mr.toRegular (by norm_num [sample]) 110 (by norm_num) 0.02 sample_offBranchCut .put

end Verif.Options.Heston93
