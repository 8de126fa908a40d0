import Verif.Float.NelsonSiegelLemmas

/-!
# C110: rounding errors of the Nelson-Siegel-Svensson curve
-/

namespace Verif.Float.Curves

open X64 Nan Verif.Float.Sim Verif.Float.Bsm Verif.Float.Laws Verif.Time MeasureTheory
open Verif.Float.Fft (ur mu top ur_pos mu_pos ur_le)
open Verif.Stochastics (years years_pos integral_curve anti_zero spotAt_eq svensson)

/-! ## Helper lemmas -/

theorem one_near : Near (ofQ 1) 1 0 := by
  obtain ⟨i, i1, i2⟩ := one_fin
  exact ⟨i, i1, by unfold F64.real; rw [i2]; simp⟩

/-- The true value of the first loading lies between the exponential and one. -/
theorem slope_real {T L : ℝ} (hT : 0 < T) (hL : 0 < L) :
    Real.exp (-(T / L)) ≤ L * (1 - Real.exp (-(T / L))) / T ∧ L * (1 - Real.exp (-(T / L))) / T ≤ 1 ∧ L * (1 - Real.exp (-(T / L))) / T ≤ L / T := by
  have hX : 0 < T / L := by positivity
  have e : L * (1 - Real.exp (-(T / L))) / T = (1 - Real.exp (-(T / L))) / (T / L) := by field_simp
  have h0 := Real.exp_pos (-(T / L))
  refine ⟨?_, ?_, ?_⟩
  · rw [e, le_div_iff₀ hX]
    have h1 := Real.add_one_le_exp (T / L)
    have h2 : Real.exp (-(T / L)) * Real.exp (T / L) = 1 := by rw [← Real.exp_add]; simp
    nlinarith
  · rw [e, div_le_one hX]
    have := Real.add_one_le_exp (-(T / L))
    linarith
  · gcongr
    nlinarith

theorem big_top {x : ℝ} {k : ℕ} (hk : k ≤ 1023) (h : x ≤ 2 ^ k) : x ≤ top :=
  h.trans (pow_le_pow_right₀ (by norm_num) hk)

theorem slope_near {l : Lib} {ε : ℝ} (hl : l.Good ε) (hε0 : 0 ≤ ε) (hε : ε ≤ 1 / 16) {today date : Date} (h : today < date) {lambda : F64}
    (hs : Scale lambda) :
    Near (slope l (fin lambda) (tau today date))
      (F64.real lambda * (1 - Real.exp (-(years today date / F64.real lambda))) / years today date)
      ((3 / 2 * ε + 13 * ur) * (F64.real lambda / years today date)) := by
  obtain ⟨r, r1, r2, -⟩ := decay_near hl hε0 h hs
  have ht := tau_near h
  have hT := years_pos h
  have hL : 0 < F64.real lambda := Box.pos hs
  have hb := ratio_box h hs
  obtain ⟨s1, s2, s3⟩ := slope_real hT hL
  obtain ⟨y1, y2⟩ := years_range h
  have hu : ur ≤ 1 / 1000000 := by unfold ur; norm_num
  have hu0 := ur_pos
  have hbox : Box 515 (F64.real lambda / years today date) := by
    have := hb.inv
    rwa [inv_div] at this
  have hm1 := mu_small (Box.mono hs (by norm_num : 500 ≤ 1000))
  have hm2 := mu_small (hbox.mono (by norm_num : 515 ≤ 1000))
  have hr : Near (l.exp ((tau today date).neg.div (fin lambda))) (Real.exp (-(years today date / F64.real lambda))) (ε + 3 * ur) :=
    ⟨r, r1, r2⟩
  set T := years today date with hTdef
  set L := F64.real lambda with hLdef
  set D := Real.exp (-(T / L)) with hD
  have hD0 : 0 < D := Real.exp_pos _
  have hD1 : D ≤ 1 := by
    rw [hD, ← Real.exp_zero]
    exact Real.exp_le_exp.2 (by have := hb.pos; linarith)
  have hw := one_near.sub hr (by
    rw [abs_of_nonneg (by linarith)]
    exact big_top (k := 2) (by norm_num) (by norm_num; linarith))
  rw [abs_of_nonneg (by linarith : (0 : ℝ) ≤ 1 - D)] at hw
  have hw' := hw.mono (f := ε + 5 * ur) (by
    have : ur * (1 - D + (0 + (ε + 3 * ur))) ≤ ur * 2 := by gcongr; linarith
    linarith)
  have hLD : 0 ≤ L * (1 - D) := mul_nonneg hL.le (by linarith)
  have hLD1 : L * (1 - D) ≤ L := mul_le_of_le_one_right hL.le (by linarith)
  have hLtop : 4 * L ≤ top := top_large (le_trans hs.2 (pow_le_pow_right₀ (by norm_num) (by norm_num))) le_rfl
  have hQtop : 4 * (L / T) ≤ top := top_large (le_trans hbox.2 (pow_le_pow_right₀ (by norm_num) (by norm_num))) le_rfl
  have hLe : L * (ε + 5 * ur) ≤ L * (1 / 8) := by gcongr; linarith
  have hp := (near_fin lambda).mul hw' (E := L * (ε + 5 * ur)) (by rw [← hLdef, abs_of_pos hL]; simp) (by
    rw [← hLdef, abs_of_nonneg hLD]
    linarith)
  rw [← hLdef, abs_of_nonneg hLD] at hp
  have hp' := hp.mono (f := L * (ε + 7 * ur)) (by
    have h1 : ur * (L * (1 - D) + L * (ε + 5 * ur)) ≤ ur * (9 / 8 * L) := by gcongr; linarith
    nlinarith)
  have hQ : 0 < L / T := by positivity
  have hq := hp'.div (δ := 2 * ur) (E := L / T * (8 / 7 * (ε + 9 * ur))) hT (by linarith) ht (by
    rw [abs_of_nonneg hLD]
    have h1 : L * (1 - D) / T ≤ L / T := s3
    have h2 : 2 * ur * (L * (1 - D) / T) ≤ 2 * ur * (L / T) := by gcongr
    have h3 : L * (ε + 7 * ur) / T = L / T * (ε + 7 * ur) := by ring
    rw [h3]
    nlinarith) (by
    rw [abs_of_nonneg (by positivity)]
    have : L / T * (8 / 7 * (ε + 9 * ur)) ≤ L / T * 1 := by gcongr; linarith
    linarith)
  rw [abs_of_nonneg (by positivity : 0 ≤ L * (1 - D) / T)] at hq
  refine hq.mono ?_
  have h1 : L / T * (8 / 7 * (ε + 9 * ur)) ≤ L / T * (1 / 4) := by gcongr; linarith
  have h2 : ur * (L * (1 - D) / T + L / T * (8 / 7 * (ε + 9 * ur))) ≤ ur * (5 / 4 * (L / T)) := by gcongr; linarith
  have h3 : 0 ≤ L / T * ε := by positivity
  nlinarith

theorem Params.Moderate.scale1 {p : Params} (h : p.Moderate) : Scale p.lambda1 := Box.of (i := 500) h.1

theorem Params.Moderate.scale2 {p : Params} (h : p.Moderate) : Scale p.lambda2 := Box.of (i := 500) h.2.1

theorem mu4 : 4 * mu = 2 ^ (-1073 : ℤ) := by
  unfold mu
  rw [show (-1073 : ℤ) = 2 + -1075 by norm_num, zpow_add₀ (by norm_num)]
  norm_num

theorem forward_near {l : Lib} {ε : ℝ} (hl : l.Good ε) (hε0 : 0 ≤ ε) (hε : ε ≤ 1 / 16) (p : Params) (hp : p.Moderate) {today date : Date}
    (h : today < date) :
    Near (p.nss.forwardAt l (tau today date)) (p.exact.curve (years today date)) ((2 * ε + 16 * ur) * p.size + 4 * mu) := by
  obtain ⟨r, r1, r2, -⟩ := decay_near hl hε0 h hp.scale1
  have hr : Near (l.exp ((tau today date).neg.div (fin p.lambda1))) (Real.exp (-(years today date / F64.real p.lambda1))) (ε + 9 * ur) :=
    Near.mono ⟨r, r1, r2⟩ (by have := ur_pos; linarith)
  have h2 := hump_near hl hε0 hε h hp.scale1
  have h3 := hump_near hl hε0 hε h hp.scale2
  have hX1 := (ratio_box h hp.scale1).pos
  have hX2 := (ratio_box h hp.scale2).pos
  have hu : ur ≤ 1 / 1000000 := by unfold ur; norm_num
  have hu0 := ur_pos
  have hc := combine (b0 := p.beta0) (b1 := p.beta1) (b2 := p.beta2) (b3 := p.beta3) hr h2 h3
    (by rw [abs_of_pos (Real.exp_pos _), ← Real.exp_zero]; exact Real.exp_le_exp.2 (by linarith))
    (by rw [abs_of_pos (by positivity)]; exact (mul_exp_half _).trans (by norm_num))
    (by rw [abs_of_pos (by positivity)]; exact (mul_exp_half _).trans (by norm_num)) hp.2.2
    (le_trans (by linarith) (one_le_pow₀ (by norm_num : (1 : ℝ) ≤ 2)))
  refine hc.mono ?_
  change (9 / 8 * (ε + 9 * ur) + 5 * ur) * p.size + 4 * mu ≤ _
  have : 0 ≤ p.size := by unfold Params.size; positivity
  have h9 : 9 / 8 * (ε + 9 * ur) + 5 * ur ≤ 2 * ε + 16 * ur := by linarith
  exact _root_.add_le_add (mul_le_mul_of_nonneg_right h9 this) le_rfl

/-- The amplification of the errors for short times. -/
noncomputable def Params.stretch (p : Params) (T : ℝ) : ℝ := 1 + F64.real p.lambda1 / T + F64.real p.lambda2 / T

theorem average_eq (p : Params) (hp1 : 0 < F64.real p.lambda1) (hp2 : 0 < F64.real p.lambda2) {T : ℝ} (hT : 0 < T) :
    (∫ s in (0 : ℝ)..T, p.exact.curve s) / T = F64.real p.beta0 + F64.real p.beta1 * (F64.real p.lambda1 * (1 - Real.exp (-(T / F64.real p.lambda1))) / T)
      + F64.real p.beta2 * (F64.real p.lambda1 * (1 - Real.exp (-(T / F64.real p.lambda1))) / T - Real.exp (-(T / F64.real p.lambda1)))
      + F64.real p.beta3 * (F64.real p.lambda2 * (1 - Real.exp (-(T / F64.real p.lambda2))) / T - Real.exp (-(T / F64.real p.lambda2))) := by
  have h1 : p.exact.lambda1 ≠ 0 := hp1.ne'
  have h2 : p.exact.lambda2 ≠ 0 := hp2.ne'
  rw [integral_curve p.exact h1 h2, anti_zero, sub_zero]
  unfold Stochastics.Nss.anti Params.exact
  field_simp

theorem spot_near {l : Lib} {ε : ℝ} (hl : l.Good ε) (hε0 : 0 ≤ ε) (hε : ε ≤ 1 / 16) (p : Params) (hp : p.Moderate) {today date : Date}
    (h : today < date) :
    Near (p.nss.spotAt l (tau today date)) ((∫ s in (0 : ℝ)..years today date, p.exact.curve s) / years today date)
      ((3 * ε + 22 * ur) * p.stretch (years today date) * p.size + 4 * mu) ∧
    |(∫ s in (0 : ℝ)..years today date, p.exact.curve s) / years today date| ≤ p.size := by
  have hT := years_pos h
  have hu : ur ≤ 1 / 1000000 := by unfold ur; norm_num
  have hu0 := ur_pos
  have part : ∀ lambda : F64, Scale lambda →
      0 < F64.real lambda / years today date ∧ F64.real lambda / years today date ≤ 2 ^ 515 ∧
      |F64.real lambda * (1 - Real.exp (-(years today date / F64.real lambda))) / years today date| ≤ 1 ∧
      |F64.real lambda * (1 - Real.exp (-(years today date / F64.real lambda))) / years today date -
        Real.exp (-(years today date / F64.real lambda))| ≤ 1 ∧
      ∃ r : F64, l.exp ((tau today date).neg.div (fin lambda)) = fin r ∧
      Near ((slope l (fin lambda) (tau today date)).sub (l.exp ((tau today date).neg.div (fin lambda))))
        (F64.real lambda * (1 - Real.exp (-(years today date / F64.real lambda))) / years today date -
          Real.exp (-(years today date / F64.real lambda)))
        ((2 * ε + 15 * ur) * (1 + F64.real lambda / years today date)) := by
    intro lambda hs
    obtain ⟨r, r1, r2, -⟩ := decay_near hl hε0 h hs
    have hr : Near (l.exp ((tau today date).neg.div (fin lambda))) (Real.exp (-(years today date / F64.real lambda))) (ε + 3 * ur) :=
      ⟨r, r1, r2⟩
    have hsl := slope_near hl hε0 hε h hs
    have hL := Box.pos hs
    have hbox : Box 515 (F64.real lambda / years today date) := by
      have := (ratio_box h hs).inv
      rwa [inv_div] at this
    obtain ⟨s1, s2, s3⟩ := slope_real hT hL
    have hD := Real.exp_pos (-(years today date / F64.real lambda))
    have hQtop : 4 * (F64.real lambda / years today date) ≤ 2 ^ 600 := by
      refine (mul_le_mul_of_nonneg_left hbox.2 (by norm_num)).trans ?_
      rw [show (4 : ℝ) = 2 ^ 2 by norm_num, ← pow_add]
      exact pow_le_pow_right₀ (by norm_num) (by norm_num)
    have hone : (2 : ℝ) ≤ 2 ^ 600 := le_self_pow₀ (by norm_num) (by norm_num)
    have hdbl : (2 : ℝ) ^ 600 + 2 ^ 600 ≤ top := by
      rw [← two_mul, ← pow_succ']
      exact pow_le_pow_right₀ (by norm_num) (by norm_num)
    have hb2 := hbox.2
    have hb0 := hbox.pos
    set Q := F64.real lambda / years today date with hQ
    set A := F64.real lambda * (1 - Real.exp (-(years today date / F64.real lambda))) / years today date with hA
    set D := Real.exp (-(years today date / F64.real lambda)) with hDdef
    clear_value Q A D
    have h0 : 0 ≤ A - D := by linarith
    have hQe : (3 / 2 * ε + 13 * ur) * Q ≤ 1 * Q := by gcongr; linarith
    refine ⟨hb0, hb2, ?_, ?_, r, r1, ?_⟩
    · rw [abs_of_nonneg (by linarith)]; exact s2
    · rw [abs_of_nonneg h0]; linarith
    · have := hsl.sub hr (by
        rw [abs_of_nonneg h0]
        refine le_trans ?_ hdbl
        clear hdbl hb2
        generalize (2 : ℝ) ^ 600 = P at *
        linarith)
      rw [abs_of_nonneg h0] at this
      refine this.mono ?_
      have h4 : ur * (A - D + ((3 / 2 * ε + 13 * ur) * Q + (ε + 3 * ur))) ≤ ur * (2 + 1 * Q) :=
        mul_le_mul_of_nonneg_left (by linarith) hu0.le
      have h5 : 0 ≤ ε * Q := by positivity
      have h6 : 0 ≤ ur * Q := by positivity
      nlinarith
  obtain ⟨q1, w1, a1, a2, r1, e1, n1⟩ := part p.lambda1 hp.scale1
  obtain ⟨q2, w2, a3, a4, r2, e2, n2⟩ := part p.lambda2 hp.scale2
  have ns := slope_near hl hε0 hε h hp.scale1
  have hS0 : 0 ≤ p.size := by unfold Params.size; positivity
  have hst : 1 ≤ p.stretch (years today date) := by unfold Params.stretch; linarith
  rw [average_eq p (Box.pos hp.scale1) (Box.pos hp.scale2) hT]
  have m1 := ns.mono (f := (2 * ε + 15 * ur) * p.stretch (years today date)) (by
    have : F64.real p.lambda1 / years today date ≤ p.stretch (years today date) := by unfold Params.stretch; linarith
    have h5 : 0 ≤ 3 / 2 * ε + 13 * ur := by positivity
    calc _ ≤ (3 / 2 * ε + 13 * ur) * p.stretch (years today date) := by gcongr
      _ ≤ _ := by gcongr <;> linarith)
  have m2 := n1.mono (f := (2 * ε + 15 * ur) * p.stretch (years today date)) (by
    have : 1 + F64.real p.lambda1 / years today date ≤ p.stretch (years today date) := by unfold Params.stretch; linarith
    gcongr)
  have m3 := n2.mono (f := (2 * ε + 15 * ur) * p.stretch (years today date)) (by
    have : 1 + F64.real p.lambda2 / years today date ≤ p.stretch (years today date) := by unfold Params.stretch; linarith
    gcongr)
  have hbig : (2 * ε + 15 * ur) * p.stretch (years today date) ≤ 2 ^ 520 := by
    have h1 : p.stretch (years today date) ≤ 1 + 2 ^ 515 + 2 ^ 515 := by unfold Params.stretch; gcongr
    have h2 : (1 : ℝ) ≤ 2 ^ 515 := one_le_pow₀ (by norm_num)
    have h3 : (3 : ℝ) * 2 ^ 515 ≤ 2 ^ 520 := by
      calc (3 : ℝ) * 2 ^ 515 ≤ 2 ^ 5 * 2 ^ 515 := by gcongr; norm_num
        _ = 2 ^ 520 := by rw [← pow_add]
    refine le_trans ?_ h3
    have h4 : (2 * ε + 15 * ur) * p.stretch (years today date) ≤ 1 * p.stretch (years today date) := by gcongr; linarith
    clear w1 w2 h3
    generalize (2 : ℝ) ^ 515 = P at *
    linarith
  constructor
  · refine (combine (b0 := p.beta0) (b1 := p.beta1) (b2 := p.beta2) (b3 := p.beta3) m1 m2 m3 a1 a2 a4 hp.2.2 hbig).mono ?_
    change (9 / 8 * ((2 * ε + 15 * ur) * p.stretch (years today date)) + 5 * ur) * p.size + 4 * mu ≤ _
    gcongr
    have h1 : 5 * ur * 1 ≤ 5 * ur * p.stretch (years today date) := by gcongr
    have h2 : 0 ≤ ε * p.stretch (years today date) := by positivity
    nlinarith
  · refine ((abs_add_le _ _).trans (_root_.add_le_add ((abs_add_le _ _).trans (_root_.add_le_add (abs_add_le _ _) le_rfl)) le_rfl)).trans ?_
    rw [abs_mul, abs_mul, abs_mul]
    unfold Params.size
    gcongr
    · exact mul_le_of_le_one_right (abs_nonneg _) a1
    · exact mul_le_of_le_one_right (abs_nonneg _) a2
    · exact mul_le_of_le_one_right (abs_nonneg _) a4

/-! ## Theorems -/

theorem ur16 : 16 * ur = 2 ^ (-49 : ℤ) := by unfold ur; norm_num

/-- **C110.** Forward rates: with an exponential of relative error `ε`, the forward rate of a future date is the value of the Svensson curve
up to `2 ε + 2^-49` times the sizes of the `β`s, whatever the date and the `λ`s. -/
theorem C110_forward_error {l : Lib} {ε : ℝ} (hl : l.Good ε) (hε0 : 0 ≤ ε) (hε : ε ≤ 1 / 16) (p : Params) (hp : p.Moderate)
    {today date : Date} (h : today < date) :
    ∃ r : F64, p.nss.forwardRate l today date = some (fin r) ∧
      |F64.real r - p.exact.curve (years today date)| ≤ (2 * ε + 2 ^ (-49 : ℤ)) * p.size + 2 ^ (-1073 : ℤ) := by
  obtain ⟨r, r1, r2⟩ := forward_near hl hε0 hε p hp h
  refine ⟨r, by unfold Nss.forwardRate; rw [if_pos h, r1], ?_⟩
  rwa [ur16, mu4] at r2

/-- **C110.** Spot rates: the spot rate of a future date is the average of the Svensson curve up to `3 ε + 2^-48` times the sizes of the `β`s,
times one plus the ratios of the `λ`s to the time: rates of dates close to today are less accurate. -/
theorem C110_spot_error {l : Lib} {ε : ℝ} (hl : l.Good ε) (hε0 : 0 ≤ ε) (hε : ε ≤ 1 / 16) (p : Params) (hp : p.Moderate)
    {today date : Date} (h : today < date) :
    ∃ r : F64, p.nss.spotRate l today date = some (fin r) ∧
      |F64.real r - (∫ s in (0 : ℝ)..years today date, p.exact.curve s) / years today date| ≤
        (3 * ε + 2 ^ (-48 : ℤ)) * (1 + F64.real p.lambda1 / years today date + F64.real p.lambda2 / years today date) * p.size +
          2 ^ (-1073 : ℤ) := by
  obtain ⟨r, r1, r2⟩ := (spot_near hl hε0 hε p hp h).1
  refine ⟨r, by unfold Nss.spotRate; rw [if_pos h, r1], r2.trans ?_⟩
  rw [mu4]
  have h1 : 22 * ur ≤ 2 ^ (-48 : ℤ) := by unfold ur; norm_num
  have hS0 : 0 ≤ p.size := by unfold Params.size; positivity
  have hT := years_pos h
  have hL1 := Box.pos hp.scale1
  have hL2 := Box.pos hp.scale2
  have hst : 0 ≤ 1 + F64.real p.lambda1 / years today date + F64.real p.lambda2 / years today date := by positivity
  unfold Params.stretch
  gcongr

end Verif.Float.Curves
