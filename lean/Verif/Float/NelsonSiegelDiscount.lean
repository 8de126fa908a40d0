import Verif.Float.NelsonSiegelProps

/-!
# C110: discount factors, and parameters for which the formulas fail
-/

namespace Verif.Float.Curves

open X64 Nan Verif.Float.Sim Verif.Float.Bsm Verif.Float.Laws Verif.Time MeasureTheory
open Verif.Float.Fft (ur mu top ur_pos mu_pos ur_le)
open Verif.Stochastics (years years_pos)

/-! ## Helper lemmas -/

theorem hundred_fin : ∃ i : F64, ofQ 100 = fin i ∧ i.val = 100 := by
  have e : (toF64 100).map F64.val = some 100 := by decide +kernel
  obtain ⟨a, a1, a2⟩ := Option.map_eq_some_iff.1 e
  exact ⟨a, fin_of a1, a2⟩

theorem mu_year {T : ℝ} (h : T ≤ 2 ^ 15) : mu * (100 * T + 100) ≤ ur := by
  have h1 : mu * (2 ^ 23) ≤ ur := by
    unfold mu ur
    rw [show (2 : ℝ) ^ 23 = 2 ^ (23 : ℤ) by norm_num, ← zpow_add₀ (by norm_num)]
    exact zpow_le_zpow_right₀ (by norm_num) (by norm_num)
  have h2 : mu * (100 * T + 100) ≤ mu * 2 ^ 23 := by
    refine mul_le_mul_of_nonneg_left ?_ mu_pos.le
    linarith
  exact h2.trans h1

/-- The exponent. -/
theorem exponent_near {s t : X64} {A T S g : ℝ} (hs : Near s A g) (ht : Near t T (2 * ur * T)) (hA : |A| ≤ S) (hT : 0 < T) (hT1 : T ≤ 2 ^ 15)
    (hS : S ≤ 2 ^ 450) (hg : g ≤ 2 ^ 980) :
    Near ((s.neg.mul t).div (ofQ 100)) (-A * T / 100) ((23 / 5 * ur * (S * T) + 23 / 20 * (T * g)) / 100 + 3 * mu) := by
  have hu : ur ≤ 1 / 1000000 := by unfold ur; norm_num
  have hu0 := ur_pos
  have hm0 := mu_pos
  have hg0 := hs.nonneg
  have hS0 : 0 ≤ S := (abs_nonneg _).trans hA
  have hST0 : 0 ≤ S * T := by positivity
  have hTg0 : 0 ≤ T * g := by positivity
  have hAT : |-A * T| ≤ S * T := by
    rw [abs_mul, abs_neg, abs_of_pos hT]; gcongr
  have hm1 : mu ≤ 1 := Fft.mu_le.trans (by linarith)
  have htop : ∀ x : ℝ, x ≤ 8 * (S * T + T * g) + 8 → x ≤ top := by
    intro x hx
    have h1 : S * T ≤ 2 ^ 450 * 2 ^ 15 := by gcongr
    have h2 : T * g ≤ 2 ^ 15 * 2 ^ 980 := by gcongr
    rw [← pow_add] at h1 h2
    have h3 : (2 : ℝ) ^ 465 ≤ 2 ^ 995 := pow_le_pow_right₀ (by norm_num) (by norm_num)
    have h4 : (1 : ℝ) ≤ 2 ^ 995 := one_le_pow₀ (by norm_num)
    have h5 : (32 : ℝ) * 2 ^ 995 ≤ top := by
      unfold top
      rw [show (32 : ℝ) = 2 ^ 5 by norm_num, ← pow_add]
      exact pow_le_pow_right₀ (by norm_num) (by norm_num)
    norm_num only at h1 h2
    have h6 := h1.trans h3
    clear hS hg h1 h3
    generalize (2 : ℝ) ^ 995 = P at *
    linarith
  clear hS hg hT1
  have h1 := hs.neg.mul ht (E := 2 * ur * (S * T) + 1001 / 1000 * (T * g)) (by
    rw [abs_neg, abs_of_pos hT]
    have e1 : |A| * (2 * ur * T) ≤ S * (2 * ur * T) := by gcongr
    have e2 : g * (2 * ur * T) = 2 * ur * (T * g) := by ring
    have e3 : 2 * ur * (T * g) ≤ 1 / 1000 * (T * g) := by gcongr; linarith
    linarith) (htop _ (by
    have : ur * (S * T) ≤ 1 * (S * T) := by gcongr; linarith
    linarith))
  have h1' := h1.mono (f := 31 / 10 * (ur * (S * T)) + 1003 / 1000 * (T * g) + mu) (by
    have e1 : ur * (|-A * T| + (2 * ur * (S * T) + 1001 / 1000 * (T * g))) ≤
      ur * (S * T + (2 * ur * (S * T) + 1001 / 1000 * (T * g))) := by gcongr
    have e2 : ur * (ur * (S * T)) ≤ 1 / 1000 * (ur * (S * T)) := by gcongr; linarith
    have e3 : ur * (T * g) ≤ 1 / 1000 * (T * g) := by gcongr; linarith
    nlinarith)
  obtain ⟨i, i1, i2⟩ := hundred_fin
  have hi : Near (ofQ 100) 100 (0 * 100) := ⟨i, i1, by unfold F64.real; rw [i2]; norm_num⟩
  have h2 := h1'.div (δ := 0) (by norm_num) (by norm_num) hi
    (E := 8 / 7 * ((31 / 10 * (ur * (S * T)) + 1003 / 1000 * (T * g) + mu) / 100)) (by linarith) (htop _ (by
    rw [abs_div, abs_of_pos (by norm_num : (0 : ℝ) < 100)]
    have : ur * (S * T) ≤ 1 * (S * T) := by gcongr; linarith
    linarith))
  refine h2.mono ?_
  rw [abs_div, abs_of_pos (by norm_num : (0 : ℝ) < 100)]
  have e1 : ur * (|-A * T| / 100 + 8 / 7 * ((31 / 10 * (ur * (S * T)) + 1003 / 1000 * (T * g) + mu) / 100)) ≤
      ur * (S * T / 100 + 8 / 7 * ((31 / 10 * (ur * (S * T)) + 1003 / 1000 * (T * g) + mu) / 100)) := by gcongr
  have e2 : ur * (ur * (S * T)) ≤ 1 / 1000 * (ur * (S * T)) := by gcongr; linarith
  have e3 : ur * (T * g) ≤ 1 / 1000 * (T * g) := by gcongr; linarith
  have e4 : ur * mu ≤ 1 * mu := by gcongr; linarith
  nlinarith

theorem exp_move {D x y η : ℝ} (hD : D = Real.exp x) (h : |y - x| ≤ η) (hη : η ≤ 1 / 8) : |Real.exp y - D| ≤ 2 * η * D ∧ Real.exp y ≤ 5 / 4 * D := by
  have h1 := Real.abs_exp_sub_one_le (x := y - x) (h.trans (by linarith))
  have hD0 : 0 < D := by rw [hD]; exact Real.exp_pos _
  have e : Real.exp y - D = D * (Real.exp (y - x) - 1) := by
    rw [hD, mul_sub, mul_one, ← Real.exp_add]; ring_nf
  have h2 : |Real.exp y - D| ≤ 2 * η * D := by
    rw [e, abs_mul, abs_of_pos hD0, mul_comm]
    gcongr
    linarith
  refine ⟨h2, ?_⟩
  have h3 := (abs_le.1 h2).2
  have : 2 * η * D ≤ 1 / 4 * D := by gcongr; linarith
  linarith

/-! ## Theorems -/

/-- **C110.** Discount factors: while the `β`s together times the time and the `λ`s stay below 60000 (percent years), the relative error of a
discount factor is `2 ε + 2^-52` plus `8 ε + 2^-47` for each unit of this product (over 100). -/
theorem C110_discount_error {l : Lib} {ε : ℝ} (hl : l.Good ε) (hε0 : 0 ≤ ε) (hε : ε ≤ 2 ^ (-16 : ℤ)) (p : Params) (hp : p.Moderate)
    {today date : Date} (h : today < date)
    (hsmall : p.size * (years today date + F64.real p.lambda1 + F64.real p.lambda2) / 100 ≤ 600) :
    ∃ r : F64, p.nss.discountFactor l today date = some (fin r) ∧
      |F64.real r - Real.exp (-(∫ s in (0 : ℝ)..years today date, p.exact.curve s) / 100)| ≤
        (2 * ε + 2 ^ (-52 : ℤ) +
          (8 * ε + 2 ^ (-47 : ℤ)) * (p.size * (years today date + F64.real p.lambda1 + F64.real p.lambda2) / 100)) *
        Real.exp (-(∫ s in (0 : ℝ)..years today date, p.exact.curve s) / 100) := by
  have hε16 : ε ≤ 1 / 65536 := by rw [show (2 : ℝ) ^ (-16 : ℤ) = 1 / 65536 by norm_num] at hε; exact hε
  obtain ⟨hn, hA⟩ := spot_near hl hε0 (by linarith) p hp h
  have ht := tau_near h
  have hT := years_pos h
  obtain ⟨-, hT1⟩ := years_range h
  have hL1 := Box.pos hp.scale1
  have hL2 := Box.pos hp.scale2
  have hu : ur ≤ 1 / 1000000000 := by unfold ur; norm_num
  have hu0 := ur_pos
  have hm0 := mu_pos
  have hm1 : mu ≤ 1 := Fft.mu_le.trans (by linarith)
  have hS0 : 0 ≤ p.size := by unfold Params.size; positivity
  have hmt := mu_year hT1
  set T := years today date with hTd
  set I := ∫ s in (0 : ℝ)..T, p.exact.curve s with hI
  set Q := p.size * (T + F64.real p.lambda1 + F64.real p.lambda2) / 100 with hQ
  have hQ0 : 0 ≤ Q := by positivity
  have hTg : T * ((3 * ε + 22 * ur) * p.stretch T * p.size + 4 * mu) = 100 * ((3 * ε + 22 * ur) * Q) + 4 * (mu * T) := by
    rw [hQ]
    unfold Params.stretch
    field_simp
  have hST : p.size * T ≤ 100 * Q := by
    rw [hQ]
    have : 0 ≤ p.size * (F64.real p.lambda1 + F64.real p.lambda2) := by positivity
    linarith
  have hg : (3 * ε + 22 * ur) * p.stretch T * p.size + 4 * mu ≤ 2 ^ 980 := by
    have h1 : T * ((3 * ε + 22 * ur) * p.stretch T * p.size + 4 * mu) ≤ 60100 := by
      rw [hTg]
      have e1 : (3 * ε + 22 * ur) * Q ≤ 1 * 600 := by gcongr; linarith
      linarith
    have h3 : 1 / 366 ≤ T := (years_range h).1
    have h2 : (3 * ε + 22 * ur) * p.stretch T * p.size + 4 * mu ≤ 366 * 60100 := by
      have h4 : 0 ≤ (3 * ε + 22 * ur) * p.stretch T * p.size + 4 * mu := hn.nonneg
      nlinarith
    refine h2.trans ?_
    calc (366 * 60100 : ℝ) ≤ 2 ^ 25 := by norm_num
      _ ≤ 2 ^ 980 := pow_le_pow_right₀ (by norm_num) (by norm_num)
  obtain ⟨y, y1, y2⟩ := exponent_near hn ht hA hT hT1 hp.2.2 hg
  rw [hTg] at y2
  have hx : -(I / T) * T / 100 = -I / 100 := by field_simp
  rw [hx] at y2
  have hη : (23 / 5 * ur * (p.size * T) + 23 / 20 * (100 * ((3 * ε + 22 * ur) * Q) + 4 * (mu * T))) / 100 + 3 * mu ≤ (4 * ε + 32 * ur) * Q + ur := by
    have h5 : ur * (p.size * T) ≤ ur * (100 * Q) := by gcongr
    have h6 : 0 ≤ ε * Q := by positivity
    have h7 : 0 ≤ ur * Q := by positivity
    have h8 : 0 ≤ mu * T := by positivity
    nlinarith
  have y3 := y2.trans hη
  set η := (4 * ε + 32 * ur) * Q + ur with hηd
  have hη1 : η ≤ 1 / 8 := by
    have : (4 * ε + 32 * ur) * Q ≤ (4 * ε + 32 * ur) * 600 := by gcongr
    linarith
  have hη0 : 0 ≤ η := by positivity
  have hIb : |-I / 100| ≤ 600 := by
    have h5 : |I / T| ≤ p.size := hA
    rw [abs_div, abs_of_pos hT, div_le_iff₀ hT] at h5
    rw [abs_div, abs_neg, abs_of_pos (by norm_num : (0 : ℝ) < 100)]
    linarith
  have hyb := size_le y3
  obtain ⟨r, r1, r2⟩ := hl.exp_near y (by linarith)
  obtain ⟨m1, m2⟩ := exp_move (D := Real.exp (-I / 100)) rfl y3 hη1
  refine ⟨r, ?_, ?_⟩
  · unfold Nss.discountFactor Nss.spotRate
    rw [if_pos h, Option.map_some, y1, r1]
  · have hD := Real.exp_pos (-I / 100)
    rw [show F64.real r - Real.exp (-I / 100) = (F64.real r - Real.exp (F64.real y)) + (Real.exp (F64.real y) - Real.exp (-I / 100)) by ring]
    refine (abs_add_le _ _).trans ((_root_.add_le_add r2 m1).trans ?_)
    have h5 : ε * Real.exp (F64.real y) ≤ ε * (5 / 4 * Real.exp (-I / 100)) := by gcongr
    have h6 : (2 : ℝ) ^ (-52 : ℤ) = 2 * ur := by unfold ur; norm_num
    have h7 : (2 : ℝ) ^ (-47 : ℤ) = 64 * ur := by unfold ur; norm_num
    rw [h6, h7]
    have h8 : ε * (5 / 4) + 2 * η ≤ 2 * ε + 2 * ur + (8 * ε + 64 * ur) * Q := by rw [hηd]; linarith
    have h9 := mul_le_mul_of_nonneg_right h8 hD.le
    linarith

/-- **C110.** Whatever the parameters, also infinite ones, a spot rate that is not negative gives a discount factor from 0 to 1. -/
theorem C110_discount_range {l : Lib} {ε : ℝ} (hl : l.Good ε) (m : Nss) {today date : Date} (h : today < date) {s : X64}
    (hs : m.spotRate l today date = some s) (h0 : le zero s = true) : ∃ d, m.discountFactor l today date = some d ∧ Fraction d := by
  unfold Nss.discountFactor
  rw [hs]
  refine ⟨_, rfl, ?_⟩
  beta_reduce
  obtain ⟨t, t1, t2⟩ := tau_near h
  have hT := years_pos h
  have hu := ur_le
  have hu0 := ur_pos
  have ht : 0 < t.val := by
    have h1 := (abs_le.1 t2).1
    have h2 : 0 < F64.real t := by nlinarith
    unfold F64.real at h2
    exact_mod_cast h2
  obtain ⟨i, i1, i2⟩ := hundred_fin
  rw [t1, i1]
  have key : ((s.neg.mul (fin t)).div (fin i)) = inf true ∨ ∃ a : F64, ((s.neg.mul (fin t)).div (fin i)) = fin a ∧ a.val ≤ 0 := by
    have hi : ¬ (i.val < 0) := by rw [i2]; norm_num
    have hi0 : ¬ (i.val = 0) := by rw [i2]; norm_num
    have rest : ∀ q : ℚ, q ≤ 0 → ((ofQ q).div (fin i) = inf true ∨ ∃ a : F64, (ofQ q).div (fin i) = fin a ∧ a.val ≤ 0) := by
      intro q hq
      by_cases hf : |rnd q| < 2 ^ 1024
      · obtain ⟨b, b1, b2⟩ := ofQ_fin hf
        have hb : b.val ≤ 0 := by
          rw [b2]
          have := rnd_mono hq
          rwa [rnd_zero] at this
        rw [b1]
        have e : (fin b).div (fin i) = ofQ (b.val / i.val) := by
          change (if i.val = 0 then _ else _) = _
          rw [if_neg hi0]
        rw [e]
        have hq2 : b.val / i.val ≤ 0 := div_nonpos_of_nonpos_of_nonneg hb (not_lt.1 hi)
        by_cases hf2 : |rnd (b.val / i.val)| < 2 ^ 1024
        · obtain ⟨c, c1, c2⟩ := ofQ_fin hf2
          refine .inr ⟨c, c1, ?_⟩
          rw [c2]
          have := rnd_mono hq2
          rwa [rnd_zero] at this
        · rw [ofQ_inf hf2]
          left
          have hne : b.val / i.val ≠ 0 := by
            intro hc
            rw [hc, rnd_zero, abs_zero] at hf2
            exact hf2 (by positivity)
          rw [decide_eq_true (lt_of_le_of_ne hq2 hne)]
      · rw [ofQ_inf hf]
        have hne : q ≠ 0 := by
          intro hc
          rw [hc, rnd_zero, abs_zero] at hf
          exact hf (by positivity)
        rw [decide_eq_true (lt_of_le_of_ne hq hne)]
        left
        change inf (true != decide (i.val < 0)) = _
        rw [decide_eq_false hi]
        rfl
    cases s with
    | nan => rw [le_nan] at h0; simp at h0
    | inf b =>
      cases b with
      | true => simp [le, zero] at h0
      | false =>
        left
        change ((inf true).mul (fin t)).div (fin i) = inf true
        have e : (inf true).mul (fin t) = inf true := by
          change (if t.val = 0 then nan else inf (true != decide (t.val < 0))) = _
          rw [if_neg ht.ne', decide_eq_false (not_lt.2 ht.le)]
          rfl
        rw [e]
        change inf (true != decide (i.val < 0)) = _
        rw [decide_eq_false hi]
        rfl
    | fin a =>
      have ha := (le_fin F64.zero a).1 h0
      rw [Laws.zero_val] at ha
      rw [neg_of]
      refine rest _ ?_
      change -a.val * t.val ≤ 0
      nlinarith
  have hone := one_fin
  obtain ⟨j, j1, j2⟩ := hone
  rcases key with hk | ⟨a, hk, ha⟩
  · rw [hk, hl.exp_bottom]
    exact ⟨F64.zero, rfl, by rw [Laws.zero_val], by rw [Laws.zero_val]; norm_num⟩
  · rw [hk]
    have h1 : le (l.exp (inf true)) (l.exp (fin a)) = true := hl.exp_mono _ _ rfl
    have h2 : le (l.exp (fin a)) (l.exp zero) = true := hl.exp_mono _ _ ((le_fin _ _).2 ha)
    rw [hl.exp_bottom] at h1
    rw [hl.exp_zero, j1] at h2
    cases hx : l.exp (fin a) with
    | nan => rw [hx, le_nan] at h1; simp at h1
    | inf b => rw [hx] at h1 h2; cases b <;> simp [le, zero] at h1 h2
    | fin c =>
      rw [hx] at h1 h2
      exact ⟨c, rfl, by have := (le_fin F64.zero c).1 h1; rwa [Laws.zero_val] at this, by have := (le_fin _ _).1 h2; rwa [j2] at this⟩

end Verif.Float.Curves
