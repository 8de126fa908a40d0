import Verif.ImpliedVol.Calculus
import Verif.ImpliedVol.Solve

/-! Helper lemmas: the order of convergence of the three steps. -/

namespace Verif.ImpliedVol

open Real Set Filter Topology Asymptotics Classical
open Verif.Options.Bsm Verif.Distributions

theorem factor_some {a h k : ℝ} (hd : householderDen a h k ≠ 0) :
    (householderFactor a h k).map (a * ·) = some (a * ((1 + 0.5 * h * a) / householderDen a h k)) := by
  rw [householderFactor, if_neg hd]; rfl

variable {x σ : ℝ}

theorem ev_pos (hσ : 0 < σ) : ∀ᶠ s in 𝓝 σ, 0 < s := lt_mem_nhds hσ

theorem black_lt_one (hx : x ≤ 0) (s : ℝ) : black x s < 1 :=
  (black_lt_max x s).trans_le (exp_le_one_iff.2 (by linarith))

/-! ### The lowest segment -/

section lower

variable (x)

noncomputable def lowH (s : ℝ) : ℝ := ratio2 x s - blackVega x s / black x s * (1 + 2 / log (black x s))

noncomputable def lowK (s : ℝ) : ℝ := ratio3 x s + 2 * (blackVega x s / black x s) ^ 2 * (1 + 3 / log (black x s) * (1 + 1 / log (black x s)))
  - 3 * ratio2 x s * (blackVega x s / black x s) * (1 + 2 / log (black x s))

noncomputable def low1 (s : ℝ) : ℝ := -blackVega x s / (black x s * log (black x s) ^ 2)

variable {x}

theorem log_black (hx : x ≤ 0) {s : ℝ} (hs : 0 < s) : log (black x s) < 0 :=
  log_neg (black_pos x s hs) (black_lt_one hx s)

theorem log_black_deriv {s : ℝ} (hs : 0 < s) : HasDerivAt (fun s => log (black x s)) (blackVega x s / black x s) s :=
  (black_deriv x s hs.ne').log (black_pos x s hs).ne'

theorem low_deriv (hx : x ≤ 0) (c : ℝ) {s : ℝ} (hs : 0 < s) :
    HasDerivAt (fun s => 1 / log (black x s) - c) (low1 x s) s := by
  have hl := (log_black hx hs).ne
  have hb := (black_pos x s hs).ne'
  refine (((hasDerivAt_const s (1:ℝ)).fun_div (log_black_deriv hs) hl).sub_const c).congr_deriv ?_
  rw [low1]; field_simp; ring

theorem low1_deriv (hx : x ≤ 0) {s : ℝ} (hs : 0 < s) : HasDerivAt (low1 x) (low1 x s * lowH x s) s := by
  have hl := (log_black hx hs).ne
  have hb := (black_pos x s hs).ne'
  have h := (vega_deriv x s hs.ne').fun_neg.fun_div ((black_deriv x s hs.ne').fun_mul ((log_black_deriv (x := x) hs).fun_pow 2))
    (mul_ne_zero hb (pow_ne_zero 2 hl))
  refine h.congr_deriv ?_
  rw [low1, lowH]
  generalize ratio2 x s = r
  push_cast
  field_simp
  ring

theorem lowH_deriv (hx : x ≤ 0) {s : ℝ} (hs : 0 < s) : HasDerivAt (lowH x) (lowK x s - lowH x s ^ 2) s := by
  have hl := (log_black hx hs).ne
  have hb := (black_pos x s hs).ne'
  have h := (ratio2_deriv x s hs.ne').fun_sub (((vega_deriv x s hs.ne').fun_div (black_deriv x s hs.ne') hb).fun_mul
    (((hasDerivAt_const s (2:ℝ)).fun_div (log_black_deriv (x := x) hs) hl).const_add 1))
  refine h.congr_deriv ?_
  rw [lowH, lowK, ratio3]
  generalize ratio2 x s = r
  field_simp
  ring

theorem low2_deriv (hx : x ≤ 0) {s : ℝ} (hs : 0 < s) :
    HasDerivAt (fun s => low1 x s * lowH x s) (low1 x s * lowK x s) s := by
  refine ((low1_deriv hx hs).fun_mul (lowH_deriv hx hs)).congr_deriv ?_
  ring

theorem lowK_diff (hx : x ≤ 0) {s : ℝ} (hs : 0 < s) : DifferentiableAt ℝ (fun s => low1 x s * lowK x s) s := by
  have hl := (log_black hx hs).ne
  have hb := (black_pos x s hs).ne'
  have a := (low1_deriv hx hs).differentiableAt
  have b := ratio3_diff x s hs.ne'
  have c := (ratio2_deriv x s hs.ne').differentiableAt
  have d := (vega_deriv x s hs.ne').differentiableAt
  have e := (black_deriv x s hs.ne').differentiableAt
  have f := (log_black_deriv (x := x) hs).differentiableAt
  unfold lowK
  fun_prop (disch := assumption)

theorem low1_ne (hx : x ≤ 0) {s : ℝ} (hs : 0 < s) : low1 x s ≠ 0 :=
  div_ne_zero (neg_ne_zero.2 (blackVega_pos x s).ne') (mul_ne_zero (black_pos x s hs).ne' (pow_ne_zero 2 (log_black hx hs).ne))

theorem lowerStep_eq (hx : x ≤ 0) {s : ℝ} (hσ : 0 < σ) (hs : 0 < s) (sl sr : ℝ) :
    lowerStep (black x σ) x (black x s) (blackVega x s) s sl sr =
      (householderFactor (-(1 / log (black x s) - 1 / log (black x σ)) / low1 x s) (low1 x s * lowH x s / low1 x s)
        (low1 x s * lowK x s / low1 x s)).map ((-(1 / log (black x s) - 1 / log (black x σ)) / low1 x s) * ·) := by
  have hl := (log_black hx hs).ne
  have hl' := (log_black hx hσ).ne
  have hb := black_pos x s hs
  have hv := blackVega_pos x s
  have c1 : ¬ (black x s ≤ 0 ∨ blackVega x s ≤ 0) := by push Not; exact ⟨hb, hv⟩
  have c2 : ¬ (log (black x s) = 0 ∨ log (black x σ) = 0 ∨ s = 0) := by push Not; exact ⟨hl, hl', hs.ne'⟩
  have e1 : (log (black x σ) - log (black x s)) * log (black x s) / log (black x σ) / (blackVega x s / black x s) =
      -(1 / log (black x s) - 1 / log (black x σ)) / low1 x s := by
    have := hb.ne'; have := hv.ne'
    rw [low1]; field_simp
  have e2 : x / s * (x / s) / s - s / 4 = ratio2 x s := by rw [ratio2]; field_simp
  have e3 : ratio2 x s * ratio2 x s - 3 * (x / s / s) ^ 2 - 0.25 = ratio3 x s := by rw [ratio3]; field_simp; norm_num; ring
  rw [mul_div_cancel_left₀ _ (low1_ne hx hs), mul_div_cancel_left₀ _ (low1_ne hx hs)]
  simp only [lowerStep, c1, c2, if_false, e1, e2, e3, lowH, lowK]

/-- The step of the lowest segment converges with order four. -/
theorem lower_order (hx : x ≤ 0) (hσ : 0 < σ) (sl sr : ℝ → ℝ) : ∃ C, ∀ᶠ s in 𝓝 σ, ∃ ds,
    lowerStep (black x σ) x (black x s) (blackVega x s) s (sl s) (sr s) = some ds ∧ |s + ds - σ| ≤ C * |s - σ| ^ 4 := by
  have ev := ev_pos hσ
  obtain ⟨hd, hO⟩ := householder_order (σ := σ) (ev.mono fun s hs => low_deriv hx (1 / log (black x σ)) hs)
    (ev.mono fun s hs => low1_deriv hx hs) (ev.mono fun s hs => low2_deriv hx hs) (lowK_diff hx hσ) (by simp) (low1_ne hx hσ)
  obtain ⟨C, hC⟩ := hO.bound
  refine ⟨C, ?_⟩
  filter_upwards [ev, hd, hC] with s hs hds hCs
  refine ⟨_, (lowerStep_eq hx hσ hs _ _).trans (factor_some hds), ?_⟩
  rw [norm_pow, norm_eq_abs, norm_eq_abs] at hCs
  exact hCs

end lower

/-! ### The highest segment -/

section upper

variable (x)

noncomputable def up1 (s : ℝ) : ℝ := blackVega x s / (exp (x / 2) - black x s)

noncomputable def upH (s : ℝ) : ℝ := ratio2 x s + up1 x s

noncomputable def upK (s : ℝ) : ℝ := ratio3 x s + up1 x s * (2 * up1 x s + 3 * ratio2 x s)

variable {x}

theorem room_pos (s : ℝ) : 0 < exp (x / 2) - black x s := sub_pos.2 (black_lt_max x s)

theorem up_deriv (c : ℝ) (hc : c ≠ 0) {s : ℝ} (hs : 0 < s) :
    HasDerivAt (fun s => log (c / (exp (x / 2) - black x s))) (up1 x s) s := by
  have hg := (room_pos (x := x) s).ne'
  have h := (((hasDerivAt_const s c).fun_div ((black_deriv x s hs.ne').const_sub (exp (x / 2))) hg)).log (div_ne_zero hc hg)
  refine h.congr_deriv ?_
  rw [up1]; field_simp; ring

theorem up1_deriv {s : ℝ} (hs : 0 < s) : HasDerivAt (up1 x) (up1 x s * upH x s) s := by
  have hg := (room_pos (x := x) s).ne'
  refine ((vega_deriv x s hs.ne').fun_div ((black_deriv x s hs.ne').const_sub (exp (x / 2))) hg).congr_deriv ?_
  rw [upH, up1]
  generalize ratio2 x s = r
  field_simp; ring

theorem up2_deriv {s : ℝ} (hs : 0 < s) : HasDerivAt (fun s => up1 x s * upH x s) (up1 x s * upK x s) s := by
  have h := (up1_deriv (x := x) hs).fun_mul ((ratio2_deriv x s hs.ne').fun_add (up1_deriv (x := x) hs))
  refine h.congr_deriv ?_
  rw [upK, upH, ratio3]; ring

theorem upK_diff {s : ℝ} (hs : 0 < s) : DifferentiableAt ℝ (fun s => up1 x s * upK x s) s := by
  have a := (up1_deriv (x := x) hs).differentiableAt
  have b := ratio3_diff x s hs.ne'
  have c := (ratio2_deriv x s hs.ne').differentiableAt
  unfold upK
  fun_prop (disch := assumption)

theorem up1_ne (s : ℝ) : up1 x s ≠ 0 := (div_pos (blackVega_pos x s) (room_pos s)).ne'

theorem upperStep_eq {s : ℝ} (hs : 0 < s) (he : epsilon < blackVega x s) (sl sr : ℝ) :
    upperStep (black x σ) (exp (0.5 * x)) x (black x s) (blackVega x s) s sl sr =
      (householderFactor (-log ((exp (x / 2) - black x σ) / (exp (x / 2) - black x s)) / up1 x s)
        (up1 x s * upH x s / up1 x s) (up1 x s * upK x s / up1 x s)).map
          ((-log ((exp (x / 2) - black x σ) / (exp (x / 2) - black x s)) / up1 x s) * ·) := by
  have c1 : ¬ (exp (x / 2) ≤ black x s ∨ blackVega x s ≤ epsilon) := by push Not; exact ⟨black_lt_max x s, he⟩
  have e2 : (x / s) ^ 2 / s - s / 4 = ratio2 x s := by rw [ratio2]; field_simp
  have e3 : ratio2 x s * ratio2 x s - 3 * (x / (s * s)) ^ 2 - 0.25 = ratio3 x s := by
    rw [ratio3]; field_simp; norm_num; ring
  rw [mul_div_cancel_left₀ _ (up1_ne s), mul_div_cancel_left₀ _ (up1_ne s)]
  simp only [upperStep, half_mul, c1, hs.ne', if_false, e2, e3, upH, upK, up1]

theorem ev_vega (hσ : 0 < σ) (he : epsilon < blackVega x σ) : ∀ᶠ s in 𝓝 σ, epsilon < blackVega x s :=
  (vega_deriv x σ hσ.ne').continuousAt.eventually_const_lt he

/-- The step of the highest segment converges with order four. -/
theorem upper_order (hσ : 0 < σ) (he : epsilon < blackVega x σ) (sl sr : ℝ → ℝ) : ∃ C, ∀ᶠ s in 𝓝 σ, ∃ ds,
    upperStep (black x σ) (exp (0.5 * x)) x (black x s) (blackVega x s) s (sl s) (sr s) = some ds ∧
      |s + ds - σ| ≤ C * |s - σ| ^ 4 := by
  have ev := ev_pos hσ
  obtain ⟨hd, hO⟩ := householder_order (σ := σ)
    (ev.mono fun s hs => up_deriv (x := x) (exp (x / 2) - black x σ) (room_pos σ).ne' hs)
    (ev.mono fun s hs => up1_deriv hs) (ev.mono fun s hs => up2_deriv hs) (upK_diff hσ)
    (by rw [div_self (room_pos σ).ne', log_one]) (up1_ne σ)
  obtain ⟨C, hC⟩ := hO.bound
  refine ⟨C, ?_⟩
  filter_upwards [ev, hd, hC, ev_vega hσ he] with s hs hds hCs hes
  refine ⟨_, (upperStep_eq hs hes _ _).trans (factor_some hds), ?_⟩
  rw [norm_pow, norm_eq_abs, norm_eq_abs] at hCs
  exact hCs

end upper

/-! ### The middle segments -/

theorem middleStep_eq (beta : ℝ) {s : ℝ} (hs : 0 < s) (sl sr : ℝ) :
    middleStep beta x (black x s) (blackVega x s) s sl sr =
      (householderFactor (-(black x s - beta) / blackVega x s) ((x / s) ^ 2 - s / 4)
        (((x / s) ^ 2 - s / 4) * ((x / s) ^ 2 - s / 4) - 3 * (x / (s * s)) ^ 2 - 0.25)).map
          ((-(black x s - beta) / blackVega x s) * ·) := by
  have c : ¬ (blackVega x s = 0 ∨ s = 0) := by push Not; exact ⟨(blackVega_pos x s).ne', hs.ne'⟩
  simp only [middleStep, c, if_false, neg_sub]

theorem vega3_diff {s : ℝ} (hs : 0 < s) : DifferentiableAt ℝ (fun s => blackVega x s * ratio3 x s) s :=
  (vega_deriv x s hs.ne').differentiableAt.mul (ratio3_diff x s hs.ne')

/-- The step of the middle segments is of second order unless `x = 0` or `σ = 1`. -/
theorem middle_order (hσ : 0 < σ) (sl sr : ℝ → ℝ) : ∃ ds : ℝ → ℝ,
    (∀ᶠ s in 𝓝 σ, middleStep (black x σ) x (black x s) (blackVega x s) s (sl s) (sr s) = some (ds s)) ∧
      Tendsto (fun s => (s + ds s - σ) / (s - σ) ^ 2) (𝓝[≠] σ) (𝓝 (x ^ 2 / (2 * σ ^ 2) * (1 / σ - 1))) := by
  have ev := ev_pos hσ
  have hσ0 := hσ.ne'
  have hss : σ * σ ≠ 0 := mul_ne_zero hσ0 hσ0
  obtain ⟨hd, hT⟩ := householder_wrong (σ := σ) (ev.mono fun s hs => (black_deriv x s hs.ne').sub_const (black x σ))
    (ev.mono fun s hs => vega_deriv x s hs.ne') (ev.mono fun s hs => vega_deriv2 x s hs.ne') (vega3_diff hσ) (by simp)
    (blackVega_pos x σ).ne' (L' := fun s => (x / s) ^ 2 - s / 4)
    (K' := fun s => ((x / s) ^ 2 - s / 4) * ((x / s) ^ 2 - s / 4) - 3 * (x / (s * s)) ^ 2 - 0.25)
    (by fun_prop (disch := assumption)) (by fun_prop (disch := assumption))
  refine ⟨fun s => -(black x s - black x σ) / blackVega x s * ((1 + 0.5 * ((x / s) ^ 2 - s / 4) *
      (-(black x s - black x σ) / blackVega x s)) / householderDen (-(black x s - black x σ) / blackVega x s)
        ((x / s) ^ 2 - s / 4) (((x / s) ^ 2 - s / 4) * ((x / s) ^ 2 - s / 4) - 3 * (x / (s * s)) ^ 2 - 0.25)), ?_, ?_⟩
  · filter_upwards [ev, hd] with s hs hds
    exact (middleStep_eq _ hs _ _).trans (factor_some hds)
  · have e : (blackVega x σ * ratio2 x σ / blackVega x σ - ((x / σ) ^ 2 - σ / 4)) / 2 =
        x ^ 2 / (2 * σ ^ 2) * (1 / σ - 1) := by
      rw [mul_div_cancel_left₀ _ (blackVega_pos x σ).ne', ratio2]
      field_simp; ring
    rw [← e]
    exact hT

/-- At the money the step of the middle segments is of fourth order. -/
theorem middle_order_atm (hσ : 0 < σ) (sl sr : ℝ → ℝ) : ∃ C, ∀ᶠ s in 𝓝 σ, ∃ ds,
    middleStep (black 0 σ) 0 (black 0 s) (blackVega 0 s) s (sl s) (sr s) = some ds ∧ |s + ds - σ| ≤ C * |s - σ| ^ 4 := by
  have ev := ev_pos hσ
  obtain ⟨hd, hO⟩ := householder_order (σ := σ) (ev.mono fun s hs => (black_deriv 0 s hs.ne').sub_const (black 0 σ))
    (ev.mono fun s hs => vega_deriv 0 s hs.ne') (ev.mono fun s hs => vega_deriv2 0 s hs.ne') (vega3_diff hσ) (by simp)
    (blackVega_pos 0 σ).ne'
  obtain ⟨C, hC⟩ := hO.bound
  refine ⟨C, ?_⟩
  filter_upwards [ev, hd, hC] with s hs hds hCs
  have e1 : (0 / s) ^ 2 - s / 4 = blackVega 0 s * ratio2 0 s / blackVega 0 s := by
    rw [mul_div_cancel_left₀ _ (blackVega_pos 0 s).ne', ratio2]; simp
  have e2 : ((0 / s) ^ 2 - s / 4) * ((0 / s) ^ 2 - s / 4) - 3 * (0 / (s * s)) ^ 2 - 0.25 =
      blackVega 0 s * ratio3 0 s / blackVega 0 s := by
    rw [mul_div_cancel_left₀ _ (blackVega_pos 0 s).ne', ratio3, ratio2]; simp; norm_num; ring
  have hm := middleStep_eq (x := 0) (black 0 σ) hs (sl s) (sr s)
  rw [e2, e1] at hm
  rw [norm_pow, norm_eq_abs, norm_eq_abs] at hCs
  exact ⟨_, hm.trans (factor_some hds), hCs⟩

/-! ### The functions of the code -/

/-- Where neither expansion is used the computed price is the price. -/
theorem ev_exact (hx : x ≤ 0) (h1 : 2 * tau < σ) (h2 : -10 * σ ≤ x) :
    ∀ᶠ s in 𝓝 σ, normalisedBlackCall x s = black x s ∧ normalisedVega x s = blackVega x s := by
  have ht : 0 < tau := by rw [tau_val]; norm_num
  have hσ : 0 < σ := by linarith
  have hxs : |x| * sqrtMin < σ := by
    rw [abs_of_nonpos hx]
    have : sqrtMin < 1 / 10 := by norm_num [sqrtMin]
    nlinarith [sqrtMin_pos]
  have h3 : tau - 10 < σ / 2 + x / σ := by
    have : -10 ≤ x / σ := by rw [le_div_iff₀ hσ]; exact h2
    linarith
  have c : ContinuousAt (fun s => s / 2 + x / s) σ := by
    have := hσ.ne'
    fun_prop (disch := assumption)
  filter_upwards [lt_mem_nhds h1, lt_mem_nhds hxs, c.eventually_const_lt h3] with s a b d
  refine ⟨?_, vega_eq b⟩
  have hs : 0 < s := by linarith
  rw [normalisedBlackCall, if_neg (not_lt.2 hx)]
  rcases otm_accuracy x s hx hs with ⟨-, h, -⟩ | ⟨h, -⟩ | ⟨-, h⟩
  · linarith
  · linarith
  · exact h

/-- A round keeps the order of the step. -/
theorem body_order {step : ℝ → ℝ → ℝ → ℝ → ℝ → Option ℝ} {beta : ℝ} (hσ : 0 < σ)
    (hstep : ∀ sl sr : ℝ → ℝ, ∃ C, ∀ᶠ s in 𝓝 σ, ∃ ds, step (black x s) (blackVega x s) s (sl s) (sr s) = some ds ∧
      |s + ds - σ| ≤ C * |s - σ| ^ 4)
    (hev : ∀ᶠ s in 𝓝 σ, normalisedBlackCall x s = black x s ∧ normalisedVega x s = blackVega x s) (st : State) :
    ∃ C, ∀ᶠ s in 𝓝 σ, ∃ st', body step beta x { st with s := s } = some st' ∧ |st'.s - σ| ≤ C * |s - σ| ^ 4 := by
  obtain ⟨C, hC⟩ := hstep
    (fun s => if ¬ (beta < black x s ∧ s < st.sRight) ∧ (black x s < beta ∧ st.sLeft < s) then s else st.sLeft)
    (fun s => if beta < black x s ∧ s < st.sRight then s else st.sRight)
  refine ⟨C, ?_⟩
  have c : ContinuousAt (fun s => C * |s - σ| ^ 4 + |s - σ| - s / 2) σ := by fun_prop
  have c0 : (fun s => C * |s - σ| ^ 4 + |s - σ| - s / 2) σ < 0 := by
    simp only [sub_self, abs_zero]; norm_num; linarith
  filter_upwards [hC, hev, c.eventually_lt_const c0] with s ⟨ds, h1, h2⟩ ⟨h3, h4⟩ h5
  have hds : -0.5 * s ≤ ds := by
    have e1 := neg_abs_le (s + ds - σ)
    have e2 := neg_abs_le (s - σ)
    have e3 := le_abs_self (s - σ)
    norm_num
    linarith
  have hb : ∃ st', body step beta x { st with s := s } = some st' ∧ st'.s = s + max ds (-0.5 * s) := by
    simp only [body, h3, h4]
    rw [h1]
    exact ⟨_, rfl, rfl⟩
  obtain ⟨st', hb1, hb2⟩ := hb
  exact ⟨st', hb1, by rw [hb2, max_eq_left hds]; exact h2⟩

end Verif.ImpliedVol
