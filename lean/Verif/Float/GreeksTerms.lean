import Verif.Float.GreeksLemmas
import Verif.Options.BsmProps
import Mathlib.Analysis.Calculus.IteratedDeriv.Defs

/-! Helper lemmas: terms with several factors, and the formulas as derivatives of the price. -/

namespace Verif.Float.Bsm

open Real Verif.Float.Sim Verif.Options
open Verif.Float.Fft (ur mu top rnd_real toF64_total ur_pos mu_pos)

section

variable {m : Libm} {δ : ℝ} {o : Contract}

theorem zero_mul_some {a b : F64} (h : F64.real a = 0) : a.mul b = some F64.zero := by
  have : a.val = 0 := by unfold F64.real at h; exact_mod_cast h
  unfold F64.mul
  rw [this, zero_mul]
  exact toF64_val F64.zero

theorem zero_real : F64.real F64.zero = 0 := by unfold F64.real; simp [F64.zero]

theorem mul_comm_f (a b : F64) : a.mul b = b.mul a := by unfold F64.mul; rw [mul_comm]

/-- Two factors times an exponential, times a value of the distribution function. -/
theorem triple_near (hδ : Fine δ) {a b z c : F64} {A Y E Q N : ℝ} (hE0 : 0 ≤ E) (hE : E ≤ 300) (hY : |Y| ≤ 300)
    (ha : |F64.real a - A| ≤ ur * |A|) (hA : A = 0 ∨ Box 200 |A|) (hb : Box 200 |F64.real b|)
    (hz : |F64.real z - exp Y| ≤ δ * (2 + 3 * E) * exp Y) (hQ : 0 ≤ Q) (hQ1 : δ * Q ≤ 2 ^ (-10 : ℤ))
    (hc : |F64.real c - N| ≤ δ * (2 + 13 * Q)) (hN : |N| ≤ 1) :
    ∃ x y p, a.mul b = some x ∧ x.mul z = some y ∧ y.mul c = some p ∧
      |F64.real p - A * F64.real b * exp Y * N| ≤ δ * (9 + 4 * E + 13 * Q) * |A * F64.real b * exp Y| ∧
      |F64.real p| ≤ 3 / 2 * |A * F64.real b * exp Y| := by
  have hδ0 := hδ.pos
  have hδ1 := hδ.le
  have hδu := hδ.ur
  have hu := ur_pos
  rcases hA with hA | hA
  · subst hA
    have ha0 : F64.real a = 0 := by
      rw [abs_zero, mul_zero, sub_zero] at ha
      exact abs_nonpos_iff.1 ha
    refine ⟨F64.zero, F64.zero, F64.zero, zero_mul_some ha0, zero_mul_some zero_real, zero_mul_some zero_real, ?_, ?_⟩
    · rw [zero_real]; simp
    · rw [zero_real]; simp
  · have hb1 : Box 400 |A * F64.real b| := by rw [abs_mul]; exact hA.mul hb
    obtain ⟨x, h1, r1⟩ := mulN (a := a) (b := b) ha (rel_self _) hu.le (by linarith) le_rfl (by norm_num) (hb1.mono (by norm_num))
    have r1' : |F64.real x - A * F64.real b| ≤ 2 * δ * |A * F64.real b| :=
      r1.trans (mul_le_mul_of_nonneg_right (by linarith) (abs_nonneg _))
    have hb2 : Box 1000 |A * F64.real b * exp Y| := by rw [abs_mul, abs_of_pos (exp_pos Y)]; exact hb1.mul (exp_box hY)
    have hδE : δ * E ≤ 1 / 1000000 * E := by gcongr
    have hδE0 : 0 ≤ δ * E := by positivity
    obtain ⟨y, h2, r2⟩ := mulN (a := x) (b := z) (A := A * F64.real b) (B := exp Y) (α := 2 * δ) (β := δ * (2 + 3 * E)) r1'
      (by rw [abs_of_pos (exp_pos Y)]; exact hz) (by linarith) (by linarith) (by positivity) (by linarith) hb2
    have hF := hb2.pos
    have r2' : |F64.real y - A * F64.real b * exp Y| ≤ δ * (51 / 10 + 31 / 10 * E) * |A * F64.real b * exp Y| := by
      refine r2.trans (mul_le_mul_of_nonneg_right ?_ hF.le)
      nlinarith
    have hδQ0 : 0 ≤ δ * Q := by positivity
    have hQ2 : δ * Q ≤ 1 / 1024 := hQ1.trans (by norm_num)
    obtain ⟨p, h3, r3⟩ := term (f := y) (c := c) hb2 r2' (by positivity) (by linarith) hc (by linarith) hN
    have e1 : |F64.real p - A * F64.real b * exp Y * N| ≤ δ * (9 + 4 * E + 13 * Q) * |A * F64.real b * exp Y| := by
      refine r3.trans (mul_le_mul_of_nonneg_right ?_ hF.le)
      linarith
    refine ⟨x, y, p, h1, h2, h3, e1, ?_⟩
    rw [show F64.real p = (F64.real p - A * F64.real b * exp Y * N) + A * F64.real b * exp Y * N by ring]
    refine (abs_add_le _ _).trans ?_
    rw [abs_mul (A * F64.real b * exp Y) N]
    have e2 : |A * F64.real b * exp Y| * |N| ≤ |A * F64.real b * exp Y| * 1 := by gcongr
    have e3 : δ * (9 + 4 * E + 13 * Q) * |A * F64.real b * exp Y| ≤ 1 / 2 * |A * F64.real b * exp Y| :=
      mul_le_mul_of_nonneg_right (by linarith) hF.le
    linarith

theorem exact_rel (a : F64) : |F64.real a - F64.real a| ≤ ur * |F64.real a| := by
  rw [sub_self, abs_zero]; have := ur_pos; positivity

theorem Phi_abs (x : ℝ) : |Phi x| ≤ 1 := by rw [abs_of_pos (Phi_mem x).1]; exact (Phi_mem x).2.le

theorem density_abs (x : ℝ) : |density x| ≤ 1 := by
  rw [abs_of_nonneg (density_nonneg x)]; exact (density_le x).trans (by norm_num)

/-- The denominator of a gamma. -/
theorem den_near (hm : m.Accurate δ) (hδ : Fine δ) (h : Facts o) {s : F64} (hs : Box 200 (F64.real s)) :
    ∃ x t d, s.mul o.volatility = some x ∧ m.sqrt o.T = some t ∧ x.mul t = some d ∧ 0 < F64.real s * F64.real o.volatility * √(F64.real o.T) ∧
      Box 350 (F64.real s * F64.real o.volatility * √(F64.real o.T)) ∧
      |F64.real d - F64.real s * F64.real o.volatility * √(F64.real o.T)| ≤
        31 / 10 * δ * |F64.real s * F64.real o.volatility * √(F64.real o.T)| := by
  have hδ0 := hδ.pos
  have hδ1 := hδ.le
  have hδu := hδ.ur
  obtain ⟨t, h1, r1⟩ := hm.sqrt o.T h.T.pos
  have hT : Box 50 √(F64.real o.T) := Box.sqrt h.T
  have hb := hs.mul h.v
  obtain ⟨x, h2, r2⟩ := mulN (a := s) (b := o.volatility) (rel_self _) (rel_self _) le_rfl (by norm_num) le_rfl (by norm_num)
    (by rw [abs_of_pos hb.pos]; exact hb.mono (by norm_num))
  have r2' : |F64.real x - F64.real s * F64.real o.volatility| ≤ δ * |F64.real s * F64.real o.volatility| :=
    r2.trans (mul_le_mul_of_nonneg_right (by linarith) (abs_nonneg _))
  have hb2 := hb.mul hT
  obtain ⟨d, h3, r3⟩ := mulN (a := x) (b := t) (B := √(F64.real o.T)) r2' (by rw [abs_of_nonneg (Real.sqrt_nonneg _)]; exact r1) hδ0.le
    (by linarith) hδ0.le (by linarith) (by rw [abs_of_pos hb2.pos]; exact hb2.mono (by norm_num))
  refine ⟨x, t, d, h2, h1, h3, hb2.pos, hb2, r3.trans (mul_le_mul_of_nonneg_right ?_ (abs_nonneg _))⟩
  nlinarith

/-- A gamma, from its parts. -/
theorem gamma_near (hm : m.Accurate δ) (hδ : Fine δ) (h : Facts o) {s z c : F64} (hs : Box 200 (F64.real s)) {Y E Q N : ℝ} (hE0 : 0 ≤ E)
    (hE : E ≤ 300) (hY : |Y| ≤ 300) (hz : |F64.real z - exp Y| ≤ δ * (2 + 3 * E) * exp Y) (hQ : 0 ≤ Q) (hQ1 : δ * Q ≤ 2 ^ (-10 : ℤ))
    (hc : |F64.real c - N| ≤ δ * (7 + 5 * Q)) (hN : |N| ≤ 1) :
    ∃ p x t d g, z.mul c = some p ∧ s.mul o.volatility = some x ∧ m.sqrt o.T = some t ∧ x.mul t = some d ∧ p.div d = some g ∧
      |F64.real g - exp Y * N / (F64.real s * F64.real o.volatility * √(F64.real o.T))| ≤
        δ * (17 + 4 * E + 6 * Q) * (exp Y / (F64.real s * F64.real o.volatility * √(F64.real o.T))) := by
  have hδ0 := hδ.pos
  have hδ1 := hδ.le
  have hδu := hδ.ur
  have hX := exp_pos Y
  have hb : Box 600 |exp Y| := by rw [abs_of_pos hX]; exact exp_box hY
  have hδE : δ * E ≤ 1 / 1000000 * E := by gcongr
  have hδE0 : 0 ≤ δ * E := by positivity
  have hδQ0 : 0 ≤ δ * Q := by positivity
  have hQ2 : δ * Q ≤ 1 / 1024 := hQ1.trans (by norm_num)
  obtain ⟨p, h1, r1⟩ := term (f := z) (c := c) (hb.mono (by norm_num)) (by rw [abs_of_pos hX]; exact hz) (by positivity) (by linarith) hc
    (by linarith) hN
  have r1' : |F64.real p - exp Y * N| ≤ δ * (41 / 4 + 27 / 8 * E + 5 * Q) * |exp Y| :=
    r1.trans (mul_le_mul_of_nonneg_right (by linarith) (abs_nonneg _))
  obtain ⟨x, t, d, h2, h3, h4, hd0, hd1, r4⟩ := den_near hm hδ h hs
  have hq : Box 950 (exp Y / (F64.real s * F64.real o.volatility * √(F64.real o.T))) := (exp_box hY).div hd1
  obtain ⟨g, h5, r5⟩ := divS (p := p) (g := d) r1' hN (by positivity) (by linarith) r4 (by linarith) (by linarith) hd0.ne'
    (by rw [abs_of_pos hq.pos]; exact hq.mono (by norm_num))
  refine ⟨p, x, t, d, g, h1, h2, h3, h4, h5, ?_⟩
  rw [abs_of_pos hq.pos] at r5
  rw [show exp Y * N / (F64.real s * F64.real o.volatility * √(F64.real o.T)) =
    exp Y / (F64.real s * F64.real o.volatility * √(F64.real o.T)) * N by ring]
  refine r5.trans (mul_le_mul_of_nonneg_right ?_ hq.pos.le)
  linarith

/-- A price times the carry factor times the density. -/
theorem front_term (hδ : Fine δ) {s z c : F64} {Y E Q N : ℝ} (hE0 : 0 ≤ E) (hE : E ≤ 300) (hY : |Y| ≤ 300)
    (hs : Box 200 |F64.real s|) (hz : |F64.real z - exp Y| ≤ δ * (2 + 3 * E) * exp Y) (hQ : 0 ≤ Q) (hQ1 : δ * Q ≤ 2 ^ (-10 : ℤ))
    (hc : |F64.real c - N| ≤ δ * (7 + 5 * Q)) (hN : |N| ≤ 1) :
    ∃ f p, s.mul z = some f ∧ f.mul c = some p ∧ Box 800 |F64.real s * exp Y| ∧
      |F64.real p - F64.real s * exp Y * N| ≤ δ * (91 / 8 + 27 / 8 * E + 5 * Q) * |F64.real s * exp Y| := by
  have hδ0 := hδ.pos
  have hδ1 := hδ.le
  have hδu := hδ.ur
  obtain ⟨f, h1, r1⟩ := factor_near hδ hE0 hE hY hs hz
  have hb : Box 800 |F64.real s * exp Y| := by rw [abs_mul, abs_of_pos (exp_pos Y)]; exact hs.mul (exp_box hY)
  have hδE : δ * E ≤ 1 / 1000000 * E := by gcongr
  have hδE0 : 0 ≤ δ * E := by positivity
  have hδQ0 : 0 ≤ δ * Q := by positivity
  have hQ2 : δ * Q ≤ 1 / 1024 := hQ1.trans (by norm_num)
  obtain ⟨p, h3, r3⟩ := term (f := f) (c := c) (hb.mono (by norm_num)) r1 (by positivity) (by linarith) hc (by linarith) hN
  exact ⟨f, p, h1, h3, hb, r3.trans (mul_le_mul_of_nonneg_right (by linarith) (abs_nonneg _))⟩

end

/-! ### The formulas as derivatives -/

namespace Exact

open Verif.Options.Bsm (callPrice putPrice N n callTheta putTheta callRho putRho callDelta putDelta C47_vega C47_theta C47_rho C47_phi C47_strike
  C47_delta C47_delta_derivatives)

variable {e : Exact}

theorem price_call (e : Exact) : e.price .call = callPrice e.S e.K e.T e.r e.b e.v := by
  simp only [price, callPrice, asset, cash, d2, Verif.Options.Bsm.d2, d1, Verif.Options.Bsm.d1, width, Phi_eq, N]
  rw [show (0.5 : ℝ) * e.v ^ 2 = e.v ^ 2 / 2 by ring]

theorem price_put (e : Exact) : e.price .put = putPrice e.S e.K e.T e.r e.b e.v := by
  simp only [price, putPrice, asset, cash, d2, Verif.Options.Bsm.d2, d1, Verif.Options.Bsm.d1, width, Phi_eq, N]
  rw [show (0.5 : ℝ) * e.v ^ 2 = e.v ^ 2 / 2 by ring]
  ring

theorem d1_eq (e : Exact) : Verif.Options.Bsm.d1 e.S e.K e.T e.b e.v = e.d1 := by
  unfold Verif.Options.Bsm.d1 d1 width
  rw [show (0.5 : ℝ) * e.v ^ 2 = e.v ^ 2 / 2 by ring]

theorem d2_eq (e : Exact) : Verif.Options.Bsm.d2 e.S e.K e.T e.b e.v = e.d2 := by
  unfold Verif.Options.Bsm.d2 d2
  rw [d1_eq]; rfl

theorem N_eq (x : ℝ) : N x = Phi x := (Phi_eq x).symm

theorem n_eq (x : ℝ) : n x = density x := (density_eq x).symm

/-- Positive parameters. -/
structure Pos (e : Exact) : Prop where
  S : 0 < e.S
  K : 0 < e.K
  v : 0 < e.v
  T : 0 < e.T

theorem deriv_v (h : e.Pos) (t : TypeFlag) :
    deriv (fun v => { e with v := v }.price t) e.v = e.S * exp ((e.b - e.r) * e.T) * density e.d1 * √e.T := by
  have := C47_vega (r := e.r) (b := e.b) h.S h.K h.T h.v
  cases t with
  | call => simp only [price_call]; rw [this.1.deriv, Verif.Options.Bsm.vega, d1_eq, n_eq]
  | put => simp only [price_put]; rw [this.2.1.deriv, Verif.Options.Bsm.vega, d1_eq, n_eq]

theorem deriv_T (h : e.Pos) (t : TypeFlag) :
    -deriv (fun T => { e with T := T }.price t) e.T = match t with
      | .call => -e.S * exp ((e.b - e.r) * e.T) * density e.d1 * e.v / (2 * √e.T)
          - (e.b - e.r) * e.S * exp ((e.b - e.r) * e.T) * Phi e.d1 - e.r * e.K * exp (-e.r * e.T) * Phi e.d2
      | .put => -e.S * exp ((e.b - e.r) * e.T) * density e.d1 * e.v / (2 * √e.T)
          + (e.b - e.r) * e.S * exp ((e.b - e.r) * e.T) * Phi (-e.d1) + e.r * e.K * exp (-e.r * e.T) * Phi (-e.d2) := by
  have := C47_theta (r := e.r) (b := e.b) h.S h.K h.T h.v
  cases t with
  | call => simp only [price_call]; rw [this.1.deriv, neg_neg, callTheta, d1_eq, d2_eq, n_eq, N_eq, N_eq]
  | put => simp only [price_put]; rw [this.2.deriv, neg_neg, putTheta, d1_eq, d2_eq, n_eq, N_eq, N_eq]

theorem deriv_r (h : e.Pos) (t : TypeFlag) :
    deriv (fun r => { e with r := r, b := r - (e.r - e.b) }.price t) e.r = match t with
      | .call => e.K * e.T * exp (-e.r * e.T) * Phi e.d2
      | .put => -e.K * e.T * exp (-e.r * e.T) * Phi (-e.d2) := by
  have := C47_rho (r := e.r) (e.r - e.b) h.S h.K h.T h.v
  cases t with
  | call => simp only [price_call]; rw [this.1.deriv, callRho, sub_sub_cancel, d2_eq, N_eq]
  | put => simp only [price_put]; rw [this.2.deriv, putRho, sub_sub_cancel, d2_eq, N_eq]

theorem deriv_q (h : e.Pos) (t : TypeFlag) :
    deriv (fun q => { e with b := e.r - q }.price t) (e.r - e.b) = match t with
      | .call => -e.T * e.S * exp ((e.b - e.r) * e.T) * Phi e.d1
      | .put => e.T * e.S * exp ((e.b - e.r) * e.T) * Phi (-e.d1) := by
  have := C47_phi (r := e.r) (e.r - e.b) h.S h.K h.T h.v
  cases t with
  | call => simp only [price_call]; rw [this.1.deriv, sub_sub_cancel, d1_eq, N_eq, neg_sub]
  | put => simp only [price_put]; rw [this.2.deriv, sub_sub_cancel, d1_eq, N_eq, neg_sub]

theorem deriv_K (h : e.Pos) (t : TypeFlag) :
    deriv (fun K => { e with K := K }.price t) e.K = match t with
      | .call => -exp (-e.r * e.T) * Phi e.d2
      | .put => exp (-e.r * e.T) * Phi (-e.d2) := by
  have := C47_strike (r := e.r) (b := e.b) h.S h.K h.T h.v
  cases t with
  | call => simp only [price_call]; rw [this.1.deriv, d2_eq, N_eq]
  | put => simp only [price_put]; rw [this.2.1.deriv, d2_eq, N_eq]

theorem deriv_SS (h : e.Pos) (t : TypeFlag) :
    iteratedDeriv 2 (fun S => { e with S := S }.price t) e.S =
      exp ((e.b - e.r) * e.T) * density e.d1 / (e.S * e.v * √e.T) := by
  have hd := C47_delta_derivatives (r := e.r) (b := e.b) h.S h.K h.T h.v
  have hev : ∀ᶠ s in nhds e.S, 0 < s := lt_mem_nhds h.S
  rw [iteratedDeriv_succ, iteratedDeriv_one]
  cases t with
  | call =>
    simp only [price_call]
    have : (deriv fun S => callPrice S e.K e.T e.r e.b e.v) =ᶠ[nhds e.S] fun S => callDelta S e.K e.T e.r e.b e.v := by
      filter_upwards [hev] with s hs
      exact (C47_delta hs h.K h.T h.v).1.deriv
    rw [this.deriv_eq, hd.1.1.deriv, Verif.Options.Bsm.gamma, d1_eq, n_eq]
  | put =>
    simp only [price_put]
    have : (deriv fun S => putPrice S e.K e.T e.r e.b e.v) =ᶠ[nhds e.S] fun S => putDelta S e.K e.T e.r e.b e.v := by
      filter_upwards [hev] with s hs
      exact (C47_delta hs h.K h.T h.v).2.deriv
    rw [this.deriv_eq, hd.1.2.deriv, Verif.Options.Bsm.gamma, d1_eq, n_eq]

theorem deriv_KK (h : e.Pos) (t : TypeFlag) :
    iteratedDeriv 2 (fun K => { e with K := K }.price t) e.K =
      exp (-e.r * e.T) * density e.d2 / (e.K * e.v * √e.T) := by
  have hd := C47_strike (r := e.r) (b := e.b) h.S h.K h.T h.v
  have hev : ∀ᶠ k in nhds e.K, 0 < k := lt_mem_nhds h.K
  rw [iteratedDeriv_succ, iteratedDeriv_one]
  cases t with
  | call =>
    simp only [price_call]
    have : (deriv fun K => callPrice e.S K e.T e.r e.b e.v) =ᶠ[nhds e.K] fun K => -exp (-e.r * e.T) * N (Verif.Options.Bsm.d2 e.S K e.T e.b e.v) := by
      filter_upwards [hev] with k hk
      exact (C47_strike h.S hk h.T h.v).1.deriv
    rw [this.deriv_eq, hd.2.2.1.deriv, d2_eq, n_eq, mul_comm (density _)]
  | put =>
    simp only [price_put]
    have : (deriv fun K => putPrice e.S K e.T e.r e.b e.v) =ᶠ[nhds e.K] fun K => exp (-e.r * e.T) * N (-Verif.Options.Bsm.d2 e.S K e.T e.b e.v) := by
      filter_upwards [hev] with k hk
      exact (C47_strike h.S hk h.T h.v).2.1.deriv
    rw [this.deriv_eq, hd.2.2.2.deriv, d2_eq, n_eq, mul_comm (density _)]

end Exact

theorem Facts.pos {o : Contract} (h : Facts o) : o.exact.Pos := ⟨h.S.pos, h.K.pos, h.v.pos, h.T.pos⟩

end Verif.Float.Bsm
