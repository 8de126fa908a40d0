import Verif.Float.BachelierProps
import Verif.Float.GreeksExpiry

/-!
# C114: at-the-money formulas, and Bachelier prices without width
-/

namespace Verif.Float.Bach

open Real Verif.Float.Sim Verif.Options Verif.Float.Bsm
open Verif.Float.Fft (ur mu top rnd_real toF64_total ur_pos mu_pos)
open X64

section

variable {m : Libm} {δ : ℝ}

/-- The root of a number known up to a relative error. -/
theorem sqrt_near (hm : m.Accurate δ) (hδ : Fine δ) {x : F64} {X ε : ℝ} (hX : 0 < X) (hε1 : ε ≤ 1 / 8) (h : |F64.real x - X| ≤ ε * |X|) :
    ∃ y, m.sqrt x = some y ∧ |F64.real y - √X| ≤ (ε + 9 / 8 * δ) * |√X| := by
  have hδ0 := hδ.pos
  rw [abs_of_pos hX] at h
  have h0 := abs_le.1 h
  have hx : 0 < F64.real x := by nlinarith
  have hs : 0 < √X := Real.sqrt_pos.2 hX
  have hs' : 0 ≤ √(F64.real x) := Real.sqrt_nonneg _
  obtain ⟨y, h1, h2⟩ := hm.sqrt x hx
  have h3 : |√(F64.real x) - √X| ≤ ε * √X := by
    have e : (√(F64.real x) - √X) * (√(F64.real x) + √X) = F64.real x - X := by
      nlinarith [Real.mul_self_sqrt hx.le, Real.mul_self_sqrt hX.le]
    have e1 : |√(F64.real x) - √X| * (√(F64.real x) + √X) ≤ ε * X := by
      rw [← abs_of_pos (show 0 < √(F64.real x) + √X by linarith), ← abs_mul, e]; exact h
    have e2 : |√(F64.real x) - √X| * √X ≤ (ε * √X) * √X := by
      rw [mul_assoc, Real.mul_self_sqrt hX.le]
      refine le_trans ?_ e1
      exact mul_le_mul_of_nonneg_left (by linarith) (abs_nonneg _)
    exact le_of_mul_le_mul_right e2 hs
  have h4 : √(F64.real x) ≤ 9 / 8 * √X := by
    have := (abs_le.1 h3).2
    nlinarith
  refine ⟨y, h1, ?_⟩
  rw [abs_of_pos hs, show F64.real y - √X = (F64.real y - √(F64.real x)) + (√(F64.real x) - √X) by ring]
  refine (abs_add_le _ _).trans ?_
  have h5 : δ * √(F64.real x) ≤ δ * (9 / 8 * √X) := by gcongr
  linarith

theorem two_pi_box : Box 3 (2 * π) := by
  have h1 := Real.pi_gt_three
  have h2 := Real.pi_lt_four
  constructor <;> norm_num <;> linarith

theorem two_pi_near (hδ : Fine δ) : ∃ two p a, toF64 2 = some two ∧ pi = some p ∧ two.mul p = some a ∧ |F64.real a - 2 * π| ≤ 2 * δ * |2 * π| := by
  have hδ0 := hδ.pos
  have hδ1 := hδ.le
  have hu := hδ.ur
  obtain ⟨two, h1, h2⟩ := two_some
  obtain ⟨p, h3, h4⟩ := pi_some hδ
  have hb := two_pi_box
  obtain ⟨a, h5, h6⟩ := mulN (a := two) (b := p) (A := 2) (B := π) (α := 0) (β := δ) (by rw [h2]; exact rel_self _)
    (by rwa [abs_of_pos Real.pi_pos]) le_rfl (by norm_num) hδ0.le (by linarith) (by rw [abs_of_pos hb.pos]; exact hb.mono (by norm_num))
  exact ⟨two, p, a, h1, h3, h5, h6.trans (mul_le_mul_of_nonneg_right (by linarith) (abs_nonneg _))⟩

theorem price_root (hm : m.Accurate δ) (hδ : Fine δ) {t : F64} (ht : Box 100 (F64.real t)) :
    ∃ two p a q s, toF64 2 = some two ∧ pi = some p ∧ two.mul p = some a ∧ t.div a = some q ∧ m.sqrt q = some s ∧
      |F64.real s - √(F64.real t / (2 * π))| ≤ 6 * δ * |√(F64.real t / (2 * π))| := by
  have hδ0 := hδ.pos
  have hδ1 := hδ.le
  have hu := hδ.ur
  have hb := two_pi_box
  have hq := ht.div hb
  obtain ⟨two, p, a, h1, h2, h3, h4⟩ := two_pi_near hδ
  obtain ⟨q, h5, h6⟩ := divN (a := t) (b := a) (A := F64.real t) (B := 2 * π) (α := 0) (β := 2 * δ) (rel_self _) h4 le_rfl (by norm_num)
    (by linarith) (by linarith) hb.pos.ne' (by rw [abs_of_pos hq.pos]; exact hq.mono (by norm_num))
  obtain ⟨s, h7, h8⟩ := sqrt_near hm hδ hq.pos (by linarith) h6
  exact ⟨two, p, a, q, s, h1, h2, h3, h5, h7, h8.trans (mul_le_mul_of_nonneg_right (by linarith) (abs_nonneg _))⟩

theorem vol_root (hm : m.Accurate δ) (hδ : Fine δ) {t : F64} (ht : Box 100 (F64.real t)) :
    ∃ two p a q s, toF64 2 = some two ∧ pi = some p ∧ two.mul p = some a ∧ a.div t = some q ∧ m.sqrt q = some s ∧
      |F64.real s - √(2 * π / F64.real t)| ≤ 6 * δ * |√(2 * π / F64.real t)| := by
  have hδ0 := hδ.pos
  have hδ1 := hδ.le
  have hu := hδ.ur
  have hb := two_pi_box
  have hq := hb.div ht
  obtain ⟨two, p, a, h1, h2, h3, h4⟩ := two_pi_near hδ
  obtain ⟨q, h5, h6⟩ := divN (a := a) (b := t) (A := 2 * π) (B := F64.real t) (α := 2 * δ) (β := 0) h4 (rel_self _) (by linarith) (by linarith)
    le_rfl (by norm_num) ht.pos.ne' (by rw [abs_of_pos hq.pos]; exact hq.mono (by norm_num))
  obtain ⟨s, h7, h8⟩ := sqrt_near hm hδ hq.pos (by linarith) h6
  exact ⟨two, p, a, q, s, h1, h2, h3, h5, h7, h8.trans (mul_le_mul_of_nonneg_right (by linarith) (abs_nonneg _))⟩

theorem vol_near (hm : m.Accurate δ) (hδ : Fine δ) {p t : F64} {P α : ℝ} (hα : 0 ≤ α) (hα1 : α ≤ 1 / 100000) (hP : Box 200 P)
    (hp : |F64.real p - P| ≤ α * |P|) (ht : Box 100 (F64.real t)) :
    ∃ v, atmVol m p t = some v ∧ |F64.real v - P * √(2 * π / F64.real t)| ≤ (2 * α + 7 * δ) * (P * √(2 * π / F64.real t)) := by
  have hδ0 := hδ.pos
  have hδ1 := hδ.le
  have hu := hδ.ur
  obtain ⟨two, q, a, b, s, h1, h2, h3, h4, h5, h6⟩ := vol_root hm hδ ht
  have hb : Box 54 √(2 * π / F64.real t) := Box.sqrt ((two_pi_box.div ht).mono (by norm_num))
  have hx := hP.mul hb
  obtain ⟨v, h7, h8⟩ := mulN (a := p) (b := s) (β := 6 * δ) hp h6 hα (by linarith) (by linarith) (by linarith)
    (by rw [abs_of_pos hx.pos]; exact hx.mono (by norm_num))
  refine ⟨v, by simp [atmVol, h1, h2, h3, h4, h5, h7], h8.trans ?_⟩
  rw [abs_of_pos hx.pos]
  refine mul_le_mul_of_nonneg_right ?_ hx.pos.le
  have : α * (6 * δ) ≤ α * 1 := by gcongr; linarith
  linarith

end

/-- C114: the price at the money is right up to a relative error of `7 δ`: it is, undiscounted, Bachelier's formula with the forward as strike. -/
theorem C114_atm_price (m : Libm) (δ : ℝ) (hδ : 2 ^ (-52 : ℤ) ≤ δ) (hδ1 : δ ≤ 2 ^ (-20 : ℤ)) (hm : m.Accurate δ) (o : Model) (t : F64)
    (hv : 2 ^ (-100 : ℤ) ≤ F64.real o.v ∧ F64.real o.v ≤ 2 ^ 100) (ht : 2 ^ (-100 : ℤ) ≤ F64.real t ∧ F64.real t ≤ 2 ^ 100) :
    (∃ p, o.atmPrice m t = some p ∧
      |F64.real p - F64.real o.v * √(F64.real t / (2 * π))| ≤ 7 * δ * (F64.real o.v * √(F64.real t / (2 * π)))) ∧
    ∀ y, (o.exact o.f t).price y = (o.exact o.f t).df * (F64.real o.v * √(F64.real t / (2 * π))) := by
  have hF : Fine δ := ⟨hδ, hδ1⟩
  have hδ0 := hF.pos
  have hδ1 := hF.le
  have hu := hF.ur
  have hvb : Box 100 (F64.real o.v) := Box.of (by exact_mod_cast hv)
  have htb : Box 100 (F64.real t) := Box.of (by exact_mod_cast ht)
  constructor
  · obtain ⟨two, q, a, b, s, h1, h2, h3, h4, h5, h6⟩ := price_root hm hF htb
    have hb : Box 54 √(F64.real t / (2 * π)) := Box.sqrt ((htb.div two_pi_box).mono (by norm_num))
    have hx := hvb.mul hb
    obtain ⟨v, h7, h8⟩ := mulN (a := o.v) (b := s) (A := F64.real o.v) (α := 0) (β := 6 * δ) (rel_self _) h6 le_rfl (by norm_num) (by linarith)
      (by linarith) (by rw [abs_of_pos hx.pos]; exact hx.mono (by norm_num))
    refine ⟨v, by simp [Model.atmPrice, h1, h2, h3, h4, h5, h7], h8.trans ?_⟩
    rw [abs_of_pos hx.pos]
    exact mul_le_mul_of_nonneg_right (by linarith) hx.pos.le
  · intro y
    have hd : (o.exact o.f t).d = 0 := by simp [Exact.d, Model.exact]
    have he : (o.exact o.f t).width * density 0 = F64.real o.v * √(F64.real t / (2 * π)) := by
      rw [Real.sqrt_div htb.pos.le]
      simp [Exact.width, Model.exact, density, div_eq_mul_inv, mul_assoc]
    cases y <;> simp only [Exact.price, hd, he] <;> simp [Model.exact]

/-- C114: the volatility implied by a price at the money is right up to a relative error of `7 δ`. -/
theorem C114_atm_vol (m : Libm) (δ : ℝ) (hδ : 2 ^ (-52 : ℤ) ≤ δ) (hδ1 : δ ≤ 2 ^ (-20 : ℤ)) (hm : m.Accurate δ) (p t : F64)
    (hp : 2 ^ (-200 : ℤ) ≤ F64.real p ∧ F64.real p ≤ 2 ^ 200) (ht : 2 ^ (-100 : ℤ) ≤ F64.real t ∧ F64.real t ≤ 2 ^ 100) :
    ∃ v, atmVol m p t = some v ∧
      |F64.real v - F64.real p * √(2 * π / F64.real t)| ≤ 7 * δ * (F64.real p * √(2 * π / F64.real t)) := by
  obtain ⟨v, h1, h2⟩ := vol_near hm ⟨hδ, hδ1⟩ (p := p) (t := t) (P := F64.real p) (α := 0) le_rfl (by norm_num) (Box.of (by exact_mod_cast hp))
    (rel_self _) (Box.of (by exact_mod_cast ht))
  exact ⟨v, h1, by rwa [mul_zero, _root_.zero_add] at h2⟩

/-- C114: the volatility implied by the price at the money is the model's, up to a relative error of `21 δ`. -/
theorem C114_atm_round_trip (m : Libm) (δ : ℝ) (hδ : 2 ^ (-52 : ℤ) ≤ δ) (hδ1 : δ ≤ 2 ^ (-20 : ℤ)) (hm : m.Accurate δ) (o : Model) (t : F64)
    (hv : 2 ^ (-100 : ℤ) ≤ F64.real o.v ∧ F64.real o.v ≤ 2 ^ 100) (ht : 2 ^ (-100 : ℤ) ≤ F64.real t ∧ F64.real t ≤ 2 ^ 100) :
    ∃ p v, o.atmPrice m t = some p ∧ atmVol m p t = some v ∧ |F64.real v - F64.real o.v| ≤ 21 * δ * F64.real o.v := by
  obtain ⟨⟨p, h1, h2⟩, -⟩ := C114_atm_price m δ hδ hδ1 hm o t hv ht
  have hF : Fine δ := ⟨hδ, hδ1⟩
  have hvb : Box 100 (F64.real o.v) := Box.of (by exact_mod_cast hv)
  have htb : Box 100 (F64.real t) := Box.of (by exact_mod_cast ht)
  have hb : Box 54 √(F64.real t / (2 * π)) := Box.sqrt ((htb.div two_pi_box).mono (by norm_num))
  have hx := hvb.mul hb
  have hδ0 := hF.pos
  have hδ1 := hF.le
  obtain ⟨v, h3, h4⟩ := vol_near hm hF (p := p) (t := t) (P := F64.real o.v * √(F64.real t / (2 * π))) (α := 7 * δ) (by linarith) (by linarith)
    (hx.mono (by norm_num)) (by rwa [abs_of_pos hx.pos]) htb
  refine ⟨p, v, h1, h3, ?_⟩
  have e : F64.real o.v * √(F64.real t / (2 * π)) * √(2 * π / F64.real t) = F64.real o.v := by
    have hp := two_pi_box.pos
    have ht0 := htb.pos
    rw [mul_assoc, ← Real.sqrt_mul (by positivity), show F64.real t / (2 * π) * (2 * π / F64.real t) = 1 by field_simp, Real.sqrt_one, mul_one]
  rw [e] at h4
  refine h4.trans (le_of_eq ?_)
  ring

/-! ### Infinities and NaN -/

/-- C114: where every step is finite, the two models are the same. -/
theorem C114_extended (x : XLibm) (m : Libm) (h : x.Extends m) (o : Model) (k t : F64) :
    (∀ y p, o.price m k t y = some p → o.xprice x k t y = fin p) ∧ (∀ y p, o.delta m k t y = some p → o.xdelta x k t y = fin p) ∧
    (∀ p, o.gamma m k t = some p → o.xgamma x k t = fin p) ∧ (∀ p, o.vega m k t = some p → o.xvega x k t = fin p) ∧
    ∀ p, o.theta m k t = some p → o.xtheta x k t = fin p := by
  have hw : ∀ w, o.width m t = some w → o.xwidth x t = fin w := by
    intro w hw
    obtain ⟨s, h1, h2⟩ := Option.bind_eq_some_iff.1 hw
    unfold Model.xwidth
    rw [h.sqrt _ _ h1, Bsm.mul_some h2]
  have hd : ∀ d, o.d m k t = some d → o.xd x k t = fin d := by
    intro d hd
    obtain ⟨g, h1, hd⟩ := Option.bind_eq_some_iff.1 hd
    obtain ⟨w, h2, h3⟩ := Option.bind_eq_some_iff.1 hd
    unfold Model.xd
    rw [hw _ h2, Bsm.sub_some h1, Bsm.div_some h3]
  refine ⟨fun y p hp => ?_, fun y p hp => ?_, fun p hp => ?_, fun p hp => ?_, fun p hp => ?_⟩
  · unfold Model.price at hp
    obtain ⟨d, h1, hp⟩ := Option.bind_eq_some_iff.1 hp
    obtain ⟨f, h2, hp⟩ := Option.bind_eq_some_iff.1 hp
    obtain ⟨e, h3, h4⟩ := Option.bind_eq_some_iff.1 h2
    have hf : o.xdf x t = fin f := by
      unfold Model.xdf
      rw [Bsm.mul_some h3, h.exp _ _ h4]
    cases y with
    | call =>
      simp only [Option.bind_eq_bind, Option.bind_eq_some_iff] at hp
      obtain ⟨g, h5, c, h6, a, h7, w, h8, n, h9, b, h10, s, h11, h12⟩ := hp
      unfold Model.xprice
      simp only [hd _ h1, hf, hw _ h8]
      rw [Bsm.sub_some h5, cdf_agrees h h6, Bsm.mul_some h7, pdf_agrees h h9, Bsm.mul_some h10, Bsm.add_some h11, Bsm.mul_some h12]
    | put =>
      simp only [Option.bind_eq_bind, Option.bind_eq_some_iff] at hp
      obtain ⟨g, h5, c, h6, a, h7, w, h8, n, h9, b, h10, s, h11, h12⟩ := hp
      unfold Model.xprice
      simp only [hd _ h1, hf, hw _ h8]
      rw [Bsm.sub_some h5, neg_fin, cdf_agrees h h6, Bsm.mul_some h7, pdf_agrees h h9, Bsm.mul_some h10, Bsm.add_some h11, Bsm.mul_some h12]
  · unfold Model.delta at hp
    simp only [Option.bind_eq_bind, Option.bind_eq_some_iff] at hp
    obtain ⟨d, h1, c, h2, h3⟩ := hp
    cases y with
    | call =>
      obtain rfl := Option.some.inj h3
      unfold Model.xdelta
      simp only [hd _ h1]
      exact cdf_agrees h h2
    | put =>
      simp only [Option.bind_eq_some_iff] at h3
      obtain ⟨i, h4, h5⟩ := h3
      unfold Model.xdelta
      simp only [hd _ h1]
      rw [cdf_agrees h h2, Bsm.ofQ_some h4, Bsm.sub_some h5]
  · unfold Model.gamma at hp
    simp only [Option.bind_eq_bind, Option.bind_eq_some_iff] at hp
    obtain ⟨d, h1, n, h2, w, h3, h4⟩ := hp
    unfold Model.xgamma
    rw [hd _ h1, pdf_agrees h h2, hw _ h3, Bsm.div_some h4]
  · unfold Model.vega at hp
    simp only [Option.bind_eq_bind, Option.bind_eq_some_iff] at hp
    obtain ⟨s, h1, d, h2, n, h3, h4⟩ := hp
    unfold Model.xvega
    rw [hd _ h2, pdf_agrees h h3, h.sqrt _ _ h1, Bsm.mul_some h4]
  · unfold Model.theta at hp
    simp only [Option.bind_eq_bind, Option.bind_eq_some_iff] at hp
    obtain ⟨d, h1, n, h2, a, h3, two, h4, s, h5, b, h6, h7⟩ := hp
    unfold Model.xtheta
    rw [hd _ h1, pdf_agrees h h2, h.sqrt _ _ h5, Bsm.mul_some h3, Bsm.ofQ_some h4, Bsm.mul_some h6, Bsm.div_some h7]

section flat

variable {x : XLibm} {o : Model} {k t : F64}

theorem flat_width (hx : x.Special) (h : Flat x o k t) : o.xwidth x t = fin F64.zero := by
  unfold Model.xwidth
  rcases h.zero with ⟨rfl, -⟩ | ⟨hv, s, hs⟩
  · rw [hx.sqrt_zero, mul_zero_fin]
  · rw [hv, hs, zero_mul_fin]

theorem sub_exact (a b : F64) : (fin a).sub (fin b) = ofQ (a.val - b.val) := by
  unfold X64.sub
  rw [neg_fin, sub_eq_add_neg]
  rfl

/-- The rounded distance has the sign of the distance. -/
theorem flat_gap (a b : F64) (h : |a.val - b.val| ≤ 2 ^ 500) :
    ∃ g : F64, (fin a).sub (fin b) = fin g ∧ (b.val < a.val → 0 < g.val) ∧ (a.val < b.val → g.val < 0) ∧ (a = b → g = F64.zero) := by
  obtain ⟨g, h1, h2, -⟩ := Bsm.ofQ_fin (q := a.val - b.val) 500 (by norm_num) h
  refine ⟨g, by rw [sub_exact]; exact h1, fun hc => ?_, fun hc => ?_, fun hc => ?_⟩
  · rw [h2]; exact (rnd_sub_pos a.rep b.rep).2 hc
  · have := (rnd_sub_pos b.rep a.rep).2 hc
    rw [show b.val - a.val = -(a.val - b.val) by ring, rnd_neg] at this
    rw [h2]; linarith
  · rw [hc, sub_self, ofQ_zero] at h1
    exact (X64.fin.inj h1).symm

theorem flat_d (hx : x.Special) (h : Flat x o k t) :
    (k.val < o.f.val → o.xd x k t = inf false) ∧ (o.f.val < k.val → o.xd x k t = inf true) ∧ (o.f = k → o.xd x k t = nan) := by
  obtain ⟨g, h1, h2, h3, h4⟩ := flat_gap o.f k h.gap
  unfold Model.xd
  rw [flat_width hx h, h1]
  refine ⟨fun hc => ?_, fun hc => ?_, fun hc => ?_⟩
  · have := h2 hc
    simp [X64.div, zero_val, this.ne', this.le]
  · have := h3 hc
    simp [X64.div, zero_val, this.ne, this]
  · rw [h4 hc]
    simp [X64.div, zero_val]

end flat

/-- C114 (defect): without time or volatility, price, delta, gamma, vega and theta of an option struck at the forward are NaN, for calls and puts.
The price is zero by the formula's limit. -/
theorem C114_flat_at_the_money (x : XLibm) (hx : x.Special) (he : x.Ends) (o : Model) (k t : F64) (h : Flat x o k t) (hk : o.f = k) (y : TypeFlag) :
    o.xprice x k t y = nan ∧ o.xdelta x k t y = nan ∧ o.xgamma x k t = nan ∧ o.xvega x k t = nan ∧ o.xtheta x k t = nan := by
  have hd := (flat_d hx h).2.2 hk
  have hn : (nan : X64).neg = nan := rfl
  refine ⟨?_, ?_, ?_, ?_, ?_⟩
  · unfold Model.xprice
    simp only [hd, hn, cdf_nan hx, pdf_nan he]
    rw [Bsm.mul_nan (o.xwidth x t)]
    have ha : ∀ z : X64, z.add nan = nan := fun z => by cases z <;> rfl
    rw [ha, Bsm.mul_nan]
  · cases y <;> (simp only [Model.xdelta, hd, cdf_nan hx]; try rfl)
  · simp only [Model.xgamma, hd, pdf_nan he]; rfl
  · simp only [Model.xvega, hd, pdf_nan he]; exact Bsm.mul_nan _
  · simp only [Model.xtheta, hd, pdf_nan he]; rw [Bsm.mul_nan]; rfl

/-- C114 (defect): without time or volatility, gamma is NaN whatever the strike. Away from the money it is zero by the formula's limit. -/
theorem C114_flat_gamma (x : XLibm) (hx : x.Special) (he : x.Ends) (o : Model) (k t : F64) (h : Flat x o k t) : o.xgamma x k t = nan := by
  obtain ⟨h1, h2, h3⟩ := flat_d hx h
  rcases lt_trichotomy o.f.val k.val with hc | hc | hc
  · simp [Model.xgamma, h2 hc, pdf_inf he, flat_width hx h, X64.div, zero_val]
  · exact (C114_flat_at_the_money x hx he o k t h (F64.ext hc) .call).2.2.1
  · simp [Model.xgamma, h1 hc, pdf_inf he, flat_width hx h, X64.div, zero_val]

/-- C114: without time or volatility, and away from the money, the price is the discounted payoff, and delta is 1, 0 or -1. -/
theorem C114_flat (x : XLibm) (hx : x.Special) (he : x.Ends) (o : Model) (k t : F64) (h : Flat x o k t) (z : F64) (hz : o.xdf x t = fin z) :
    (k.val < o.f.val → o.xprice x k t .call = (fin z).mul ((fin o.f).sub (fin k)) ∧ o.xprice x k t .put = fin F64.zero ∧
      o.xdelta x k t .call = ofQ 1 ∧ o.xdelta x k t .put = fin F64.zero) ∧
    (o.f.val < k.val → o.xprice x k t .put = (fin z).mul ((fin k).sub (fin o.f)) ∧ o.xprice x k t .call = fin F64.zero ∧
      o.xdelta x k t .call = fin F64.zero ∧ o.xdelta x k t .put = ofQ (-1)) := by
  obtain ⟨h1, h2, -⟩ := flat_d hx h
  obtain ⟨g, g1, -⟩ := flat_gap o.f k h.gap
  obtain ⟨g', g1', -⟩ := flat_gap k o.f (by rw [abs_sub_comm]; exact h.gap)
  have hn1 : (inf true).neg = inf false := rfl
  have hn2 : (inf false).neg = inf true := rfl
  obtain ⟨i, i1, i2⟩ := one_val
  have e1 : (ofQ 1).sub (ofQ 1) = fin F64.zero := by
    rw [i1, sub_exact, sub_self, ofQ_zero]
  have e2 : (fin F64.zero).sub (ofQ 1) = ofQ (-1) := by
    rw [i1, sub_exact, i2, zero_val, zero_sub]
  have e3 : ∀ a : F64, (fin a).mul (ofQ 1) = fin a := mul_one_fin
  refine ⟨fun hc => ?_, fun hc => ?_⟩
  · refine ⟨?_, ?_, ?_, ?_⟩
    · simp only [Model.xprice, h1 hc, hz, flat_width hx h, pdf_inf he, cdf_inf hx, g1, e3, mul_zero_fin, add_zero_fin]
    · simp only [Model.xprice, h1 hc, hn2, hz, flat_width hx h, pdf_inf he, cdf_neg_inf hx, g1', mul_zero_fin, add_zero_fin]
    · simp only [Model.xdelta, h1 hc, cdf_inf hx]
    · simp only [Model.xdelta, h1 hc, cdf_inf hx, e1]
  · refine ⟨?_, ?_, ?_, ?_⟩
    · simp only [Model.xprice, h2 hc, hn1, hz, flat_width hx h, pdf_inf he, cdf_inf hx, g1', e3, mul_zero_fin, add_zero_fin]
    · simp only [Model.xprice, h2 hc, hz, flat_width hx h, pdf_inf he, cdf_neg_inf hx, g1, mul_zero_fin, add_zero_fin]
    · simp only [Model.xdelta, h2 hc, cdf_neg_inf hx]
    · simp only [Model.xdelta, h2 hc, cdf_neg_inf hx, e2]

/-! ### Concrete cases -/

/-- A forward at 100 with a rate of 6.25 % and a volatility of 16. -/
def someModel : Model := ⟨lit 100, lit (1 / 16), lit 16⟩

theorem someModel_exact : someModel.exact (lit 92) (lit 1) = ⟨100, 92, 1, 1 / 16, 16⟩ := by
  have h1 := real_lit (q := 1 / 16) (by decide +kernel)
  have h2 := real_lit (q := 100) (by decide +kernel)
  have h3 := real_lit (q := 92) (by decide +kernel)
  have h4 := real_lit (q := 16) (by decide +kernel)
  simp only [Model.exact, someModel, h1, h2, h3, h4, real_one]
  push_cast
  rfl

theorem someModel_ordinary : (someModel.exact (lit 92) (lit 1)).Ordinary := by
  rw [someModel_exact]
  refine ⟨?_, ?_, Or.inr ?_, ?_⟩
  · exact box_zpow (i := 100) 7 (by norm_num) (by norm_num) (by norm_num)
  · exact box_zpow (i := 100) 7 (by norm_num) (by norm_num) (by norm_num)
  · exact box_zpow (i := 200) 7 (by norm_num) (by norm_num) (by norm_num)
  · norm_num

theorem someModel_d : (someModel.exact (lit 92) (lit 1)).d = 1 / 2 := by
  rw [someModel_exact]
  norm_num [Exact.d, Exact.width]

theorem someModel_fine : (2 : ℝ) ^ (-50 : ℤ) * |(someModel.exact (lit 92) (lit 1)).d| ≤ 2 ^ (-10 : ℤ) := by
  rw [someModel_d]
  norm_num [abs_of_pos]

/-- `C114_price_error` applies to it, on a platform that is right up to `2^-50`: prices are then right up to `5 · 10^-13`. -/
example (y : TypeFlag) : ∃ p, someModel.price someLibm (lit 92) (lit 1) y = some p ∧
    |F64.real p - (someModel.exact (lit 92) (lit 1)).price y| ≤ 5 / 10 ^ 13 := by
  obtain ⟨p, h1, h2⟩ := C114_price_error someLibm _ some_lower some_upper someLibm_accurate someLibm_tail someModel (lit 92) (lit 1)
    someModel_ordinary someModel_fine y
  refine ⟨p, h1, h2.trans ?_⟩
  rw [someModel_d]
  have hd : (someModel.exact (lit 92) (lit 1)).df ≤ 1 := by
    rw [someModel_exact]
    exact Real.exp_le_one_iff.2 (by norm_num)
  have hs : (someModel.exact (lit 92) (lit 1)).scale = 24 := by
    rw [someModel_exact]
    norm_num [Exact.scale, Exact.width]
  have hr : |(someModel.exact (lit 92) (lit 1)).r| * (someModel.exact (lit 92) (lit 1)).t = 1 / 16 := by
    rw [someModel_exact]
    norm_num
  rw [hs, hr]
  generalize (someModel.exact (lit 92) (lit 1)).df = D at *
  rw [abs_of_pos (by norm_num)]
  have : (2 : ℝ) ^ (-50 : ℤ) * (17 + 4 * (1 / 16) + 5 * (1 / 2)) * (D * 24) ≤ 2 ^ (-50 : ℤ) * (17 + 4 * (1 / 16) + 5 * (1 / 2)) * (1 * 24) := by gcongr
  exact this.trans (by norm_num)

/-- So do `C114_parity`, `C114_greeks_error` and the formulas at the money. -/
example : (∃ c p, someModel.price someLibm (lit 92) (lit 1) .call = some c ∧ someModel.price someLibm (lit 92) (lit 1) .put = some p) ∧
    (∃ g, someModel.gamma someLibm (lit 92) (lit 1) = some g) ∧
    ∃ p v, someModel.atmPrice someLibm (lit 1) = some p ∧ atmVol someLibm p (lit 1) = some v ∧
      |F64.real v - F64.real (lit 16)| ≤ 21 * 2 ^ (-50 : ℤ) * F64.real (lit 16) := by
  obtain ⟨c, p, h1, h2, -⟩ := C114_parity someLibm _ some_lower some_upper someLibm_accurate someLibm_tail someModel (lit 92) (lit 1)
    someModel_ordinary someModel_fine
  obtain ⟨-, ⟨g, h3, -⟩, -⟩ := C114_greeks_error someLibm _ some_lower some_upper someLibm_accurate someLibm_tail someModel (lit 92) (lit 1)
    someModel_ordinary someModel_fine
  refine ⟨⟨c, p, h1, h2⟩, ⟨g, h3⟩, C114_atm_round_trip someLibm _ some_lower some_upper someLibm_accurate someModel (lit 1) ?_ ?_⟩
  · have := someModel_ordinary.v
    rwa [someModel_exact, ← show F64.real someModel.v = 16 by
      have := real_lit (q := 16) (by decide +kernel)
      simp only [someModel, this]; norm_num] at this
  · have := someModel_ordinary.t
    rwa [someModel_exact, ← show F64.real (lit 1) = 1 from real_one] at this

/-- An option on its expiration date, and one without volatility. -/
theorem someFlat (k : F64) (hk : |(lit 100).val - k.val| ≤ 2 ^ 500) :
    Flat crudeEnds someModel k F64.zero ∧ Flat crudeEnds { someModel with v := F64.zero } k F64.zero := by
  refine ⟨⟨Or.inl ⟨rfl, ?_⟩, hk⟩, ⟨Or.inr ⟨rfl, F64.zero, crudeEnds_special.sqrt_zero⟩, hk⟩⟩
  show 0 ≤ (lit 16).val
  decide +kernel

example (y : TypeFlag) : someModel.xprice crudeEnds (lit 100) F64.zero y = nan :=
  (C114_flat_at_the_money crudeEnds crudeEnds_special crudeEnds_ends someModel (lit 100) F64.zero
    (someFlat _ (by rw [sub_self, abs_zero]; positivity)).1 rfl y).1

example : someModel.xprice crudeEnds (lit 92) F64.zero .put = fin F64.zero ∧ someModel.xgamma crudeEnds (lit 92) F64.zero = nan := by
  have hk : |(lit 100).val - (lit 92).val| ≤ 2 ^ 500 := by
    rw [show (lit 100).val = 100 by decide +kernel, show (lit 92).val = 92 by decide +kernel]
    exact le_trans (by norm_num [abs_of_pos]) (pow_le_pow_right₀ (by norm_num) (by norm_num : 4 ≤ 500))
  obtain ⟨i, i1, -⟩ := one_val
  have hz : someModel.xdf crudeEnds F64.zero = fin i := by
    unfold Model.xdf
    rw [mul_zero_fin, crudeEnds_special.exp_zero, i1]
  exact ⟨((C114_flat crudeEnds crudeEnds_special crudeEnds_ends someModel (lit 92) F64.zero (someFlat _ hk).1 i hz).1
    (by rw [show (lit 92).val = 92 by decide +kernel]; show 92 < (lit 100).val; decide +kernel)).2.1,
    C114_flat_gamma crudeEnds crudeEnds_special crudeEnds_ends someModel (lit 92) F64.zero (someFlat _ hk).1⟩

end Verif.Float.Bach
