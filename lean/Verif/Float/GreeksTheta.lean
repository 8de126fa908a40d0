import Verif.Float.GreeksProps

/-!
# C105: theta in double precision
-/

namespace Verif.Float.Bsm

open Real Verif.Float.Sim Verif.Options
open Verif.Float.Fft (ur mu top rnd_real toF64_total ur_pos mu_pos)

section

variable {m : Libm} {δ : ℝ} {o : Contract}

/-- The first term of theta. -/
theorem decay_near (hm : m.Accurate δ) (ht : m.Tail δ) (hδ : Fine δ) (ho : o.exact.Ordinary) (hc : δ * o.exact.condition ≤ 2 ^ (-10 : ℤ)) :
    ∃ g, o.decay m = some g ∧ Box 951 (o.exact.asset * o.exact.v / (2 * √o.exact.T)) ∧
      |F64.real g - -o.exact.S * exp ((o.exact.b - o.exact.r) * o.exact.T) * density o.exact.d1 * o.exact.v / (2 * √o.exact.T)| ≤
        δ * (18 + 4 * o.exact.exponents + 13 * o.exact.condition) * (o.exact.asset * o.exact.v / (2 * √o.exact.T)) ∧
      |F64.real g| ≤ 3 / 2 * (o.exact.asset * o.exact.v / (2 * √o.exact.T)) := by
  have h := facts ho
  have hδ0 := hδ.pos
  have hδ2 := hδ.le
  have hδu := hδ.ur
  have hE0 := exponents_nonneg h
  have hE := ho.exponents
  obtain ⟨hQ, -, -⟩ := condition_bound hδ h hc
  obtain ⟨d1, d2, a1, a2, r1, r2, r3, r4⟩ := d_near hm hδ h hc
  obtain ⟨z, b1, b2, b3⟩ := carry_near hm hδ h hE
  obtain ⟨c, e1, e2⟩ := pdf_at hm ht hδ hQ.le hc r3 r1
  obtain ⟨f, p, e3, e4, e5, e6⟩ := front_term hδ hE0 hE b2 (s := neg o.underlyingPrice)
    (by rw [real_neg, abs_neg, abs_of_pos h.S.pos]; exact h.S) b3 hQ.le hc e2 (density_abs _)
  obtain ⟨s, e7, e8⟩ := hm.sqrt o.T h.T.pos
  have hT : Box 50 √(F64.real o.T) := Box.sqrt h.T
  have hδE : δ * o.exact.exponents ≤ 1 / 1000000 * o.exact.exponents := by gcongr
  have hδE0 : 0 ≤ δ * o.exact.exponents := by positivity
  have hδQ0 : 0 ≤ δ * o.exact.condition := by positivity
  have hQ2 : δ * o.exact.condition ≤ 1 / 1024 := hc.trans (by norm_num)
  rw [real_neg, neg_mul] at e5 e6
  have hb1 : Box 900 |-(F64.real o.underlyingPrice * exp ((o.exact.b - o.exact.r) * o.exact.T)) * F64.real o.volatility| := by
    rw [abs_mul, abs_of_pos h.v.pos]; exact e5.mul h.v
  obtain ⟨q, e9, e10⟩ := mulS (p := p) (g := o.volatility) (γ := 0) e6 (density_abs _) (by positivity) (by linarith)
    (G := F64.real o.volatility) (by simp) le_rfl (by norm_num) (hb1.mono (by norm_num))
  obtain ⟨two, g1, g2⟩ := two_some
  have h2 : Box 1 (2 : ℝ) := ⟨by norm_num, by norm_num⟩
  have hb2 := h2.mul hT
  obtain ⟨w, g3, g4⟩ := mulN (a := two) (b := s) (A := 2) (B := √(F64.real o.T)) (α := 0) (β := δ) (by rw [g2]; simp)
    (by rw [abs_of_pos hT.pos]; exact e8) le_rfl (by norm_num) hδ0.le (by linarith) (by rw [abs_of_pos hb2.pos]; exact hb2.mono (by norm_num))
  have g4' : |F64.real w - 2 * √(F64.real o.T)| ≤ 2 * δ * |2 * √(F64.real o.T)| :=
    g4.trans (mul_le_mul_of_nonneg_right (by linarith) (abs_nonneg _))
  have e10' : |F64.real q - -(F64.real o.underlyingPrice * exp ((o.exact.b - o.exact.r) * o.exact.T)) * F64.real o.volatility * density o.exact.d1| ≤
      δ * (99 / 8 + 27 / 8 * o.exact.exponents + 5 * o.exact.condition) *
        |-(F64.real o.underlyingPrice * exp ((o.exact.b - o.exact.r) * o.exact.T)) * F64.real o.volatility| :=
    e10.trans (mul_le_mul_of_nonneg_right (by linarith) (abs_nonneg _))
  have hb3 : Box 951 |-(F64.real o.underlyingPrice * exp ((o.exact.b - o.exact.r) * o.exact.T)) * F64.real o.volatility / (2 * √(F64.real o.T))| := by
    rw [abs_div, abs_of_pos hb2.pos]; exact hb1.div hb2
  obtain ⟨g, g5, g6⟩ := divS (p := q) (g := w) e10' (density_abs _) (by positivity) (by linarith) g4' (by linarith) (by linarith) hb2.pos.ne'
    (hb3.mono (by norm_num))
  have eA : |-(F64.real o.underlyingPrice * exp ((o.exact.b - o.exact.r) * o.exact.T)) * F64.real o.volatility / (2 * √(F64.real o.T))| =
      o.exact.asset * o.exact.v / (2 * √o.exact.T) := by
    rw [abs_div, abs_mul, abs_neg, abs_of_pos hb2.pos, abs_of_pos h.v.pos, abs_of_pos (mul_pos h.S.pos (exp_pos _))]
    rfl
  rw [eA] at hb3 g6
  have hA := hb3.pos
  have e11 : |F64.real g - -o.exact.S * exp ((o.exact.b - o.exact.r) * o.exact.T) * density o.exact.d1 * o.exact.v / (2 * √o.exact.T)| ≤
        δ * (18 + 4 * o.exact.exponents + 13 * o.exact.condition) * (o.exact.asset * o.exact.v / (2 * √o.exact.T)) := by
    have : -o.exact.S * exp ((o.exact.b - o.exact.r) * o.exact.T) * density o.exact.d1 * o.exact.v / (2 * √o.exact.T) =
        -(F64.real o.underlyingPrice * exp ((o.exact.b - o.exact.r) * o.exact.T)) * F64.real o.volatility / (2 * √(F64.real o.T)) *
          density o.exact.d1 := by
      change -F64.real o.underlyingPrice * _ * _ * F64.real o.volatility / (2 * √(F64.real o.T)) = _
      ring
    rw [this]
    exact g6.trans (mul_le_mul_of_nonneg_right (by linarith) hA.le)
  refine ⟨g, ?_, hb3, e11, ?_⟩
  · simp only [Contract.decay, a1, b1, e1, e3, e4, e7, e9, g1, g3, g5, Option.bind_eq_bind, Option.bind_some]
  · have e12 : |-o.exact.S * exp ((o.exact.b - o.exact.r) * o.exact.T) * density o.exact.d1 * o.exact.v / (2 * √o.exact.T)| ≤
        o.exact.asset * o.exact.v / (2 * √o.exact.T) := by
      have : -o.exact.S * exp ((o.exact.b - o.exact.r) * o.exact.T) * density o.exact.d1 * o.exact.v / (2 * √o.exact.T) =
          -(o.exact.asset * o.exact.v / (2 * √o.exact.T)) * density o.exact.d1 := by unfold Exact.asset; ring
      rw [this, abs_mul, abs_neg, abs_of_pos hA]
      exact mul_le_of_le_one_right hA.le (density_abs _)
    generalize -o.exact.S * exp ((o.exact.b - o.exact.r) * o.exact.T) * density o.exact.d1 * o.exact.v / (2 * √o.exact.T) = X at e11 e12
    generalize o.exact.asset * o.exact.v / (2 * √o.exact.T) = A at e11 e12 hA ⊢
    rw [show F64.real g = (F64.real g - X) + X by ring]
    refine (abs_add_le _ _).trans ?_
    have : δ * (18 + 4 * o.exact.exponents + 13 * o.exact.condition) * A ≤ 1 / 2 * A := mul_le_mul_of_nonneg_right (by linarith) hA.le
    linarith

/-- Two additions of rounded terms. -/
theorem combine3 {x y z p q X Y Z A B C κ δ u : ℝ} (hu : 0 < u) (hδu : 2 * u ≤ δ) (hδ : δ ≤ 1 / 1000000) (hA : 0 ≤ A) (hB : 0 ≤ B) (hC : 0 ≤ C)
    (hx : |x - X| ≤ κ * A) (hy : |y - Y| ≤ κ * B) (hz : |z - Z| ≤ κ * C) (hx1 : |x| ≤ 3 / 2 * A) (hy1 : |y| ≤ 3 / 2 * B)
    (hz1 : |z| ≤ 3 / 2 * C) (hp : |p - (x + y)| ≤ u * |x + y|) (hq : |q - (p + z)| ≤ u * |p + z|) :
    |q - (X + Y + Z)| ≤ (κ + 2 * δ) * (A + B + C) := by
  have e1 : |x + y| ≤ 3 / 2 * (A + B) := (abs_add_le _ _).trans (by linarith)
  have e2 : u * |x + y| ≤ u * (3 / 2 * (A + B)) := by gcongr
  have hAB : 0 ≤ A + B := by linarith
  have hu1 : u * (A + B) ≤ 1 / 1000000 * (A + B) := mul_le_mul_of_nonneg_right (by linarith) hAB
  have e3 : |p + z| ≤ 8 / 5 * (A + B + C) := by
    rw [show p + z = (p - (x + y)) + (x + y) + z by ring]
    refine (abs_add_le _ _).trans (_root_.add_le_add (abs_add_le _ _) le_rfl |>.trans ?_)
    linarith
  have e4 : u * |p + z| ≤ u * (8 / 5 * (A + B + C)) := by gcongr
  rw [show q - (X + Y + Z) = (q - (p + z)) + (p - (x + y)) + (x - X) + (y - Y) + (z - Z) by ring]
  have e5 : 2 * u * (A + B + C) ≤ δ * (A + B + C) := mul_le_mul_of_nonneg_right hδu (by linarith)
  have e6 : 0 ≤ u * C := by positivity
  have e7 : |(q - (p + z)) + (p - (x + y)) + (x - X) + (y - Y) + (z - Z)| ≤
      |q - (p + z)| + |p - (x + y)| + |x - X| + |y - Y| + |z - Z| := by
    refine (abs_add_le _ _).trans (_root_.add_le_add ((abs_add_le _ _).trans (_root_.add_le_add ((abs_add_le _ _).trans
      (_root_.add_le_add (abs_add_le _ _) le_rfl)) le_rfl)) le_rfl)
  refine e7.trans ?_
  have e8 : 0 ≤ u * (A + B) := by positivity
  nlinarith

theorem rate_box (h : Facts o) {x : ℝ} (h1 : |x| * F64.real o.T ≤ 300) (h2 : x = 0 ∨ 2 ^ (-100 : ℤ) ≤ |x|) : x = 0 ∨ Box 200 |x| := by
  rcases h2 with h2 | h2
  · exact Or.inl h2
  · refine Or.inr ?_
    have h3 : |x| * ((2 : ℝ) ^ 100)⁻¹ ≤ 2 ^ 100 := (mul_le_mul_of_nonneg_left h.T.1 (abs_nonneg _)).trans (h1.trans (by norm_num))
    rw [mul_inv_le_iff₀ (by positivity), ← pow_add] at h3
    refine ⟨le_trans ?_ h2, h3⟩
    rw [show (2 : ℝ) ^ (-100 : ℤ) = (2 ^ 100)⁻¹ by rw [zpow_neg]; norm_cast]
    exact inv_anti₀ (by positivity) (pow_le_pow_right₀ (by norm_num) (by norm_num))

theorem sum_top {A B C : ℝ} (hA : A ≤ 2 ^ 1000) (hB : B ≤ 2 ^ 1000) (hC : C ≤ 2 ^ 1000) {x : ℝ} (h : |x| ≤ 8 / 5 * (A + B + C)) : |x| ≤ top := by
  have key : ∀ a b c t u : ℝ, a ≤ t → b ≤ t → c ≤ t → u ≤ 8 / 5 * (a + b + c) → 0 ≤ t → u ≤ 8 * t := by
    intro a b c t u _ _ _ _ _; linarith
  refine (key A B C (2 ^ 1000) |x| hA hB hC h (by positivity)).trans ?_
  unfold top
  rw [show (8 : ℝ) = 2 ^ 3 by norm_num, ← pow_add]
  exact pow_le_pow_right₀ (by norm_num) (by norm_num)

theorem box_or_zero {A B E : ℝ} (hA : A = 0 ∨ Box 200 |A|) (hB : Box 200 |B|) (hE : Box 600 E) : |A * B * E| ≤ 2 ^ 1000 := by
  rcases hA with hA | hA
  · rw [hA]; simp
  · rw [abs_mul, abs_mul, abs_of_pos hE.pos]
    exact ((hA.mul hB).mul hE).2

end

/-- C105: theta. The computed theta is within `δ (20 + 4 (|b| + |r|) T + 13 Q)` of minus the derivative in the time to expiry, relative to the sum
of the sizes of its three parts; the rates `r` and `b - r` are zero or at least `2^-100` in size. -/
theorem C105_theta_error (m : Libm) (δ : ℝ) (hδ : 2 ^ (-52 : ℤ) ≤ δ) (hδ1 : δ ≤ 2 ^ (-20 : ℤ)) (hm : m.Accurate δ) (ht : m.Tail δ)
    (o : Contract) (ho : o.exact.Ordinary) (hr : o.exact.Rates) (hc : δ * o.exact.condition ≤ 2 ^ (-10 : ℤ)) :
    ∃ g, o.theta m = some g ∧ |F64.real g - -deriv (fun T => { o.exact with T := T }.price o.optionType) o.exact.T| ≤
      δ * (20 + 4 * o.exact.exponents + 13 * o.exact.condition) *
        (o.exact.asset * o.exact.v / (2 * √o.exact.T) + |o.exact.b - o.exact.r| * o.exact.asset + |o.exact.r| * o.exact.cash) := by
  have hf : Fine δ := ⟨hδ, hδ1⟩
  have h := facts ho
  have hu := ur_pos
  have hδ0 := hf.pos
  have hδ2 := hf.le
  have hδu := hf.ur
  have hE0 := exponents_nonneg h
  have hE := ho.exponents
  obtain ⟨hQ, -, -⟩ := condition_bound hf h hc
  obtain ⟨d1, d2, a1, a2, r1, r2, r3, r4⟩ := d_near hm hf h hc
  obtain ⟨z, b1, b2, b3⟩ := carry_near hm hf h hE
  obtain ⟨z', c1, c2, c3⟩ := discount_near hm hf h hE
  obtain ⟨x, t1, t2, t3, t4⟩ := decay_near hm ht hf ho hc
  have hTp := h.T.pos
  have hY : |o.exact.b - o.exact.r| * F64.real o.T ≤ 300 := by
    have : |o.exact.b - o.exact.r| * F64.real o.T ≤ o.exact.exponents := mul_le_mul_of_nonneg_right (abs_sub _ _) hTp.le
    exact this.trans hE
  have hR : |o.exact.r| * F64.real o.T ≤ 300 := by
    have : |o.exact.r| * F64.real o.T ≤ o.exact.exponents :=
      mul_le_mul_of_nonneg_right (le_add_of_nonneg_left (abs_nonneg _)) hTp.le
    exact this.trans hE
  have hYb := rate_box h hY hr.yield
  have hRb := rate_box h hR hr.r
  have hYtop : |F64.real o.costOfCarry - F64.real o.riskFreeRate| ≤ 2 ^ 200 := by
    rcases hYb with h0 | h0
    · change |o.exact.b - o.exact.r| ≤ _
      rw [h0]; simp
    · exact h0.2
  obtain ⟨y, g1, g2⟩ := subR (a := o.costOfCarry) (b := o.riskFreeRate) (top_of 200 (by norm_num) hYtop)
  have hS : Box 200 |F64.real o.underlyingPrice| := by rw [abs_of_pos h.S.pos]; exact h.S
  have hK : Box 200 |F64.real o.strikePrice| := by rw [abs_of_pos h.K.pos]; exact h.K
  have eB : |(o.exact.b - o.exact.r) * F64.real o.underlyingPrice * exp ((o.exact.b - o.exact.r) * o.exact.T)| =
      |o.exact.b - o.exact.r| * o.exact.asset := by
    rw [abs_mul, abs_mul, abs_of_pos h.S.pos, abs_of_pos (exp_pos _), mul_assoc]; rfl
  have eC : |o.exact.r * F64.real o.strikePrice * exp (-o.exact.r * o.exact.T)| = |o.exact.r| * o.exact.cash := by
    rw [abs_mul, abs_mul, abs_of_pos h.K.pos, abs_of_pos (exp_pos _), mul_assoc]; rfl
  have hB := box_or_zero hYb hS (exp_box b2)
  have hC := box_or_zero hRb hK (exp_box c2)
  rw [eB] at hB
  rw [eC] at hC
  have hA := (t2.mono (show 951 ≤ 1000 by norm_num)).2
  have hA0 := t2.pos.le
  have hB0 : 0 ≤ |o.exact.b - o.exact.r| * o.exact.asset := by rw [← eB]; exact abs_nonneg _
  have hC0 : 0 ≤ |o.exact.r| * o.exact.cash := by rw [← eC]; exact abs_nonneg _
  rw [Exact.deriv_T h.pos]
  have hδE0 : 0 ≤ δ * o.exact.exponents := by positivity
  have hδQ0 : 0 ≤ δ * o.exact.condition := by positivity
  have key : δ * (20 + 4 * o.exact.exponents + 13 * o.exact.condition) = δ * (18 + 4 * o.exact.exponents + 13 * o.exact.condition) + 2 * δ := by ring
  have widen : ∀ {w W : ℝ}, 0 ≤ W → w ≤ δ * (9 + 4 * o.exact.exponents + 13 * o.exact.condition) * W →
      w ≤ δ * (18 + 4 * o.exact.exponents + 13 * o.exact.condition) * W := by
    intro w W hW hw
    exact hw.trans (mul_le_mul_of_nonneg_right (by linarith) hW)
  rw [key]
  cases hflag : o.optionType with
  | call =>
    obtain ⟨c, e1, e2⟩ := cdf_at hm hf hQ.le hc r3 r1
    obtain ⟨c', e1', e2'⟩ := cdf_at hm hf hQ.le hc r4 r2
    obtain ⟨y1, y2, y3, u1, u2, u3, u4, u5⟩ := triple_near hf (a := y) (b := o.underlyingPrice) hE0 hE b2 g2 hYb hS b3 hQ.le hc e2 (Phi_abs _)
    obtain ⟨w1, w2, w3, v1, v2, v3, v4, v5⟩ := triple_near hf (a := o.riskFreeRate) (b := o.strikePrice) hE0 hE c2 (exact_rel _) hRb hK c3 hQ.le hc
      e2' (Phi_abs _)
    rw [show F64.real o.costOfCarry - F64.real o.riskFreeRate = o.exact.b - o.exact.r from rfl] at u4 u5
    rw [show F64.real o.riskFreeRate = o.exact.r from rfl] at v4 v5
    rw [eB] at u4 u5
    rw [eC] at v4 v5
    have hs1 : |F64.real x - F64.real y3| ≤ 3 / 2 * (o.exact.asset * o.exact.v / (2 * √o.exact.T) + |o.exact.b - o.exact.r| * o.exact.asset) :=
      (abs_sub _ _).trans (by linarith)
    obtain ⟨p, p1, p2⟩ := subR (a := x) (b := y3) (sum_top hA hB hC (by linarith))
    have hs2 : |F64.real p - F64.real w3| ≤ 8 / 5 * (o.exact.asset * o.exact.v / (2 * √o.exact.T) + |o.exact.b - o.exact.r| * o.exact.asset +
        |o.exact.r| * o.exact.cash) := by
      rw [show F64.real p - F64.real w3 = (F64.real p - (F64.real x - F64.real y3)) + (F64.real x - F64.real y3) - F64.real w3 by ring]
      refine (abs_sub _ _).trans (_root_.add_le_add (abs_add_le _ _) le_rfl |>.trans ?_)
      have : ur * |F64.real x - F64.real y3| ≤ 1 / 1000000 * |F64.real x - F64.real y3| := mul_le_mul_of_nonneg_right (by linarith) (abs_nonneg _)
      linarith
    obtain ⟨q, q1, q2⟩ := subR (a := p) (b := w3) (sum_top hA hB hC hs2)
    refine ⟨q, ?_, ?_⟩
    · simp only [Contract.theta, hflag, a1, a2, b1, c1, t1, g1, e1, e1', u1, u2, u3, v1, v2, v3, p1, q1, Option.bind_eq_bind, Option.bind_some]
    · have := combine3 (x := F64.real x) (y := -F64.real y3) (z := -F64.real w3) (p := F64.real p) (q := F64.real q)
        (Y := -((o.exact.b - o.exact.r) * F64.real o.underlyingPrice * exp ((o.exact.b - o.exact.r) * o.exact.T) * Phi o.exact.d1))
        (Z := -(o.exact.r * F64.real o.strikePrice * exp (-o.exact.r * o.exact.T) * Phi o.exact.d2))
        hu hδu hδ2 hA0 hB0 hC0 t3 (by rw [neg_sub_neg, abs_sub_comm]; exact widen hB0 u4) (by rw [neg_sub_neg, abs_sub_comm]; exact widen hC0 v4) t4
        (by rw [abs_neg]; exact u5) (by rw [abs_neg]; exact v5) (by rw [← sub_eq_add_neg]; exact p2) (by rw [← sub_eq_add_neg]; exact q2)
      rw [← sub_eq_add_neg, ← sub_eq_add_neg] at this
      exact this
  | put =>
    obtain ⟨c, e1, e2⟩ := cdf_at hm hf hQ.le hc (X := -o.exact.d1) (x := neg d1) (by rw [abs_neg]; exact r3)
      (by rw [real_neg, show -F64.real d1 - -o.exact.d1 = -(F64.real d1 - o.exact.d1) by ring, abs_neg]; exact r1)
    obtain ⟨c', e1', e2'⟩ := cdf_at hm hf hQ.le hc (X := -o.exact.d2) (x := neg d2) (by rw [abs_neg]; exact r4)
      (by rw [real_neg, show -F64.real d2 - -o.exact.d2 = -(F64.real d2 - o.exact.d2) by ring, abs_neg]; exact r2)
    obtain ⟨y1, y2, y3, u1, u2, u3, u4, u5⟩ := triple_near hf (a := y) (b := o.underlyingPrice) hE0 hE b2 g2 hYb hS b3 hQ.le hc e2 (Phi_abs _)
    obtain ⟨w1, w2, w3, v1, v2, v3, v4, v5⟩ := triple_near hf (a := o.riskFreeRate) (b := o.strikePrice) hE0 hE c2 (exact_rel _) hRb hK c3 hQ.le hc
      e2' (Phi_abs _)
    rw [show F64.real o.costOfCarry - F64.real o.riskFreeRate = o.exact.b - o.exact.r from rfl] at u4 u5
    rw [show F64.real o.riskFreeRate = o.exact.r from rfl] at v4 v5
    rw [eB] at u4 u5
    rw [eC] at v4 v5
    have hs1 : |F64.real x + F64.real y3| ≤ 3 / 2 * (o.exact.asset * o.exact.v / (2 * √o.exact.T) + |o.exact.b - o.exact.r| * o.exact.asset) :=
      (abs_add_le _ _).trans (by linarith)
    obtain ⟨p, p1, p2⟩ := addR (a := x) (b := y3) (sum_top hA hB hC (by linarith))
    have hs2 : |F64.real p + F64.real w3| ≤ 8 / 5 * (o.exact.asset * o.exact.v / (2 * √o.exact.T) + |o.exact.b - o.exact.r| * o.exact.asset +
        |o.exact.r| * o.exact.cash) := by
      rw [show F64.real p + F64.real w3 = (F64.real p - (F64.real x + F64.real y3)) + (F64.real x + F64.real y3) + F64.real w3 by ring]
      refine (abs_add_le _ _).trans (_root_.add_le_add (abs_add_le _ _) le_rfl |>.trans ?_)
      have : ur * |F64.real x + F64.real y3| ≤ 1 / 1000000 * |F64.real x + F64.real y3| := mul_le_mul_of_nonneg_right (by linarith) (abs_nonneg _)
      linarith
    obtain ⟨q, q1, q2⟩ := addR (a := p) (b := w3) (sum_top hA hB hC hs2)
    refine ⟨q, ?_, ?_⟩
    · simp only [Contract.theta, hflag, a1, a2, b1, c1, t1, g1, e1, e1', u1, u2, u3, v1, v2, v3, p1, q1, Option.bind_eq_bind, Option.bind_some]
    · exact combine3 hu hδu hδ2 hA0 hB0 hC0 t3 (widen hB0 u4) (widen hC0 v4) t4 u5 v5 p2 q2

example : ∃ g, someContract.theta someLibm = some g := by
  obtain ⟨g, h1, -⟩ := C105_theta_error someLibm _ some_lower some_upper someLibm_accurate someLibm_tail someContract someContract_ordinary
    (by
      rw [someContract_exact]
      refine ⟨Or.inr ?_, Or.inl (by norm_num)⟩
      rw [abs_of_pos (by norm_num)]
      exact le_trans (zpow_le_zpow_right₀ (by norm_num) (show (-100 : ℤ) ≤ -4 by norm_num)) (by norm_num))
    someContract_fine
  exact ⟨g, h1⟩

end Verif.Float.Bsm
