import Verif.Float.BachelierLemmas
import Verif.Float.GreeksProps

/-!
# C114: Bachelier prices in double precision
-/

namespace Verif.Float.Bach

open Real Verif.Float.Sim Verif.Options Verif.Float.Bsm
open Verif.Float.Fft (ur mu top rnd_real toF64_total ur_pos mu_pos)

section

variable {m : Libm} {δ : ℝ}

/-- The distribution function and the density at the rounded `d`, with the steps before. -/
theorem steps (hm : m.Accurate δ) (ht : m.Tail δ) (hδ : Fine δ) {o : Model} {k t : F64} (h : (o.exact k t).Ordinary)
    (hq : δ * |(o.exact k t).d| ≤ 2 ^ (-10 : ℤ)) :
    ∃ s w g d c c' p, m.sqrt t = some s ∧ |F64.real s - √(F64.real t)| ≤ δ * √(F64.real t) ∧ o.v.mul s = some w ∧
      |F64.real w - (o.exact k t).width| ≤ 2 * δ * (o.exact k t).width ∧ o.f.sub k = some g ∧
      |F64.real g - (F64.real o.f - F64.real k)| ≤ ur * |F64.real o.f - F64.real k| ∧ g.div w = some d ∧
      cdf m d = some c ∧ |F64.real c - Phi (o.exact k t).d| ≤ δ * (2 + 13 / 3 * |(o.exact k t).d|) ∧
      cdf m (neg d) = some c' ∧ |F64.real c' - Phi (-(o.exact k t).d)| ≤ δ * (2 + 13 / 3 * |(o.exact k t).d|) ∧
      pdf m d = some p ∧ |F64.real p - density (o.exact k t).d| ≤ δ * (7 + 5 / 3 * |(o.exact k t).d|) := by
  obtain ⟨s, w, g, d, h1, h2, h3, h4, h5, h6, h7, h8⟩ := d_near hm hδ h
  have hδ0 := hδ.pos
  generalize (o.exact k t).d = D at *
  have hD := abs_nonneg D
  have hδD : 0 ≤ δ * |D| := mul_nonneg hδ0.le hD
  have hQ : 0 ≤ |D| / 3 := by linarith
  have hQ1 : δ * (|D| / 3) ≤ 2 ^ (-10 : ℤ) := le_trans (by linarith) hq
  have hx : |F64.real d - D| ≤ 16 * (δ * (|D| / 3)) := h8.trans (by linarith)
  have hx' : |F64.real (neg d) - -D| ≤ 16 * (δ * (|D| / 3)) := by
    rw [real_neg, show -F64.real d - -D = -(F64.real d - D) by ring, abs_neg]; exact hx
  obtain ⟨c, c1, c2⟩ := cdf_at hm hδ hQ hQ1 (by linarith) hx
  obtain ⟨c', c3, c4⟩ := cdf_at hm hδ hQ hQ1 (by rw [abs_neg]; linarith) hx'
  obtain ⟨p, p1, p2⟩ := pdf_at hm ht hδ hQ hQ1 (by linarith) hx
  exact ⟨s, w, g, d, c, c', p, h1, h2, h3, h4, h5, h6, h7, c1, c2.trans (by linarith), c3, c4.trans (by linarith), p1, p2.trans (by linarith)⟩

/-- `df`. -/
theorem df_near (hm : m.Accurate δ) (hδ : Fine δ) {o : Model} {k t : F64} (h : (o.exact k t).Ordinary) :
    ∃ y z, (neg o.r).mul t = some y ∧ m.exp y = some z ∧
      |F64.real z - (o.exact k t).df| ≤ δ * (2 + 3 * (|F64.real o.r| * F64.real t)) * (o.exact k t).df ∧ Box 600 (o.exact k t).df := by
  have ht0 : 0 < F64.real t := Real.sqrt_pos.1 h.boxes.2.1.pos
  have he : |F64.real o.r| * F64.real t ≤ 300 := h.exponent
  obtain ⟨y, z, h1, h2, h3⟩ := expo hm hδ (d := neg o.r) (t := t) (D := -F64.real o.r) (E := |F64.real o.r| * F64.real t)
    (by rw [real_neg, sub_self, abs_zero]; exact mul_nonneg ur_pos.le (abs_nonneg _)) ht0.le (by rw [abs_neg]) he
  refine ⟨y, z, h1, h2, h3, exp_box ?_⟩
  change |-F64.real o.r * F64.real t| ≤ 300
  rw [abs_mul, abs_neg, abs_of_pos ht0]
  exact he

theorem density_abs (x : ℝ) : |density x| ≤ 1 := by
  rw [abs_of_nonneg (density_nonneg x)]; linarith [density_le x]

theorem Phi_abs (x : ℝ) : |Phi x| ≤ 1 := by
  have := Phi_mem x
  rw [abs_of_pos this.1]; exact this.2.le

end

/-- C114: on ordinary inputs prices are finite numbers, right up to a small multiple of the error `δ` of the platform's functions, relative to
the discounted sum of the distance from the money and of the standard deviation. The factor grows with the number of standard deviations the
option is away from the money and with the exponent of the discount factor. -/
theorem C114_price_error (m : Libm) (δ : ℝ) (hδ : 2 ^ (-52 : ℤ) ≤ δ) (hδ1 : δ ≤ 2 ^ (-20 : ℤ)) (hm : m.Accurate δ) (ht : m.Tail δ) (o : Model)
    (k t : F64) (h : (o.exact k t).Ordinary) (hq : δ * |(o.exact k t).d| ≤ 2 ^ (-10 : ℤ)) (y : TypeFlag) :
    ∃ p, o.price m k t y = some p ∧
      |F64.real p - (o.exact k t).price y| ≤
        δ * (17 + 4 * (|(o.exact k t).r| * (o.exact k t).t) + 5 * |(o.exact k t).d|) * ((o.exact k t).df * (o.exact k t).scale) := by
  have hF : Fine δ := ⟨hδ, hδ1⟩
  obtain ⟨s, w, g, d, c, c', p, h1, h2, h3, h4, h5, h6, h7, h8, h9, h10, h11, h12, h13⟩ := steps hm ht hF h hq
  obtain ⟨e, z, h14, h15, h16, h17⟩ := df_near hm hF h
  obtain ⟨-, ht, hw, hg⟩ := h.boxes
  have ht0 : 0 < F64.real t := Real.sqrt_pos.1 ht.pos
  have hE : 0 ≤ |F64.real o.r| * F64.real t := mul_nonneg (abs_nonneg _) ht0.le
  have hd : o.d m k t = some d := by simp [Model.d, Model.width, h1, h3, h5, h7]
  have hdf : o.df m t = some z := by simp [Model.df, h14, h15]
  have hwd : o.width m t = some w := by simp [Model.width, h1, h3]
  have hG : F64.real o.f - F64.real k = 0 ∨ Box 200 |F64.real o.f - F64.real k| := by
    by_cases hc : F64.real o.f = F64.real k
    · exact Or.inl (sub_eq_zero.2 hc)
    · exact Or.inr (hg hc)
  cases y with
  | call =>
    obtain ⟨a, b, e', r, r1, r2, r3, r4, r5⟩ := body_near hF h6 hG h9 (Phi_abs _) h4 hw h13 (density_abs _) (abs_nonneg _) hq h16 h17 hE h.exponent
    exact ⟨r, by simp [Model.price, hd, hdf, hwd, h5, h8, h12, r1, r2, r3, r4], r5⟩
  | put =>
    obtain ⟨g', g1, g2⟩ := gap_near (f := k) (k := o.f) (by
      rw [abs_sub_comm]
      exact hG.imp (fun hc => (sub_eq_zero.1 hc).symm) id)
    have hG' : F64.real k - F64.real o.f = 0 ∨ Box 200 |F64.real k - F64.real o.f| := by
      rw [abs_sub_comm]
      exact hG.imp (fun hc => by linarith) id
    obtain ⟨a, b, e', r, r1, r2, r3, r4, r5⟩ := body_near hF g2 hG' h11 (Phi_abs _) h4 hw h13 (density_abs _) (abs_nonneg _) hq h16 h17 hE h.exponent
    refine ⟨r, by simp [Model.price, hd, hdf, hwd, g1, h10, h12, r1, r2, r3, r4], ?_⟩
    rw [abs_sub_comm (F64.real k)] at r5
    exact r5

/-- C114: the difference between the call and the put is the discounted difference between forward and strike, up to the two errors. -/
theorem C114_parity (m : Libm) (δ : ℝ) (hδ : 2 ^ (-52 : ℤ) ≤ δ) (hδ1 : δ ≤ 2 ^ (-20 : ℤ)) (hm : m.Accurate δ) (ht : m.Tail δ) (o : Model)
    (k t : F64) (h : (o.exact k t).Ordinary) (hq : δ * |(o.exact k t).d| ≤ 2 ^ (-10 : ℤ)) :
    ∃ c p, o.price m k t .call = some c ∧ o.price m k t .put = some p ∧
      |F64.real c - F64.real p - exp (-F64.real o.r * F64.real t) * (F64.real o.f - F64.real k)| ≤
        2 * (δ * (17 + 4 * (|(o.exact k t).r| * (o.exact k t).t) + 5 * |(o.exact k t).d|) * ((o.exact k t).df * (o.exact k t).scale)) := by
  obtain ⟨c, c1, c2⟩ := C114_price_error m δ hδ hδ1 hm ht o k t h hq .call
  obtain ⟨p, p1, p2⟩ := C114_price_error m δ hδ hδ1 hm ht o k t h hq .put
  refine ⟨c, p, c1, p1, ?_⟩
  have e : (o.exact k t).price .call - (o.exact k t).price .put = exp (-F64.real o.r * F64.real t) * (F64.real o.f - F64.real k) := by
    simp only [Exact.price]
    rw [Phi_neg]
    change exp (-F64.real o.r * F64.real t) * ((F64.real o.f - F64.real k) * _ + _) -
      exp (-F64.real o.r * F64.real t) * ((F64.real k - F64.real o.f) * _ + _) = _
    ring
  rw [← e, show F64.real c - F64.real p - ((o.exact k t).price .call - (o.exact k t).price .put) =
    (F64.real c - (o.exact k t).price .call) - (F64.real p - (o.exact k t).price .put) by ring]
  refine (abs_sub _ _).trans ?_
  linarith

/-- C114: when the strike is the forward, the call and the put have the same price, to the last bit, whatever the other inputs and the platform. -/
theorem C114_at_the_money (m : Libm) (o : Model) (t : F64) : o.price m o.f t .call = o.price m o.f t .put := by
  have h0 : o.f.sub o.f = some F64.zero := by
    unfold F64.sub
    rw [sub_self]
    exact toF64_exact F64.zero rfl
  have hn : neg F64.zero = F64.zero := by unfold neg F64.zero; simp
  have hd : ∀ d, o.d m o.f t = some d → d = F64.zero := by
    intro d hd
    simp only [Model.d, h0, Option.bind_eq_bind, Option.bind_some] at hd
    obtain ⟨w, h1, h2⟩ := Option.bind_eq_some_iff.1 hd
    unfold F64.div at h2
    split_ifs at h2 with hz
    rw [show F64.zero.val = 0 from rfl, zero_div, toF64_exact (q := 0) F64.zero rfl] at h2
    exact (Option.some.inj h2).symm
  unfold Model.price
  cases hc : o.d m o.f t with
  | none => rfl
  | some d =>
    obtain rfl := hd d hc
    simp only [Option.bind_eq_bind, Option.bind_some, hn]

/-- C114: delta is right up to a small multiple of `δ`, gamma, vega and theta relative to their scales: one over the standard deviation, the root
of the time, and the volatility over twice that root. -/
theorem C114_greeks_error (m : Libm) (δ : ℝ) (hδ : 2 ^ (-52 : ℤ) ≤ δ) (hδ1 : δ ≤ 2 ^ (-20 : ℤ)) (hm : m.Accurate δ) (ht : m.Tail δ) (o : Model)
    (k t : F64) (h : (o.exact k t).Ordinary) (hq : δ * |(o.exact k t).d| ≤ 2 ^ (-10 : ℤ)) :
    (∀ y, ∃ p, o.delta m k t y = some p ∧ |F64.real p - (o.exact k t).delta y| ≤ δ * (3 + 5 * |(o.exact k t).d|)) ∧
    (∃ p, o.gamma m k t = some p ∧
      |F64.real p - density (o.exact k t).d / (o.exact k t).width| ≤ δ * (12 + 2 * |(o.exact k t).d|) / (o.exact k t).width) ∧
    (∃ p, o.vega m k t = some p ∧
      |F64.real p - √(F64.real t) * density (o.exact k t).d| ≤ δ * (10 + 2 * |(o.exact k t).d|) * √(F64.real t)) ∧
    ∃ p, o.theta m k t = some p ∧
      |F64.real p - -(F64.real o.v * density (o.exact k t).d / (2 * √(F64.real t)))| ≤
        δ * (13 + 2 * |(o.exact k t).d|) * (F64.real o.v / (2 * √(F64.real t))) := by
  have hF : Fine δ := ⟨hδ, hδ1⟩
  obtain ⟨s, w, g, d, c, c', p, h1, h2, h3, h4, h5, h6, h7, h8, h9, h10, h11, h12, h13⟩ := steps hm ht hF h hq
  obtain ⟨hv, ht, hw, -⟩ := h.boxes
  have hd : o.d m k t = some d := by simp [Model.d, Model.width, h1, h3, h5, h7]
  have hwd : o.width m t = some w := by simp [Model.width, h1, h3]
  have hδ0 := hF.pos
  have hδ2 := hF.le
  have hu := hF.ur
  have hu0 := ur_pos
  have hs0 : 0 < √(F64.real t) := ht.pos
  have hv0 : 0 < F64.real o.v := hv.pos
  have hw0 := hw.pos
  have hbs : Box 50 √(F64.real t) := ht
  have hbv : Box 100 (F64.real o.v) := hv
  have hPn := density_abs (o.exact k t).d
  have hPm := Phi_mem (o.exact k t).d
  norm_num at hq
  have hD := abs_nonneg (o.exact k t).d
  have hδD : 0 ≤ δ * |(o.exact k t).d| := mul_nonneg hδ0.le hD
  simp only [Exact.delta]
  generalize (o.exact k t).d = D at *
  generalize (o.exact k t).width = W at *
  obtain ⟨one, o1, o2⟩ := one_some
  obtain ⟨two, w1, w2⟩ := two_some
  refine ⟨fun y => ?_, ?_, ?_, ?_⟩
  · cases y with
    | call => exact ⟨c, by simp [Model.delta, hd, h8], h9.trans (by linarith)⟩
    | put =>
      have hcb : |F64.real c - F64.real one| ≤ 2 := by
        have := abs_le.1 h9
        rw [o2, abs_le]
        constructor <;> linarith
      obtain ⟨r, r1, r2⟩ := subR (a := c) (b := one) (top_of 1 (by norm_num) (hcb.trans (by norm_num)))
      refine ⟨r, by simp [Model.delta, hd, h8, o1, r1], ?_⟩
      dsimp only
      rw [show F64.real r - (Phi D - 1) = (F64.real r - (F64.real c - F64.real one)) + (F64.real c - Phi D) by rw [o2]; ring]
      refine (abs_add_le _ _).trans ?_
      have : ur * |F64.real c - F64.real one| ≤ ur * 2 := by gcongr
      linarith
  · obtain ⟨r, r1, r2⟩ := divS (p := p) (g := w) (F := 1) (N := density D) (G := W) (ε := δ * (7 + 5 / 3 * |D|)) (γ := 2 * δ)
      (by rw [one_mul, abs_one, mul_one]; exact h13) hPn (by linarith) (by linarith) (by rwa [abs_of_pos hw0]) (by linarith) (by linarith)
      hw0.ne' (by rw [abs_of_pos (by positivity)]; exact (box_one.div hw).mono (by norm_num))
    refine ⟨r, by simp [Model.gamma, hd, hwd, h12, r1], ?_⟩
    rw [one_div_mul_eq_div, abs_of_pos (show 0 < 1 / W by positivity), mul_one_div] at r2
    refine r2.trans (div_le_div_of_nonneg_right ?_ hw0.le)
    linarith
  · obtain ⟨r, r1, r2⟩ := term (f := s) (c := p) (F := √(F64.real t)) (N := density D) (φ := δ) (κ := δ * (7 + 5 / 3 * |D|))
      (by rw [abs_of_pos hs0]; exact hbs.mono (by norm_num)) (by rwa [abs_of_pos hs0]) hδ0.le (by linarith) h13 (by linarith) hPn
    refine ⟨r, by simp [Model.vega, hd, h1, h12, r1], r2.trans ?_⟩
    rw [abs_of_pos hs0]
    exact mul_le_mul_of_nonneg_right (by linarith) hs0.le
  · obtain ⟨a, a1, a2⟩ := term (f := neg o.v) (c := p) (F := -F64.real o.v) (N := density D) (φ := 0) (κ := δ * (7 + 5 / 3 * |D|))
      (by rw [abs_neg, abs_of_pos hv0]; exact hbv.mono (by norm_num)) (by rw [real_neg]; exact rel_self _) le_rfl (by norm_num) h13
      (by linarith) hPn
    have hb2 : Box 51 (2 * √(F64.real t)) :=
      (Box.mul (i := 1) (j := 50) (x := 2) ⟨by norm_num, by norm_num⟩ hbs)
    obtain ⟨b, b1, b2⟩ := mulN (a := two) (b := s) (A := 2) (B := √(F64.real t)) (α := 0) (β := δ) (by rw [w2]; exact rel_self _)
      (by rwa [abs_of_pos hs0]) le_rfl (by norm_num) hδ0.le (by linarith) (by
        rw [abs_of_pos hb2.pos]; exact hb2.mono (by norm_num))
    obtain ⟨r, r1, r2⟩ := divS (p := a) (g := b) (F := -F64.real o.v) (N := density D) (G := 2 * √(F64.real t))
      (ε := 9 / 8 * 0 + δ * (7 + 5 / 3 * |D|) + 2 * ur) (γ := 0 + δ + 0 * δ + 2 * ur)
      a2 hPn (by linarith) (by linarith) b2 (by linarith) (by linarith)
      hb2.pos.ne' (by rw [abs_div, abs_neg, abs_of_pos hv0, abs_of_pos hb2.pos]; exact (hbv.div hb2).mono (by norm_num))
    refine ⟨r, by simp [Model.theta, hd, h1, h12, w1, a1, b1, r1], ?_⟩
    rw [abs_div, abs_neg, abs_of_pos hv0, abs_of_pos hb2.pos,
      show -F64.real o.v / (2 * √(F64.real t)) * density D = -(F64.real o.v * density D / (2 * √(F64.real t))) by ring] at r2
    refine r2.trans (mul_le_mul_of_nonneg_right ?_ (div_pos hv0 hb2.pos).le)
    linarith

end Verif.Float.Bach
