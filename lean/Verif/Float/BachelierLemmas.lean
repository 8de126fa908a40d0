import Verif.Float.BachelierSpec

/-! Helper lemmas: the steps of Bachelier's formula with rounding. -/

namespace Verif.Float.Bach

open Real Verif.Float.Sim Verif.Options Verif.Float.Bsm
open Verif.Float.Fft (ur mu top rnd_real toF64_total ur_pos mu_pos)

section

variable {m : Libm} {δ : ℝ}

theorem mul_comm' (a b : F64) : a.mul b = b.mul a := by unfold F64.mul; rw [_root_.mul_comm]

theorem Exact.Ordinary.boxes {e : Exact} (h : e.Ordinary) :
    Box 100 e.v ∧ Box 50 √e.t ∧ Box 150 e.width ∧ (e.f ≠ e.k → Box 200 |e.f - e.k|) := by
  have hv : Box 100 e.v := Box.of (by exact_mod_cast h.v)
  have ht : Box (50 + 50) e.t := Box.of (by exact_mod_cast h.t)
  refine ⟨hv, ht.sqrt, hv.mul ht.sqrt, fun hn => ?_⟩
  rcases h.gap with hc | hc
  · exact absurd hc hn
  · exact Box.of (by exact_mod_cast hc)

/-- `f - k`. -/
theorem gap_near {f k : F64} (h : F64.real f = F64.real k ∨ Box 200 |F64.real f - F64.real k|) :
    ∃ g, f.sub k = some g ∧ |F64.real g - (F64.real f - F64.real k)| ≤ ur * |F64.real f - F64.real k| := by
  refine subR ?_
  rcases h with h | h
  · rw [h, sub_self, abs_zero]
    exact top_of 0 (by norm_num) (by norm_num)
  · exact top_of 200 (by norm_num) h.2

/-- `v * t.sqrt()`. -/
theorem width_near (hm : m.Accurate δ) (hδ : Fine δ) {o : Model} {k t : F64} (h : (o.exact k t).Ordinary) :
    ∃ s w, m.sqrt t = some s ∧ |F64.real s - √(F64.real t)| ≤ δ * √(F64.real t) ∧ o.v.mul s = some w ∧
      |F64.real w - (o.exact k t).width| ≤ 2 * δ * (o.exact k t).width := by
  obtain ⟨hv, ht, hw, -⟩ := h.boxes
  have hδ1 := hδ.le
  have hδ0 := hδ.pos
  have hu := hδ.ur
  have ht0 : 0 < F64.real t := Real.sqrt_pos.1 ht.pos
  obtain ⟨s, h1, h2⟩ := hm.sqrt t ht0
  have hs0 : 0 < √(F64.real t) := ht.pos
  have hw0 := hw.pos
  obtain ⟨w, h3, h4⟩ := mulN (a := o.v) (b := s) (A := F64.real o.v) (B := √(F64.real t)) (α := 0) (β := δ) (rel_self _)
    (by rwa [abs_of_pos hs0]) le_rfl (by norm_num) hδ0.le (by linarith) (by
      rw [abs_of_pos (show 0 < F64.real o.v * √(F64.real t) from hw0)]
      exact hw.mono (by norm_num))
  refine ⟨s, w, h1, h2, h3, h4.trans ?_⟩
  rw [abs_of_pos (show 0 < F64.real o.v * √(F64.real t) from hw0)]
  refine mul_le_mul_of_nonneg_right ?_ hw0.le
  linarith

/-- `d`. -/
theorem d_near (hm : m.Accurate δ) (hδ : Fine δ) {o : Model} {k t : F64} (h : (o.exact k t).Ordinary) :
    ∃ s w g d, m.sqrt t = some s ∧ |F64.real s - √(F64.real t)| ≤ δ * √(F64.real t) ∧ o.v.mul s = some w ∧
      |F64.real w - (o.exact k t).width| ≤ 2 * δ * (o.exact k t).width ∧ o.f.sub k = some g ∧
      |F64.real g - (F64.real o.f - F64.real k)| ≤ ur * |F64.real o.f - F64.real k| ∧ g.div w = some d ∧
      |F64.real d - (o.exact k t).d| ≤ 4 * δ * |(o.exact k t).d| := by
  obtain ⟨s, w, h1, h2, h3, h4⟩ := width_near hm hδ h
  obtain ⟨hv, ht, hw, hg⟩ := h.boxes
  have hδ1 := hδ.le
  have hδ0 := hδ.pos
  have hu := hδ.ur
  have hu0 := ur_pos
  have hw0 := hw.pos
  by_cases hfk : F64.real o.f = F64.real k
  · obtain ⟨g, h5, h6⟩ := gap_near (f := o.f) (k := k) (Or.inl hfk)
    have hg0 : F64.real g = 0 := by
      rw [hfk, sub_self, abs_zero, mul_zero, sub_zero] at h6
      exact abs_eq_zero.1 (le_antisymm h6 (abs_nonneg _))
    have hd0 : (o.exact k t).d = 0 := by
      unfold Exact.d Model.exact
      simp [hfk]
    have hwr : F64.real w ≠ 0 := by
      intro hc
      rw [hc, zero_sub, abs_neg, abs_of_pos hw0] at h4
      nlinarith
    obtain ⟨d, h7, h8⟩ := divR (a := g) (b := w) hwr (by rw [hg0, zero_div, abs_zero]; exact top_of 0 (by norm_num) (by norm_num))
    refine ⟨s, w, g, d, h1, h2, h3, h4, h5, h6, h7, ?_⟩
    have hgv : g.val = 0 := by unfold F64.real at hg0; exact_mod_cast hg0
    have : d = F64.zero := by
      unfold F64.div at h7
      split_ifs at h7 with hz
      rw [hgv, zero_div, toF64_exact (q := 0) F64.zero rfl] at h7
      exact (Option.some.inj h7).symm
    rw [this, hd0]
    have : F64.real F64.zero = 0 := by unfold F64.real F64.zero; simp
    rw [this]
    simp
  · have hb := hg hfk
    obtain ⟨g, h5, h6⟩ := gap_near (f := o.f) (k := k) (Or.inr hb)
    obtain ⟨d, h7, h8⟩ := divN (a := g) (b := w) (A := F64.real o.f - F64.real k) (B := (o.exact k t).width) (α := ur) (β := 2 * δ) h6
      (by rwa [abs_of_pos hw0]) hu0.le (by linarith) (by linarith) (by linarith) hw0.ne' (by
        rw [abs_div, abs_of_pos hw0]
        exact (hb.div hw).mono (by norm_num))
    refine ⟨s, w, g, d, h1, h2, h3, h4, h5, h6, h7, h8.trans ?_⟩
    exact mul_le_mul_of_nonneg_right (by linarith) (abs_nonneg _)

/-- A term `g * c`, `g` possibly zero. -/
theorem mul_gap {g c : F64} {G N κ : ℝ} (hδ : Fine δ) (hg : |F64.real g - G| ≤ ur * |G|) (hG : G = 0 ∨ Box 200 |G|) (hc : |F64.real c - N| ≤ κ)
    (hκ1 : κ ≤ 1 / 8) (hN : |N| ≤ 1) : ∃ p, g.mul c = some p ∧ |F64.real p - G * N| ≤ (κ + 2 * δ) * |G| := by
  have hδ1 := hδ.le
  have hδ0 := hδ.pos
  have hu := hδ.ur
  have hu0 := ur_pos
  rcases hG with rfl | hG
  · have hg0 : F64.real g = 0 := by
      rw [abs_zero, mul_zero, sub_zero] at hg
      exact abs_eq_zero.1 (le_antisymm hg (abs_nonneg _))
    have hgv : g.val = 0 := by unfold F64.real at hg0; exact_mod_cast hg0
    refine ⟨F64.zero, ?_, ?_⟩
    · unfold F64.mul
      rw [hgv, zero_mul]
      exact toF64_exact F64.zero rfl
    · have : F64.real F64.zero = 0 := by unfold F64.real F64.zero; simp
      rw [this]
      simp
  · obtain ⟨p, h1, h2⟩ := term (hG.mono (by norm_num)) hg hu0.le (by linarith) hc hκ1 hN
    refine ⟨p, h1, h2.trans (mul_le_mul_of_nonneg_right ?_ (abs_nonneg _))⟩
    linarith

/-- The undiscounted price and its discounting. -/
theorem body_near (hδ : Fine δ) {g c w p df : F64} {G N W P DF E q : ℝ} (hg : |F64.real g - G| ≤ ur * |G|) (hG : G = 0 ∨ Box 200 |G|)
    (hc : |F64.real c - N| ≤ δ * (2 + 13 / 3 * q)) (hN : |N| ≤ 1) (hw : |F64.real w - W| ≤ 2 * δ * W) (hW : Box 150 W)
    (hp : |F64.real p - P| ≤ δ * (7 + 5 / 3 * q)) (hP : |P| ≤ 1) (hq : 0 ≤ q) (hq1 : δ * q ≤ 2 ^ (-10 : ℤ))
    (hd : |F64.real df - DF| ≤ δ * (2 + 3 * E) * DF) (hD : Box 600 DF) (hE : 0 ≤ E) (hE1 : E ≤ 300) :
    ∃ x y z r, g.mul c = some x ∧ w.mul p = some y ∧ x.add y = some z ∧ df.mul z = some r ∧
      |F64.real r - DF * (G * N + W * P)| ≤ δ * (17 + 4 * E + 5 * q) * (DF * (|G| + W)) := by
  have hδ1 := hδ.le
  have hδ0 := hδ.pos
  have hu := hδ.ur
  have hu0 := ur_pos
  have hW0 := hW.pos
  have hD0 := hD.pos
  have hGn := abs_nonneg G
  norm_num at hq1
  have hδq : 0 ≤ δ * q := mul_nonneg hδ0.le hq
  obtain ⟨x, h1, h2⟩ := mul_gap hδ hg hG hc (by linarith) hN
  obtain ⟨y, h3, h4⟩ := term (f := w) (c := p) (F := W) (N := P) (φ := 2 * δ) (κ := δ * (7 + 5 / 3 * q))
    (by rw [abs_of_pos hW0]; exact hW.mono (by norm_num)) (by rwa [abs_of_pos hW0]) (by linarith) (by linarith) hp (by linarith) hP
  rw [abs_of_pos hW0] at h4
  have hGS : Box 210 (|G| + W) := by
    have hl : ((2 : ℝ) ^ 210)⁻¹ ≤ W := le_trans (hW.mono (by norm_num : 150 ≤ 210)).1 le_rfl
    refine ⟨by linarith, ?_⟩
    have h5 : |G| ≤ 2 ^ 200 := by
      rcases hG with rfl | hG
      · rw [abs_zero]; positivity
      · exact hG.2
    have h6 : W ≤ 2 ^ 200 := (hW.mono (by norm_num : 150 ≤ 200)).2
    have h7 : (2 : ℝ) ^ 210 = 2 ^ 200 * 1024 := by norm_num
    have h8 : (0 : ℝ) < 2 ^ 200 := by positivity
    rw [h7]
    generalize (2 : ℝ) ^ 200 = Z at *
    linarith
  have hS0 := hGS.pos
  have hZb : |G * N + W * P| ≤ |G| + W := by
    refine (abs_add_le _ _).trans ?_
    rw [abs_mul, abs_mul, abs_of_pos hW0]
    have a1 : |G| * |N| ≤ |G| * 1 := by gcongr
    have a2 : W * |P| ≤ W * 1 := by gcongr
    linarith
  have hsum : |F64.real x + F64.real y - (G * N + W * P)| ≤ δ * (23 / 2 + 13 / 3 * q) * (|G| + W) := by
    rw [show F64.real x + F64.real y - (G * N + W * P) = (F64.real x - G * N) + (F64.real y - W * P) by ring]
    refine (abs_add_le _ _).trans ((add_le_add h2 h4).trans ?_)
    have b1 : (δ * (2 + 13 / 3 * q) + 2 * δ) * |G| ≤ δ * (23 / 2 + 13 / 3 * q) * |G| := mul_le_mul_of_nonneg_right (by linarith) hGn
    have b2 : (9 / 8 * (2 * δ) + δ * (7 + 5 / 3 * q) + 2 * ur) * W ≤ δ * (23 / 2 + 13 / 3 * q) * W :=
      mul_le_mul_of_nonneg_right (by linarith) hW0.le
    linarith
  have hxy : |F64.real x + F64.real y| ≤ 9 / 8 * (|G| + W) := by
    rw [show F64.real x + F64.real y = (F64.real x + F64.real y - (G * N + W * P)) + (G * N + W * P) by ring]
    refine (abs_add_le _ _).trans ?_
    have : δ * (23 / 2 + 13 / 3 * q) * (|G| + W) ≤ 1 / 8 * (|G| + W) := mul_le_mul_of_nonneg_right (by linarith) hS0.le
    linarith
  obtain ⟨z, h5, h6⟩ := addR (a := x) (b := y) (top_large (hGS.mono (by norm_num : 210 ≤ 1000)).2 (by linarith))
  have h7 : |F64.real z - (|G| + W) * ((G * N + W * P) / (|G| + W))| ≤ δ * (13 + 5 * q) * |(|G| + W)| := by
    rw [mul_div_cancel₀ _ hS0.ne', abs_of_pos hS0]
    rw [show F64.real z - (G * N + W * P) = (F64.real z - (F64.real x + F64.real y)) + (F64.real x + F64.real y - (G * N + W * P)) by ring]
    refine (abs_add_le _ _).trans ?_
    have c1 : ur * |F64.real x + F64.real y| ≤ ur * (9 / 8 * (|G| + W)) := by gcongr
    have c2 : ur * (|G| + W) ≤ δ / 2 * (|G| + W) := mul_le_mul_of_nonneg_right (by linarith) hS0.le
    have c3 : δ * (23 / 2 + 13 / 3 * q) * (|G| + W) + δ * (|G| + W) ≤ δ * (13 + 5 * q) * (|G| + W) := by
      rw [← add_mul]
      exact mul_le_mul_of_nonneg_right (by linarith) hS0.le
    have c4 : 0 < δ * (|G| + W) := mul_pos hδ0 hS0
    linarith
  have hδE : δ * E ≤ 1 / 1000000 * 300 := mul_le_mul hδ1 hE1 hE (by norm_num)
  have hδE0 : 0 ≤ δ * E := mul_nonneg hδ0.le hE
  obtain ⟨r, h8, h9⟩ := mulS (p := z) (g := df) (F := |G| + W) (N := (G * N + W * P) / (|G| + W)) (G := DF) (ε := δ * (13 + 5 * q))
    (γ := δ * (2 + 3 * E)) h7 (by rw [abs_div, abs_of_pos hS0]; exact div_le_one_of_le₀ hZb hS0.le) (by linarith) (by linarith)
    (by rwa [abs_of_pos hD0]) (by linarith) (by linarith) (by
      rw [abs_of_pos (mul_pos hS0 hD0)]
      exact (hGS.mul hD).mono (by norm_num))
  refine ⟨x, y, z, r, h1, h3, h5, by rw [mul_comm']; exact h8, ?_⟩
  have e : (|G| + W) * DF * ((G * N + W * P) / (|G| + W)) = DF * (G * N + W * P) := by field_simp
  rw [e] at h9
  refine h9.trans ?_
  rw [abs_of_pos (mul_pos hS0 hD0), _root_.mul_comm (|G| + W) DF]
  exact mul_le_mul_of_nonneg_right (by linarith) (mul_pos hD0 hS0).le

end

end Verif.Float.Bach
