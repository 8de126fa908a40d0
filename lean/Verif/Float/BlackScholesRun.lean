import Verif.Float.BlackScholesTerms

/-! Helper lemmas: the errors of `d1`, `d2` and of the price. -/

namespace Verif.Float.Bsm

open Real Verif.Float.Sim Verif.Options
open Verif.Float.Fft (ur mu top rnd_real toF64_total ur_pos mu_pos)

/-- What `Ordinary` gives, in terms of the fields. -/
structure Facts (o : Contract) : Prop where
  S : Box 200 (F64.real o.underlyingPrice)
  K : Box 200 (F64.real o.strikePrice)
  v : Box 100 (F64.real o.volatility)
  T : Box 100 (F64.real o.T)

theorem facts {o : Contract} (h : o.exact.Ordinary) : Facts o := ⟨Box.of h.S, Box.of h.K, Box.of h.v, Box.of h.T⟩

section

variable {m : Libm} {δ : ℝ} {o : Contract}

theorem width_box (h : Facts o) : Box 150 o.exact.width := by
  have h1 : Box 50 √(F64.real o.T) := Box.sqrt h.T
  exact h.v.mul h1

theorem width_near (hm : m.Accurate δ) (hδ : Fine δ) (h : Facts o) :
    ∃ w, o.width m = some w ∧ |F64.real w - o.exact.width| ≤ 2 * δ * |o.exact.width| := by
  have hδ0 := hδ.pos
  have hδ1 := hδ.le
  obtain ⟨s, h1, r1⟩ := hm.sqrt o.T h.T.pos
  have hb := width_box h
  obtain ⟨w, h2, r2⟩ := mulN (a := o.volatility) (b := s) (A := F64.real o.volatility) (B := √(F64.real o.T)) (rel_self _)
    (by rw [abs_of_nonneg (Real.sqrt_nonneg _)]; exact r1) le_rfl (by norm_num) hδ0.le (by linarith)
    (by
      have : F64.real o.volatility * √(F64.real o.T) = o.exact.width := rfl
      rw [this, abs_of_pos hb.pos]; exact hb.mono (by norm_num))
  refine ⟨w, ?_, r2.trans ?_⟩
  · simp only [Contract.width, h1, h2, Option.bind_eq_bind, Option.bind_some]
  · refine mul_le_mul_of_nonneg_right ?_ (abs_nonneg _)
    have := hδ.ur
    linarith

theorem inv_near (hδ : Fine δ) (h : Facts o) {w : F64} (hw : |F64.real w - o.exact.width| ≤ 2 * δ * |o.exact.width|) :
    ∃ one i, toF64 1 = some one ∧ one.div w = some i ∧ |F64.real i - 1 / o.exact.width| ≤ 4 * δ * |1 / o.exact.width| := by
  have hδ0 := hδ.pos
  have hδ1 := hδ.le
  have hb := width_box h
  obtain ⟨one, h1, r1⟩ := one_some
  obtain ⟨i, h2, r2⟩ := divN (a := one) (b := w) (A := 1) (B := o.exact.width) (α := 0) (β := 2 * δ) (by rw [r1]; simp) hw le_rfl
    (by norm_num) (by linarith) (by linarith) hb.pos.ne'
    (by
      rw [abs_of_pos (by have := hb.pos; positivity)]
      exact (box_one.div hb).mono (by norm_num))
  refine ⟨one, i, h1, h2, r2.trans ?_⟩
  refine mul_le_mul_of_nonneg_right ?_ (abs_nonneg _)
  have := hδ.ur
  linarith

theorem ln_near (hm : m.Accurate δ) (hδ : Fine δ) (h : Facts o) :
    ∃ q l, o.underlyingPrice.div o.strikePrice = some q ∧ m.ln q = some l ∧
      |F64.real l - log (F64.real o.underlyingPrice / F64.real o.strikePrice)| ≤
        δ * |log (F64.real o.underlyingPrice / F64.real o.strikePrice)| + 4 * δ := by
  have hδ0 := hδ.pos
  have hδ1 := hδ.le
  have hb := h.S.div h.K
  obtain ⟨q, h1, r1⟩ := divN (a := o.underlyingPrice) (b := o.strikePrice) (rel_self _) (rel_self _) le_rfl (by norm_num) le_rfl (by norm_num)
    h.K.pos.ne' (by rw [abs_of_pos hb.pos]; exact hb.mono (by norm_num))
  have r1' : |F64.real q - F64.real o.underlyingPrice / F64.real o.strikePrice| ≤
      δ * |F64.real o.underlyingPrice / F64.real o.strikePrice| := by
    refine r1.trans (mul_le_mul_of_nonneg_right ?_ (abs_nonneg _))
    have := hδ.ur
    linarith
  obtain ⟨hq, r2⟩ := log_near hb.pos hδ0.le (by linarith) r1'
  obtain ⟨l, h3, r3⟩ := hm.ln q hq
  refine ⟨q, l, h1, h3, ?_⟩
  set L := log (F64.real o.underlyingPrice / F64.real o.strikePrice)
  have e1 : |log (F64.real q)| ≤ |L| + 2 * δ := by
    rw [show log (F64.real q) = (log (F64.real q) - L) + L by ring]
    refine (abs_add_le _ _).trans (by linarith)
  rw [show F64.real l - L = (F64.real l - log (F64.real q)) + (log (F64.real q) - L) by ring]
  refine (abs_add_le _ _).trans ?_
  have := mul_le_mul_of_nonneg_left e1 hδ0.le
  nlinarith

/-- The drift term `(b + 0.5 * v * v) * T`. -/
theorem drift_near (hδ : Fine δ) (h : Facts o)
    (hG : (|F64.real o.costOfCarry| + F64.real o.volatility ^ 2 / 2) * F64.real o.T ≤ 2 ^ 200) :
    ∃ half vv hv s g, toF64 (1 / 2) = some half ∧ o.volatility.mul o.volatility = some vv ∧ half.mul vv = some hv ∧
      o.costOfCarry.add hv = some s ∧ s.mul o.T = some g ∧
      |F64.real g - (F64.real o.costOfCarry + F64.real o.volatility ^ 2 / 2) * F64.real o.T| ≤
        4 * δ * ((|F64.real o.costOfCarry| + F64.real o.volatility ^ 2 / 2) * F64.real o.T) := by
  have hδ0 := hδ.pos
  have hδ1 := hδ.le
  have hδu := hδ.ur
  have hu := ur_pos
  have hv0 := h.v.pos
  have hT0 := h.T.pos
  obtain ⟨half, h1, r1⟩ := half_some
  obtain ⟨vv, h2, r2⟩ := mulN (a := o.volatility) (b := o.volatility) (rel_self _) (rel_self _) le_rfl (by norm_num) le_rfl (by norm_num)
    (by rw [abs_of_pos (by positivity)]; exact (h.v.mul h.v).mono (by norm_num))
  have hhalf : Box 1 (1 / 2 : ℝ) := ⟨by norm_num, by norm_num⟩
  have hHb : Box 201 (1 / 2 * (F64.real o.volatility * F64.real o.volatility)) := hhalf.mul (h.v.mul h.v)
  obtain ⟨hv, h3, r3⟩ := mulN (a := half) (b := vv) (A := 1 / 2) (B := F64.real o.volatility * F64.real o.volatility) (α := 0) (β := δ)
    (by rw [r1]; simp) (r2.trans (mul_le_mul_of_nonneg_right (by linarith) (abs_nonneg _))) le_rfl (by norm_num) hδ0.le (by linarith)
    (by rw [abs_of_pos hHb.pos]; exact hHb.mono (by norm_num))
  rw [abs_of_pos hHb.pos] at r3
  have eH : F64.real o.volatility ^ 2 / 2 = 1 / 2 * (F64.real o.volatility * F64.real o.volatility) := by ring
  have hGb : Box 301 (1 / 2 * (F64.real o.volatility * F64.real o.volatility) * F64.real o.T) := hHb.mul h.T
  have hmu := mu_small (hGb.mono (by norm_num))
  rw [eH] at hG ⊢
  have hH0 := hHb.pos
  generalize 1 / 2 * (F64.real o.volatility * F64.real o.volatility) = H at r3 hG hmu hH0 ⊢
  have hb0 := abs_nonneg (F64.real o.costOfCarry)
  set B := |F64.real o.costOfCarry| + H with hB
  have hB0 : 0 < B := by linarith
  have hBT : H * F64.real o.T ≤ B * F64.real o.T := by gcongr; linarith
  have hG0 : 0 < B * F64.real o.T := by positivity
  have hBtop : B ≤ 2 ^ 300 := by
    have h4 := h.T.1
    have h5 : B * ((2 : ℝ) ^ 100)⁻¹ ≤ 2 ^ 200 := (mul_le_mul_of_nonneg_left h4 hB0.le).trans hG
    rw [mul_inv_le_iff₀ (by positivity), ← pow_add] at h5
    exact h5
  have r3' : |F64.real hv - H| ≤ 2 * (δ * H) := by
    refine r3.trans ?_
    have : 2 * ur * H ≤ δ * H := by gcongr
    linarith
  have hδH : δ * H ≤ 1 / 1000000 * H := by gcongr
  have hδH0 : 0 < δ * H := by positivity
  have e1 : |F64.real o.costOfCarry + F64.real hv| ≤ 11 / 10 * B := by
    rw [show F64.real o.costOfCarry + F64.real hv = F64.real o.costOfCarry + (F64.real hv - H) + H by ring]
    refine (abs_add_le _ _).trans (_root_.add_le_add (abs_add_le _ _) le_rfl |>.trans ?_)
    rw [abs_of_pos hH0]
    linarith
  obtain ⟨s, h4, r4⟩ := addR (a := o.costOfCarry) (b := hv) (top_large (x := B) (hBtop.trans (pow_le_pow_right₀ (by norm_num) (by norm_num)))
    (by linarith))
  have hδB : δ * H ≤ δ * B := by gcongr; linarith
  have huB : ur * |F64.real o.costOfCarry + F64.real hv| ≤ ur * (11 / 10 * B) := by gcongr
  have huB2 : 2 * ur * B ≤ δ * B := by gcongr
  have e2 : |F64.real s - (F64.real o.costOfCarry + H)| ≤ 3 * (δ * B) := by
    rw [show F64.real s - (F64.real o.costOfCarry + H) = (F64.real s - (F64.real o.costOfCarry + F64.real hv)) + (F64.real hv - H) by ring]
    refine (abs_add_le _ _).trans ?_
    have : 0 < δ * B := by positivity
    linarith
  have hδB1 : δ * B ≤ 1 / 1000000 * B := by gcongr
  have e3 : |F64.real s| ≤ 11 / 10 * B := by
    rw [show F64.real s = (F64.real s - (F64.real o.costOfCarry + H)) + (F64.real o.costOfCarry + H) by ring]
    refine (abs_add_le _ _).trans ?_
    have := abs_add_le (F64.real o.costOfCarry) H
    rw [abs_of_pos hH0] at this
    linarith
  have e4 : |F64.real s * F64.real o.T| ≤ 11 / 10 * (B * F64.real o.T) := by
    rw [abs_mul, abs_of_pos hT0]
    have := mul_le_mul_of_nonneg_right e3 hT0.le
    linarith
  obtain ⟨g, h5, r5⟩ := mulR (a := s) (b := o.T) (top_large (x := B * F64.real o.T)
    (hG.trans (pow_le_pow_right₀ (by norm_num) (by norm_num))) (by linarith))
  refine ⟨half, vv, hv, s, g, h1, h2, h3, h4, h5, ?_⟩
  rw [show F64.real g - (F64.real o.costOfCarry + H) * F64.real o.T =
    (F64.real g - F64.real s * F64.real o.T) + (F64.real s - (F64.real o.costOfCarry + H)) * F64.real o.T by ring]
  refine (abs_add_le _ _).trans ?_
  rw [abs_mul (F64.real s - (F64.real o.costOfCarry + H)), abs_of_pos hT0]
  have e5 := mul_le_mul_of_nonneg_right e2 hT0.le
  have e6 := mul_le_mul_of_nonneg_left e4 hu.le
  have e7 : 2 * ur * (B * F64.real o.T) ≤ δ * (B * F64.real o.T) := by gcongr
  have e8 : ur / 4 * (H * F64.real o.T) ≤ ur / 4 * (B * F64.real o.T) := by gcongr
  have e9 : 0 < δ * (B * F64.real o.T) := by positivity
  linarith

/-- `d1`, from its parts. -/
theorem d1_parts {i l g a d W L D G δ u μ : ℝ} (hδ0 : 0 < δ) (hδ1 : δ ≤ 1 / 1000000) (hu0 : 0 < u) (hδu : 2 * u ≤ δ) (hW : 0 < W)
    (hDG : |D| ≤ G) (hi : |i - 1 / W| ≤ 4 * δ * |1 / W|) (hl : |l - L| ≤ δ * |L| + 4 * δ) (hg : |g - D| ≤ 4 * δ * G)
    (ha : |a - (l + g)| ≤ u * |l + g|) (hd : |d - i * a| ≤ u * |i * a| + μ) (hμ : μ ≤ u / 4 * (1 / W)) :
    |l + g| ≤ 11 / 10 * (1 + |L| + G) ∧ |i * a| ≤ 6 / 5 * ((1 + |L| + G) / W) ∧
      |d - (L + D) / W| ≤ 10 * (δ * ((1 + |L| + G) / W)) ∧ |(L + D) / W| ≤ (1 + |L| + G) / W := by
  have hL := abs_nonneg L
  have hG : 0 ≤ G := (abs_nonneg _).trans hDG
  set R := 1 + |L| + G with hR
  have hR0 : 1 ≤ R := by linarith
  have hδR : δ * R ≤ 1 / 1000000 * R := by gcongr
  have hδR0 : 0 < δ * R := by positivity
  have e1 : |l + g - (L + D)| ≤ 4 * (δ * R) := by
    rw [show l + g - (L + D) = (l - L) + (g - D) by ring]
    refine (abs_add_le _ _).trans ?_
    have : 0 ≤ δ * |L| := by positivity
    rw [hR]
    linarith
  have e0 : |L + D| ≤ R := (abs_add_le _ _).trans (by linarith)
  have e2 : |l + g| ≤ 11 / 10 * R := by
    rw [show l + g = (l + g - (L + D)) + (L + D) by ring]
    refine (abs_add_le _ _).trans (by linarith)
  have hu2 : u * |l + g| ≤ u * (11 / 10 * R) := by gcongr
  have huR : 2 * u * R ≤ δ * R := by gcongr
  have e3 : |a - (L + D)| ≤ 5 * (δ * R) := by
    rw [show a - (L + D) = (a - (l + g)) + (l + g - (L + D)) by ring]
    refine (abs_add_le _ _).trans (by linarith)
  have e4 : |a| ≤ 11 / 10 * R := by
    rw [show a = (a - (L + D)) + (L + D) by ring]
    refine (abs_add_le _ _).trans (by linarith)
  have hW' : 0 < 1 / W := by positivity
  rw [abs_of_pos hW'] at hi
  have hiW : |i| ≤ 101 / 100 * (1 / W) := by
    rw [show i = (i - 1 / W) + 1 / W by ring]
    refine (abs_add_le _ _).trans ?_
    rw [abs_of_pos hW']
    have : δ * (1 / W) ≤ 1 / 1000000 * (1 / W) := by gcongr
    linarith
  have eQ : R / W = R * (1 / W) := by ring
  rw [eQ]
  have hQ : 0 < R * (1 / W) := by positivity
  have e5 : |i * a| ≤ 6 / 5 * (R * (1 / W)) := by
    rw [abs_mul]
    have : |i| * |a| ≤ (101 / 100 * (1 / W)) * (11 / 10 * R) := by gcongr
    linarith
  refine ⟨e2, e5, ?_, ?_⟩
  · rw [show d - (L + D) / W = (d - i * a) + i * (a - (L + D)) + (i - 1 / W) * (L + D) by ring]
    refine (abs_add_le _ _).trans (_root_.add_le_add (abs_add_le _ _) le_rfl |>.trans ?_)
    rw [abs_mul i (a - _), abs_mul (i - 1 / W)]
    have f1 : |i| * |a - (L + D)| ≤ (101 / 100 * (1 / W)) * (5 * (δ * R)) := by gcongr
    have f2 : |i - 1 / W| * |L + D| ≤ (4 * δ * (1 / W)) * R := by gcongr
    have f3 : u * |i * a| ≤ u * (6 / 5 * (R * (1 / W))) := by gcongr
    have f4 : u / 4 * (1 / W) ≤ u / 4 * (R * (1 / W)) := by
      have : 1 / W ≤ R * (1 / W) := by nlinarith
      gcongr
    have f5 : 2 * u * (R * (1 / W)) ≤ δ * (R * (1 / W)) := by gcongr
    have f6 : 0 < δ * (R * (1 / W)) := by positivity
    nlinarith
  · rw [show (L + D) / W = (L + D) * (1 / W) by ring, abs_mul, abs_of_pos hW']
    gcongr

/-- The width against the condition number. -/
theorem width_le {o : Contract} (h : Facts o) : o.exact.width ≤ 2 * o.exact.condition := by
  have hW := (width_box h).pos
  have hT := h.T.pos
  unfold Exact.condition
  rw [← mul_div_assoc, le_div_iff₀ hW]
  have : o.exact.width * o.exact.width = o.exact.v ^ 2 * o.exact.T := by
    unfold Exact.width
    have := Real.mul_self_sqrt hT.le
    change o.exact.v * √(F64.real o.T) * (o.exact.v * √(F64.real o.T)) = o.exact.v ^ 2 * F64.real o.T
    calc _ = o.exact.v ^ 2 * (√(F64.real o.T) * √(F64.real o.T)) := by ring
      _ = _ := by rw [this]
  rw [this]
  have h1 : 0 ≤ |o.exact.b| * o.exact.T := mul_nonneg (abs_nonneg _) hT.le
  have h2 := abs_nonneg (log (o.exact.S / o.exact.K))
  nlinarith

theorem condition_bound (hδ : Fine δ) (h : Facts o) (hc : δ * o.exact.condition ≤ 2 ^ (-10 : ℤ)) :
    0 < o.exact.condition ∧ o.exact.condition ≤ 2 ^ 42 ∧
      1 + |log (o.exact.S / o.exact.K)| + (|o.exact.b| + o.exact.v ^ 2 / 2) * o.exact.T ≤ 2 ^ 192 := by
  have hW := width_box h
  have hQ : 0 < o.exact.condition := by
    have := width_le h
    have := hW.pos
    linarith
  have hQb : o.exact.condition ≤ 2 ^ 42 := by
    have h2 : 2 ^ (-52 : ℤ) * o.exact.condition ≤ 2 ^ (-10 : ℤ) := (mul_le_mul_of_nonneg_right hδ.coarse hQ.le).trans hc
    have e : (2 : ℝ) ^ (-10 : ℤ) = 2 ^ (-52 : ℤ) * 2 ^ 42 := by norm_num
    rw [e] at h2
    exact le_of_mul_le_mul_left h2 (by positivity)
  refine ⟨hQ, hQb, ?_⟩
  have h3 := hQb
  unfold Exact.condition at h3
  rw [div_le_iff₀ hW.pos] at h3
  refine h3.trans ((mul_le_mul_of_nonneg_left hW.2 (by positivity)).trans ?_)
  rw [← pow_add]

theorem d_near (hm : m.Accurate δ) (hδ : Fine δ) (h : Facts o) (hc : δ * o.exact.condition ≤ 2 ^ (-10 : ℤ)) :
    ∃ d1 d2, o.d1 m = some d1 ∧ o.d2 m = some d2 ∧ |F64.real d1 - o.exact.d1| ≤ 16 * (δ * o.exact.condition) ∧
      |F64.real d2 - o.exact.d2| ≤ 16 * (δ * o.exact.condition) ∧ |o.exact.d1| ≤ 3 * o.exact.condition ∧
      |o.exact.d2| ≤ 3 * o.exact.condition := by
  have hδ0 := hδ.pos
  have hδ1 := hδ.le
  have hδu := hδ.ur
  have hu := ur_pos
  obtain ⟨hQ0, hQb, hR⟩ := condition_bound hδ h hc
  have hW := width_box h
  have hW0 := hW.pos
  have hWQ := width_le h
  obtain ⟨w, a1, r1⟩ := width_near hm hδ h
  obtain ⟨one, i, a2, a3, r2⟩ := inv_near hδ h r1
  obtain ⟨q, l, a4, a5, r3⟩ := ln_near hm hδ h
  have hL0 := abs_nonneg (log (o.exact.S / o.exact.K))
  have hG : (|F64.real o.costOfCarry| + F64.real o.volatility ^ 2 / 2) * F64.real o.T ≤ 2 ^ 192 := by
    refine le_trans ?_ hR
    change (|o.exact.b| + o.exact.v ^ 2 / 2) * o.exact.T ≤ _
    linarith
  obtain ⟨half, vv, hv, s, g, a6, a7, a8, a9, a10, r4⟩ := drift_near hδ h (hG.trans (pow_le_pow_right₀ (by norm_num) (by norm_num)))
  set L := log (F64.real o.underlyingPrice / F64.real o.strikePrice) with hL
  set D := (F64.real o.costOfCarry + F64.real o.volatility ^ 2 / 2) * F64.real o.T with hD
  set G := (|F64.real o.costOfCarry| + F64.real o.volatility ^ 2 / 2) * F64.real o.T with hGd
  have hDG : |D| ≤ G := by
    rw [hD, hGd, abs_mul, abs_of_pos h.T.pos]
    refine mul_le_mul_of_nonneg_right ((abs_add_le _ _).trans ?_) h.T.pos.le
    rw [abs_of_nonneg (by positivity : 0 ≤ F64.real o.volatility ^ 2 / 2)]
  have hμ : mu ≤ ur / 4 * (1 / o.exact.width) := mu_small ((box_one.div hW).mono (by norm_num))
  have hRd : 1 + |L| + G ≤ 2 ^ 192 := hR
  have hQd : (1 + |L| + G) / o.exact.width = o.exact.condition := rfl
  have hl1 : |F64.real l + F64.real g| ≤ 11 / 10 * (1 + |L| + G) :=
    (d1_parts hδ0 hδ1 hu hδu hW0 hDG r2 r3 r4 (a := F64.real l + F64.real g) (d := F64.real i * (F64.real l + F64.real g)) (by
      rw [sub_self, abs_zero]; positivity) (by rw [sub_self, abs_zero]; have := mu_pos; positivity) hμ).1
  obtain ⟨a, a11, r5⟩ := addR (a := l) (b := g) (top_large (x := 1 + |L| + G) (hRd.trans (pow_le_pow_right₀ (by norm_num) (by norm_num)))
    (by
      have : 0 ≤ 1 + |L| + G := by have := abs_nonneg L; have := (abs_nonneg D).trans hDG; linarith
      linarith))
  have hia : |F64.real i * F64.real a| ≤ 6 / 5 * ((1 + |L| + G) / o.exact.width) :=
    (d1_parts hδ0 hδ1 hu hδu hW0 hDG r2 r3 r4 r5 (d := F64.real i * F64.real a) (by
      rw [sub_self, abs_zero]; have := mu_pos; positivity) hμ).2.1
  obtain ⟨d, a12, r6⟩ := mulR (a := i) (b := a) (top_large (x := (1 + |L| + G) / o.exact.width)
    (by rw [hQd]; exact hQb.trans (pow_le_pow_right₀ (by norm_num) (by norm_num)))
    (by rw [hQd] at hia ⊢; linarith))
  obtain ⟨-, -, r7, r8⟩ := d1_parts hδ0 hδ1 hu hδu hW0 hDG r2 r3 r4 r5 r6 hμ
  have hd1 : (L + D) / o.exact.width = o.exact.d1 := rfl
  rw [hQd, hd1] at r7 r8
  have hδQ : δ * o.exact.condition ≤ 1 / 1000000 * o.exact.condition := by gcongr
  have hδQ0 : 0 < δ * o.exact.condition := by positivity
  have hδW : δ * o.exact.width ≤ 2 * (δ * o.exact.condition) := by
    have := mul_le_mul_of_nonneg_left hWQ hδ0.le
    linarith
  rw [abs_of_pos hW0] at r1
  have e1 : |F64.real d - F64.real w - o.exact.d2| ≤ 14 * (δ * o.exact.condition) := by
    rw [show F64.real d - F64.real w - o.exact.d2 = (F64.real d - o.exact.d1) - (F64.real w - o.exact.width) by unfold Exact.d2; ring]
    refine (abs_sub _ _).trans (by linarith)
  have e2 : |o.exact.d2| ≤ 3 * o.exact.condition := by
    unfold Exact.d2
    refine (abs_sub _ _).trans ?_
    rw [abs_of_pos hW0]
    linarith
  have e3 : |F64.real d - F64.real w| ≤ 31 / 10 * o.exact.condition := by
    rw [show F64.real d - F64.real w = (F64.real d - F64.real w - o.exact.d2) + o.exact.d2 by ring]
    refine (abs_add_le _ _).trans (by linarith)
  obtain ⟨d', a13, r9⟩ := subR (a := d) (b := w) (top_large (x := o.exact.condition) (hQb.trans (pow_le_pow_right₀ (by norm_num) (by norm_num)))
    (by linarith))
  have b1 : o.d1 m = some d := by
    simp only [Contract.d1, a1, a2, a3, a4, a5, a6, a7, a8, a9, a10, a11, a12, Option.bind_eq_bind, Option.bind_some]
  refine ⟨d, d', b1, ?_, by linarith, ?_, by linarith, e2⟩
  · simp only [Contract.d2, b1, a1, a13, Option.bind_eq_bind, Option.bind_some]
  · rw [show F64.real d' - o.exact.d2 = (F64.real d' - (F64.real d - F64.real w)) + (F64.real d - F64.real w - o.exact.d2) by ring]
    refine (abs_add_le _ _).trans ?_
    have := mul_le_mul_of_nonneg_left e3 hu.le
    have : 2 * ur * o.exact.condition ≤ δ * o.exact.condition := by gcongr
    linarith

/-- A discount factor times a price. -/
theorem factor_near (hδ : Fine δ) {s z : F64} {Y E : ℝ} (hE0 : 0 ≤ E) (hE : E ≤ 300) (hY : |Y| ≤ 300) (hs : Box 200 |F64.real s|)
    (hz : |F64.real z - exp Y| ≤ δ * (2 + 3 * E) * exp Y) :
    ∃ f, s.mul z = some f ∧ |F64.real f - F64.real s * exp Y| ≤ δ * (3 + 3 * E) * |F64.real s * exp Y| := by
  have hδ0 := hδ.pos
  have hδ1 := hδ.le
  have hδu := hδ.ur
  have hb : Box 800 |F64.real s * exp Y| := by rw [abs_mul, abs_of_pos (exp_pos Y)]; exact hs.mul (exp_box hY)
  have hδE : δ * E ≤ 1 / 1000000 * E := by gcongr
  have hδE0 : 0 ≤ δ * E := by positivity
  obtain ⟨f, h1, r1⟩ := mulN (a := s) (b := z) (A := F64.real s) (B := exp Y) (α := 0) (β := δ * (2 + 3 * E)) (rel_self _)
    (by rw [abs_of_pos (exp_pos Y)]; exact hz) le_rfl (by norm_num) (by positivity) (by linarith) (hb.mono (by norm_num))
  refine ⟨f, h1, r1.trans (mul_le_mul_of_nonneg_right ?_ (abs_nonneg _))⟩
  linarith

/-- One of the two terms of the price. -/
theorem term_near (hm : m.Accurate δ) (hδ : Fine δ) {s z d : F64} {Y E X Q : ℝ} (hE0 : 0 ≤ E) (hE : E ≤ 300) (hY : |Y| ≤ 300)
    (hs : Box 200 |F64.real s|) (hz : |F64.real z - exp Y| ≤ δ * (2 + 3 * E) * exp Y) (hQ : 0 ≤ Q) (hQ1 : δ * Q ≤ 2 ^ (-10 : ℤ))
    (hX : |X| ≤ 3 * Q) (hd : |F64.real d - X| ≤ 16 * (δ * Q)) :
    ∃ f c p, s.mul z = some f ∧ cdf m d = some c ∧ f.mul c = some p ∧
      |F64.real p - F64.real s * exp Y * Phi X| ≤ δ * (7 + 4 * E + 13 * Q) * |F64.real s * exp Y| ∧
      |F64.real p| ≤ 3 / 2 * |F64.real s * exp Y| := by
  have hδ0 := hδ.pos
  have hδ1 := hδ.le
  have hδu := hδ.ur
  obtain ⟨f, h1, r1⟩ := factor_near hδ hE0 hE hY hs hz
  obtain ⟨c, h2, r2⟩ := cdf_at hm hδ hQ hQ1 hX hd
  have hb : Box 800 |F64.real s * exp Y| := by rw [abs_mul, abs_of_pos (exp_pos Y)]; exact hs.mul (exp_box hY)
  have hF := hb.pos
  have hδE : δ * E ≤ 1 / 1000000 * E := by gcongr
  have hδE0 : 0 ≤ δ * E := by positivity
  have hδQ0 : 0 ≤ δ * Q := by positivity
  have hQ2 : δ * Q ≤ 1 / 1024 := hQ1.trans (by norm_num)
  have hP := Phi_mem X
  have hP1 : |Phi X| ≤ 1 := by rw [abs_of_pos hP.1]; exact hP.2.le
  obtain ⟨p, h3, r3⟩ := term (f := f) (c := c) (hb.mono (by norm_num)) r1 (by positivity) (by linarith) r2 (by linarith) hP1
  have e1 : |F64.real p - F64.real s * exp Y * Phi X| ≤ δ * (7 + 4 * E + 13 * Q) * |F64.real s * exp Y| := by
    refine r3.trans (mul_le_mul_of_nonneg_right ?_ hF.le)
    linarith
  refine ⟨f, c, p, h1, h2, h3, e1, ?_⟩
  rw [show F64.real p = (F64.real p - F64.real s * exp Y * Phi X) + F64.real s * exp Y * Phi X by ring]
  refine (abs_add_le _ _).trans ?_
  rw [abs_mul (F64.real s * exp Y)]
  have e2 : |F64.real s * exp Y| * |Phi X| ≤ |F64.real s * exp Y| * 1 := by gcongr
  have e3 : δ * (7 + 4 * E + 13 * Q) * |F64.real s * exp Y| ≤ 1 / 2 * |F64.real s * exp Y| :=
    mul_le_mul_of_nonneg_right (by linarith) hF.le
  linarith

theorem carry_near (hm : m.Accurate δ) (hδ : Fine δ) (h : Facts o) (he : o.exact.exponents ≤ 300) :
    ∃ z, o.carry m = some z ∧ |(o.exact.b - o.exact.r) * o.exact.T| ≤ 300 ∧
      |F64.real z - exp ((o.exact.b - o.exact.r) * o.exact.T)| ≤
        δ * (2 + 3 * o.exact.exponents) * exp ((o.exact.b - o.exact.r) * o.exact.T) := by
  have hT := h.T.pos
  have hE : |F64.real o.costOfCarry - F64.real o.riskFreeRate| * F64.real o.T ≤ o.exact.exponents :=
    mul_le_mul_of_nonneg_right (abs_sub _ _) hT.le
  have hb1 : |F64.real o.costOfCarry - F64.real o.riskFreeRate| ≤ 2 ^ 200 := by
    have h2 : |F64.real o.costOfCarry - F64.real o.riskFreeRate| * ((2 : ℝ) ^ 100)⁻¹ ≤ 2 ^ 100 :=
      (mul_le_mul_of_nonneg_left h.T.1 (abs_nonneg _)).trans ((hE.trans he).trans (by norm_num))
    rw [mul_inv_le_iff₀ (by positivity), ← pow_add] at h2
    exact h2
  obtain ⟨d, h1, r1⟩ := subR (a := o.costOfCarry) (b := o.riskFreeRate) (top_of 200 (by norm_num) hb1)
  obtain ⟨y, z, h2, h3, r3⟩ := expo hm hδ r1 hT.le hE he
  refine ⟨z, ?_, ?_, r3⟩
  · simp only [Contract.carry, h1, h2, h3, Option.bind_eq_bind, Option.bind_some]
  · rw [abs_mul, abs_of_pos (show 0 < o.exact.T from hT)]
    exact hE.trans he

theorem discount_near (hm : m.Accurate δ) (hδ : Fine δ) (h : Facts o) (he : o.exact.exponents ≤ 300) :
    ∃ z, o.discount m = some z ∧ |-o.exact.r * o.exact.T| ≤ 300 ∧
      |F64.real z - exp (-o.exact.r * o.exact.T)| ≤ δ * (2 + 3 * o.exact.exponents) * exp (-o.exact.r * o.exact.T) := by
  have hT := h.T.pos
  have hE : |-F64.real o.riskFreeRate| * F64.real o.T ≤ o.exact.exponents := by
    refine mul_le_mul_of_nonneg_right ?_ hT.le
    rw [abs_neg]
    exact le_add_of_nonneg_left (abs_nonneg _)
  have hu := ur_pos
  obtain ⟨y, z, h2, h3, r3⟩ := expo hm hδ (d := neg o.riskFreeRate) (D := -F64.real o.riskFreeRate)
    (by rw [real_neg, sub_self, abs_zero]; positivity) hT.le hE he
  refine ⟨z, ?_, ?_, r3⟩
  · simp only [Contract.discount, h2, h3, Option.bind_eq_bind, Option.bind_some]
  · rw [abs_mul, abs_of_pos (show 0 < o.exact.T from hT)]
    exact hE.trans he

theorem exponents_nonneg (h : Facts o) : 0 ≤ o.exact.exponents :=
  mul_nonneg (add_nonneg (abs_nonneg _) (abs_nonneg _)) h.T.pos.le

/-- The last addition or subtraction. -/
theorem combine {x y p X Y F C κ δ u : ℝ} (hu : 0 < u) (hδu : 2 * u ≤ δ) (hF : 0 < F) (hC : 0 < C) (hx : |x - X| ≤ κ * F)
    (hy : |y - Y| ≤ κ * C) (hx1 : |x| ≤ 3 / 2 * F) (hy1 : |y| ≤ 3 / 2 * C) (hp : |p - (x + y)| ≤ u * |x + y|) :
    |p - (X + Y)| ≤ (κ + δ) * (F + C) := by
  have e1 : |x + y| ≤ 3 / 2 * (F + C) := (abs_add_le _ _).trans (by linarith)
  rw [show p - (X + Y) = (p - (x + y)) + (x - X) + (y - Y) by ring]
  refine (abs_add_le _ _).trans (_root_.add_le_add (abs_add_le _ _) le_rfl |>.trans ?_)
  have e2 : u * |x + y| ≤ u * (3 / 2 * (F + C)) := by gcongr
  have e3 : 2 * u * (F + C) ≤ δ * (F + C) := by gcongr
  have e4 : 0 < u * (F + C) := by positivity
  linarith

end

end Verif.Float.Bsm
