import Verif.Float.MomentsSpec
import Verif.Float.CorrelationProps

/-! Helper lemmas: rounded products and quotients of numbers known with a relative and an absolute error. -/

namespace Verif.Float.Corr
open Verif.Float Verif.Float.Fft Verif.Float.Sim Verif.Float.Bsm

/-- The double `x` is the number `X`, with relative error `ρ` and absolute error `τ`. -/
def Near (x : F64) (X ρ τ : ℝ) : Prop := |F64.real x - X| ≤ ρ * |X| + τ

theorem near_self (x : F64) : Near x (F64.real x) 0 0 := by unfold Near; simp

theorem near_mono {x : F64} {X ρ τ ρ' τ' : ℝ} (h : Near x X ρ τ) (h1 : ρ ≤ ρ') (h2 : τ ≤ τ') : Near x X ρ' τ' := by
  unfold Near at h ⊢
  have := mul_le_mul_of_nonneg_right h1 (abs_nonneg X)
  linarith

theorem near_abs {x : F64} {X ρ τ : ℝ} (h : Near x X ρ τ) : |F64.real x| ≤ (1 + ρ) * |X| + τ := by
  unfold Near at h
  have := abs_sub_abs_le_abs_sub (F64.real x) X
  linarith

theorem prod_bound {x y X Y ρ₁ ρ₂ τ₁ τ₂ K : ℝ} (h1 : 0 ≤ ρ₁) (h1' : ρ₁ ≤ 1 / 8) (_h2 : 0 ≤ ρ₂) (h2' : ρ₂ ≤ 1 / 8)
    (t1 : 0 ≤ τ₁) (t1' : τ₁ ≤ 1) (t2 : 0 ≤ τ₂) (hK : 1 ≤ K) (hX : |X| ≤ K) (hY : |Y| ≤ K)
    (hx : |x - X| ≤ ρ₁ * |X| + τ₁) (hy : |y - Y| ≤ ρ₂ * |Y| + τ₂) :
    |x * y - X * Y| ≤ (ρ₁ + ρ₂ + ρ₁ * ρ₂) * |X * Y| + 5 / 2 * K * (τ₁ + τ₂) := by
  have hya : |y| ≤ (1 + ρ₂) * |Y| + τ₂ := by
    have := abs_sub_abs_le_abs_sub y Y
    linarith
  have e : x * y - X * Y = (x - X) * y + X * (y - Y) := by ring
  have a0 := abs_nonneg X
  have b0 := abs_nonneg Y
  rw [e, abs_mul X Y]
  refine (abs_add_le _ _).trans ?_
  rw [abs_mul, abs_mul]
  have p1 : |x - X| * |y| ≤ (ρ₁ * |X| + τ₁) * ((1 + ρ₂) * |Y| + τ₂) := mul_le_mul hx hya (abs_nonneg _) (by positivity)
  have p2 : |X| * |y - Y| ≤ |X| * (ρ₂ * |Y| + τ₂) := mul_le_mul_of_nonneg_left hy a0
  have p3 : |X| * τ₂ ≤ K * τ₂ := mul_le_mul_of_nonneg_right hX t2
  have p4 : |Y| * τ₁ ≤ K * τ₁ := mul_le_mul_of_nonneg_right hY t1
  have p5 : τ₁ * τ₂ ≤ 1 * τ₂ := mul_le_mul_of_nonneg_right t1' t2
  have p6 : 1 * τ₂ ≤ K * τ₂ := mul_le_mul_of_nonneg_right hK t2
  have p7 : ρ₁ * (|X| * τ₂) ≤ 1 / 8 * (K * τ₂) := mul_le_mul h1' p3 (by positivity) (by norm_num)
  have p8 : ρ₂ * (|Y| * τ₁) ≤ 1 / 8 * (K * τ₁) := mul_le_mul h2' p4 (by positivity) (by norm_num)
  have p9 : 0 ≤ K * τ₁ := by positivity
  have p10 : 0 ≤ K * τ₂ := by positivity
  nlinarith

theorem mulNear {x y : F64} {X Y ρ₁ ρ₂ τ₁ τ₂ : ℝ} (h1 : 0 ≤ ρ₁) (h1' : ρ₁ ≤ 1 / 8) (h2 : 0 ≤ ρ₂) (h2' : ρ₂ ≤ 1 / 8)
    (t1 : 0 ≤ τ₁) (t1' : τ₁ ≤ 1) (t2 : 0 ≤ τ₂) (t2' : τ₂ ≤ 1) (hX : |X| ≤ 2 ^ 125) (hY : |Y| ≤ 2 ^ 125)
    (hx : Near x X ρ₁ τ₁) (hy : Near y Y ρ₂ τ₂) :
    ∃ p, x.mul y = some p ∧ Near p (X * Y) (ρ₁ + ρ₂ + ρ₁ * ρ₂ + 2 * ur) (2 ^ 127 * (τ₁ + τ₂) + mu) := by
  have hu := ur_pos
  have hu1 := ur_small
  have hm := mu_pos
  have hb := prod_bound h1 h1' h2 h2' t1 t1' t2 (one_le_pow₀ (by norm_num)) hX hY hx hy
  have hρ : ρ₁ + ρ₂ + ρ₁ * ρ₂ ≤ 1 / 2 := by nlinarith
  have ha : |F64.real x * F64.real y| ≤ 3 / 2 * |X * Y| + 5 / 2 * 2 ^ 125 * (τ₁ + τ₂) := by
    have h3 := abs_sub_abs_le_abs_sub (F64.real x * F64.real y) (X * Y)
    have h4 := mul_le_mul_of_nonneg_right hρ (abs_nonneg (X * Y))
    linarith
  have hs : |X * Y| ≤ 2 ^ 250 := by
    rw [abs_mul]
    calc |X| * |Y| ≤ 2 ^ 125 * 2 ^ 125 := mul_le_mul hX hY (abs_nonneg _) (by positivity)
      _ = 2 ^ 250 := by rw [← pow_add]
  obtain ⟨p, hp, hpe⟩ := mulR (a := x) (b := y) (top_of' (k := 252) (by norm_num) (ha.trans (by
    have e1 : (2 : ℝ) ^ 252 = 2 ^ 250 * 4 := by rw [show (252 : ℕ) = 250 + 2 by norm_num, pow_add]; norm_num
    have e2 : (2 : ℝ) ^ 250 = 2 ^ 125 * 2 ^ 125 := by rw [← pow_add]
    have e3 : (32 : ℝ) ≤ 2 ^ 125 := by norm_num
    rw [e1]
    generalize (2 : ℝ) ^ 250 = A at *
    generalize (2 : ℝ) ^ 125 = B at *
    nlinarith)))
  refine ⟨p, hp, ?_⟩
  unfold Near
  rw [show F64.real p - X * Y = (F64.real p - F64.real x * F64.real y) + (F64.real x * F64.real y - X * Y) by ring]
  refine (abs_add_le _ _).trans ?_
  have h5 := mul_le_mul_of_nonneg_left ha hu.le
  have h6 : 0 ≤ |X * Y| := abs_nonneg _
  have h7 : ur * (5 / 2 * 2 ^ 125 * (τ₁ + τ₂)) ≤ 1 * (2 ^ 125 * (τ₁ + τ₂)) := by
    have h9 : (0 : ℝ) ≤ 2 ^ 125 * (τ₁ + τ₂) := mul_nonneg (pow_nonneg (by norm_num) _) (_root_.add_nonneg t1 t2)
    have h10 := mul_le_mul_of_nonneg_right hu1 h9
    clear hs ha h5
    linarith
  have h8 : 0 ≤ ur * |X * Y| := by positivity
  clear hs ha
  linarith

theorem divNear {p q : F64} {P Q ρ τ κ : ℝ} (h1 : 0 ≤ ρ) (h1' : ρ ≤ 1 / 8) (t1 : 0 ≤ τ) (t1' : τ ≤ 1) (k0 : 0 ≤ κ) (k1 : κ ≤ 1 / 8)
    (hP : |P| ≤ 2 ^ 250) (hQ : 1 ≤ Q) (hp : Near p P ρ τ) (hq : Near q Q κ 0) :
    ∃ r, p.div q = some r ∧ Near r (P / Q) (8 / 7 * (ρ + κ) + 2 * ur) (2 * τ + mu) := by
  have hu := ur_pos
  have hu1 := ur_small
  have hm := mu_pos
  have hQ0 : 0 < Q := by linarith
  unfold Near at hq
  rw [_root_.add_zero, abs_of_pos hQ0] at hq
  have hq1 : 7 / 8 * Q ≤ F64.real q := by
    have h3 := (abs_le.1 hq).1
    have h4 := mul_le_mul_of_nonneg_right k1 hQ0.le
    linarith
  have hq0 : 0 < F64.real q := by linarith
  have e : F64.real p / F64.real q - P / Q = (F64.real p - P) / F64.real q + P / Q * ((Q - F64.real q) / F64.real q) := by
    field_simp
    ring
  have b0 : 0 ≤ |P / Q| := abs_nonneg _
  have hPQ : |P| = |P / Q| * Q := by rw [abs_div, abs_of_pos hQ0, div_mul_cancel₀ _ hQ0.ne']
  have d1 : |(F64.real p - P) / F64.real q| ≤ 8 / 7 * (ρ * |P / Q| + τ) := by
    rw [abs_div, abs_of_pos hq0, div_le_iff₀ hq0]
    unfold Near at hp
    refine hp.trans ?_
    have h5 : (ρ * |P / Q| + τ) * (7 / 8 * Q) ≤ (ρ * |P / Q| + τ) * F64.real q := mul_le_mul_of_nonneg_left hq1 (by positivity)
    have h6 : τ * 1 ≤ τ * Q := mul_le_mul_of_nonneg_left hQ t1
    rw [hPQ]
    linarith
  have d2 : |P / Q * ((Q - F64.real q) / F64.real q)| ≤ 8 / 7 * (κ * |P / Q|) := by
    rw [abs_mul, abs_div (Q - _), abs_of_pos hq0, abs_sub_comm]
    have h5 : |F64.real q - Q| / F64.real q ≤ 8 / 7 * κ := by
      rw [div_le_iff₀ hq0]
      have := mul_le_mul_of_nonneg_left hq1 k0
      linarith
    have := mul_le_mul_of_nonneg_left h5 b0
    linarith
  have hb : |F64.real p / F64.real q - P / Q| ≤ 8 / 7 * (ρ + κ) * |P / Q| + 8 / 7 * τ := by
    rw [e]
    refine (abs_add_le _ _).trans ?_
    linarith
  have ha : |F64.real p / F64.real q| ≤ 3 / 2 * |P / Q| + 8 / 7 * τ := by
    have h3 := abs_sub_abs_le_abs_sub (F64.real p / F64.real q) (P / Q)
    have h4 : 8 / 7 * (ρ + κ) * |P / Q| ≤ 1 / 2 * |P / Q| := mul_le_mul_of_nonneg_right (by linarith) b0
    linarith
  have hs : |P / Q| ≤ 2 ^ 250 := by
    rw [abs_div, abs_of_pos hQ0]
    exact (div_le_self (abs_nonneg _) hQ).trans hP
  obtain ⟨r, hr, hre⟩ := divR (a := p) (b := q) hq0.ne' (top_of' (k := 252) (by norm_num) (ha.trans (by linarith)))
  refine ⟨r, hr, ?_⟩
  unfold Near
  rw [show F64.real r - P / Q = (F64.real r - F64.real p / F64.real q) + (F64.real p / F64.real q - P / Q) by ring]
  refine (abs_add_le _ _).trans ?_
  have h5 := mul_le_mul_of_nonneg_left ha hu.le
  have h7 : ur * (8 / 7 * τ) ≤ 1 / 2 * τ := by nlinarith
  have h8 : 0 ≤ ur * |P / Q| := by positivity
  clear hs ha
  linarith

/-- Standardising one deviation. -/
theorem standard_near {d σ : F64} {a γ w : ℝ} (ha : 0 < a) (g0 : 0 ≤ γ) (g1 : γ ≤ 1 / 8) (hσ : |F64.real σ - a| ≤ γ * a)
    (hw : F64.real d / a = w) (hw1 : |w| ≤ 2 ^ 20) :
    ∃ z, d.div σ = some z ∧ Near z w (8 / 7 * γ + 2 * ur) mu := by
  have hu := ur_pos
  have hu1 := ur_small
  have hm := mu_pos
  have hq1 : 7 / 8 * a ≤ F64.real σ := by
    have h3 := (abs_le.1 hσ).1
    have h4 := mul_le_mul_of_nonneg_right g1 ha.le
    linarith
  have hq0 : 0 < F64.real σ := by linarith
  have b0 := abs_nonneg w
  have e : F64.real d / F64.real σ - w = w * ((a - F64.real σ) / F64.real σ) := by
    rw [← hw]
    field_simp
  have hb : |F64.real d / F64.real σ - w| ≤ 8 / 7 * γ * |w| := by
    rw [e, abs_mul, abs_div (a - _), abs_of_pos hq0, abs_sub_comm]
    have h5 : |F64.real σ - a| / F64.real σ ≤ 8 / 7 * γ := by
      rw [div_le_iff₀ hq0]
      have := mul_le_mul_of_nonneg_left hq1 g0
      linarith
    have := mul_le_mul_of_nonneg_left h5 b0
    linarith
  have h4 : 8 / 7 * γ * |w| ≤ 1 / 2 * |w| := mul_le_mul_of_nonneg_right (by linarith) b0
  have hA : |F64.real d / F64.real σ| ≤ 3 / 2 * |w| := by
    have h3 := abs_sub_abs_le_abs_sub (F64.real d / F64.real σ) w
    linarith
  obtain ⟨r, hr, hre⟩ := divR (a := d) (b := σ) hq0.ne' (top_of' (k := 22) (by norm_num) (hA.trans (by linarith)))
  refine ⟨r, hr, ?_⟩
  unfold Near
  rw [show F64.real r - w = (F64.real r - F64.real d / F64.real σ) + (F64.real d / F64.real σ - w) by ring]
  refine (abs_add_le _ _).trans ?_
  have h5 := mul_le_mul_of_nonneg_left hA hu.le
  have h8 : 0 ≤ ur * |w| := by positivity
  linarith

theorem mu_scale (k : ℕ) (e : ℤ) (h : (k : ℤ) - 1075 ≤ e) : (2 : ℝ) ^ k * mu ≤ 2 ^ e := by
  unfold mu
  rw [← zpow_natCast, ← zpow_add₀ (by norm_num)]
  exact zpow_le_zpow_right₀ (by norm_num) (by linarith)

theorem pow_size {w : ℝ} (h : |w| ≤ 2 ^ 20) (k : ℕ) (hk : k ≤ 6) : |w ^ k| ≤ 2 ^ 125 := by
  rw [abs_pow]
  calc |w| ^ k ≤ (2 ^ 20) ^ k := pow_le_pow_left₀ (abs_nonneg _) h k
    _ = 2 ^ (20 * k) := by rw [← pow_mul]
    _ ≤ 2 ^ 125 := pow_le_pow_right₀ (by norm_num) (by omega)

/-- The absolute error of a rounded power. -/
noncomputable def tau : ℝ := 2 ^ (-800 : ℤ)

theorem square_near {z : F64} {w θ : ℝ} (h0 : 0 ≤ θ) (h1 : θ ≤ 1 / 100) (hw : |w| ≤ 2 ^ 20) (hz : Near z w θ mu) :
    ∃ y, z.mul z = some y ∧ Near y (w ^ 2) (2 * θ + θ * θ + 2 * ur) (2 ^ 129 * mu) := by
  have hm := mu_pos
  have hm1 := mu_le
  have hu1 := ur_small
  have hws : |w| ≤ 2 ^ 125 := by simpa using pow_size hw 1 (by norm_num)
  obtain ⟨y, hy, hye⟩ := mulNear h0 (by linarith) h0 (by linarith) hm.le (by linarith) hm.le (by linarith) hws hws hz hz
  refine ⟨y, hy, ?_⟩
  rw [pow_two]
  refine near_mono hye (by linarith) ?_
  linarith

theorem cube_near {z : F64} {w θ : ℝ} (h0 : 0 ≤ θ) (h1 : θ ≤ 1 / 100) (hw : |w| ≤ 2 ^ 20) (hz : Near z w θ mu) :
    ∃ c, cube z = some c ∧ Near c (w ^ 3) (16 / 5 * θ + 5 * ur) tau := by
  have hu := ur_pos
  have hu1 := ur_small
  have hm := mu_pos
  have hm1 := mu_le
  obtain ⟨y, hy, hye⟩ := square_near h0 h1 hw hz
  have hws : |w| ≤ 2 ^ 125 := by simpa using pow_size hw 1 (by norm_num)
  have ht : (2 : ℝ) ^ 129 * mu ≤ 1 := (mu_scale 129 0 (by norm_num)).trans (by norm_num)
  have hθ : θ * θ ≤ 1 / 100 * θ := mul_le_mul_of_nonneg_right h1 h0
  obtain ⟨c, hc, hce⟩ := mulNear h0 (by linarith) (by positivity) (by linarith) hm.le (by linarith) (by positivity) ht hws
    (pow_size hw 2 (by norm_num)) hz hye
  refine ⟨c, by unfold cube; rw [hy]; exact hc, ?_⟩
  rw [show w ^ 3 = w * w ^ 2 by ring]
  have huθ : ur * θ ≤ 1 / 1000000 * θ := mul_le_mul_of_nonneg_right hu1 h0
  have hθ3 : θ * (θ * θ) ≤ 1 / 100 * (1 / 100 * θ) := mul_le_mul h1 hθ (by positivity) (by norm_num)
  refine near_mono hce (by linarith) ?_
  have h5 := mu_scale 258 (-800) (by norm_num)
  unfold tau
  refine le_trans ?_ h5
  rw [show (2 : ℝ) ^ 258 = 2 ^ 127 * 2 ^ 131 by rw [← pow_add]]
  clear h5
  norm_num
  linarith

theorem fourth_near {z : F64} {w θ : ℝ} (h0 : 0 ≤ θ) (h1 : θ ≤ 1 / 100) (hw : |w| ≤ 2 ^ 20) (hz : Near z w θ mu) :
    ∃ c, fourth z = some c ∧ Near c (w ^ 4) (22 / 5 * θ + 7 * ur) tau := by
  have hu := ur_pos
  have hu1 := ur_small
  have hm := mu_pos
  obtain ⟨y, hy, hye⟩ := square_near h0 h1 hw hz
  have ht : (2 : ℝ) ^ 129 * mu ≤ 1 := (mu_scale 129 0 (by norm_num)).trans (by norm_num)
  have hθ : θ * θ ≤ 1 / 100 * θ := mul_le_mul_of_nonneg_right h1 h0
  have hρ : 2 * θ + θ * θ + 2 * ur ≤ 201 / 100 * θ + 2 * ur := by linarith
  have hye' := near_mono hye hρ le_rfl
  have h2 := pow_size hw 2 (by norm_num)
  obtain ⟨c, hc, hce⟩ := mulNear (by positivity) (by linarith) (by positivity) (by linarith) (by positivity) ht (by positivity) ht
    h2 h2 hye' hye'
  refine ⟨c, by unfold fourth; rw [hy]; exact hc, ?_⟩
  rw [show w ^ 4 = w ^ 2 * w ^ 2 by ring]
  have huθ : ur * θ ≤ 1 / 1000000 * θ := mul_le_mul_of_nonneg_right hu1 h0
  have huu : ur * ur ≤ 1 / 1000000 * ur := mul_le_mul_of_nonneg_right hu1 hu.le
  refine near_mono hce (by linarith) ?_
  have h5 := mu_scale 258 (-800) (by norm_num)
  unfold tau
  refine le_trans ?_ h5
  rw [show (2 : ℝ) ^ 258 = 2 ^ 127 * 2 ^ 131 by rw [← pow_add]]
  clear h5
  norm_num
  linarith

end Verif.Float.Corr
