import Verif.Float.NelsonSiegelSpec
import Verif.Float.LawsLemmas
import Verif.Float.BlackScholesTerms

/-! Helper lemmas: the rounded Nelson-Siegel-Svensson formulas, term by term. -/

namespace Verif.Float.Curves

open X64 Nan Verif.Float.Sim Verif.Float.Bsm Verif.Float.Laws Verif.Time
open Verif.Float.Fft (ur mu top ur_pos mu_pos ur_le)
open Verif.Stochastics (years years_pos)

/-- `x` is a finite number within `e` of `A`. -/
def Near (x : X64) (A e : ℝ) : Prop := ∃ r : F64, x = fin r ∧ |F64.real r - A| ≤ e

theorem Near.mono {x : X64} {A e f : ℝ} (h : Near x A e) (hf : e ≤ f) : Near x A f := by
  obtain ⟨r, h1, h2⟩ := h
  exact ⟨r, h1, h2.trans hf⟩

theorem Near.nonneg {x : X64} {A e : ℝ} (h : Near x A e) : 0 ≤ e := by
  obtain ⟨r, -, h2⟩ := h
  exact (abs_nonneg _).trans h2

theorem near_fin (a : F64) : Near (fin a) (F64.real a) 0 := ⟨a, rfl, by simp⟩

theorem size_le {r A e : ℝ} (h : |r - A| ≤ e) : |r| ≤ |A| + e := by
  have : |r| ≤ |r - A| + |A| := by
    calc |r| = |(r - A) + A| := by rw [sub_add_cancel]
      _ ≤ _ := abs_add_le _ _
  linarith

theorem Near.neg {x : X64} {A e : ℝ} (h : Near x A e) : Near x.neg (-A) e := by
  obtain ⟨r, rfl, h2⟩ := h
  refine ⟨Bsm.neg r, neg_of r, ?_⟩
  rw [real_neg, show -F64.real r - -A = -(F64.real r - A) by ring, abs_neg]
  exact h2

theorem Near.add {x y : X64} {A B e f : ℝ} (hx : Near x A e) (hy : Near y B f) (h : |A + B| + (e + f) ≤ top) :
    Near (x.add y) (A + B) (e + f + ur * (|A + B| + (e + f))) := by
  obtain ⟨a, rfl, ha⟩ := hx
  obtain ⟨b, rfl, hb⟩ := hy
  have h1 : |F64.real a + F64.real b - (A + B)| ≤ e + f := by
    rw [show F64.real a + F64.real b - (A + B) = (F64.real a - A) + (F64.real b - B) by ring]
    exact (abs_add_le _ _).trans (_root_.add_le_add ha hb)
  have h2 := size_le h1
  obtain ⟨r, r1, r2⟩ := addR (a := a) (b := b) (h2.trans h)
  refine ⟨r, fin_of r1, ?_⟩
  rw [show F64.real r - (A + B) = (F64.real r - (F64.real a + F64.real b)) + (F64.real a + F64.real b - (A + B)) by ring]
  refine (abs_add_le _ _).trans ?_
  have := mul_le_mul_of_nonneg_left h2 ur_pos.le
  linarith

theorem Near.sub {x y : X64} {A B e f : ℝ} (hx : Near x A e) (hy : Near y B f) (h : |A - B| + (e + f) ≤ top) :
    Near (x.sub y) (A - B) (e + f + ur * (|A - B| + (e + f))) := by
  have := hx.add hy.neg
  rw [← sub_eq_add_neg] at this
  exact this h

theorem Near.mul {x y : X64} {A B e f E : ℝ} (hx : Near x A e) (hy : Near y B f) (hE : |A| * f + |B| * e + e * f ≤ E)
    (h : |A * B| + E ≤ top) : Near (x.mul y) (A * B) (E + ur * (|A * B| + E) + mu) := by
  obtain ⟨a, rfl, ha⟩ := hx
  obtain ⟨b, rfl, hb⟩ := hy
  have h1 : |F64.real a * F64.real b - A * B| ≤ E := by
    rw [show F64.real a * F64.real b - A * B = (F64.real a - A) * (F64.real b - B) + (F64.real a - A) * B + A * (F64.real b - B) by ring]
    refine (abs_add_le _ _).trans (_root_.add_le_add ((abs_add_le _ _).trans le_rfl) le_rfl |>.trans ?_)
    rw [abs_mul, abs_mul, abs_mul]
    have h1 : |F64.real a - A| * |F64.real b - B| ≤ e * f := by gcongr; exact (abs_nonneg _).trans ha
    have h2 : |F64.real a - A| * |B| ≤ e * |B| := by gcongr
    have h3 : |A| * |F64.real b - B| ≤ |A| * f := by gcongr
    linarith
  have h2 := size_le h1
  obtain ⟨r, r1, r2⟩ := mulR (a := a) (b := b) (h2.trans h)
  refine ⟨r, fin_of r1, ?_⟩
  rw [show F64.real r - A * B = (F64.real r - F64.real a * F64.real b) + (F64.real a * F64.real b - A * B) by ring]
  refine (abs_add_le _ _).trans ?_
  have := mul_le_mul_of_nonneg_left h2 ur_pos.le
  linarith

/-- Division by a number known up to a relative error `δ`. -/
theorem Near.div {x y : X64} {A B e δ E : ℝ} (hx : Near x A e) (hB : 0 < B) (hδ : δ ≤ 1 / 8) (hy : Near y B (δ * B))
    (hE : 8 / 7 * (e / B + δ * (|A| / B)) ≤ E) (h : |A / B| + E ≤ top) : Near (x.div y) (A / B) (E + ur * (|A / B| + E) + mu) := by
  obtain ⟨a, rfl, ha⟩ := hx
  obtain ⟨b, rfl, hb⟩ := hy
  have hb2 : 7 / 8 * B ≤ F64.real b := by
    have := (abs_le.1 hb).1
    nlinarith
  have hb0 : 0 < F64.real b := lt_of_lt_of_le (by positivity) hb2
  have h1 : |F64.real a / F64.real b - A / B| ≤ E := by
    refine le_trans ?_ hE
    rw [show F64.real a / F64.real b - A / B = ((F64.real a - A) * B - A * (F64.real b - B)) / (F64.real b * B) by field_simp; ring,
      abs_div, abs_mul, abs_of_pos hb0, abs_of_pos hB, div_le_iff₀ (by positivity)]
    have h1 : |(F64.real a - A) * B - A * (F64.real b - B)| ≤ e * B + |A| * (δ * B) := by
      refine (abs_sub _ _).trans ?_
      rw [abs_mul, abs_mul, abs_of_pos hB]
      gcongr
    refine h1.trans ?_
    have h0 : 0 ≤ e + |A| * δ := by
      have h3 : 0 ≤ δ := by
        by_contra hc
        have := (abs_nonneg _).trans hb
        nlinarith
      have := (abs_nonneg _).trans ha
      positivity
    rw [show 8 / 7 * (e / B + δ * (|A| / B)) * (F64.real b * B) = 8 / 7 * (e + |A| * δ) * F64.real b by field_simp]
    have := mul_le_mul_of_nonneg_left hb2 h0
    nlinarith
  have h2 := size_le h1
  obtain ⟨r, r1, r2⟩ := divR (a := a) (b := b) hb0.ne' (h2.trans h)
  refine ⟨r, div_of r1, ?_⟩
  rw [show F64.real r - A / B = (F64.real r - F64.real a / F64.real b) + (F64.real a / F64.real b - A / B) by ring]
  refine (abs_add_le _ _).trans ?_
  have := mul_le_mul_of_nonneg_left h2 ur_pos.le
  linarith

/-! ## The time -/

theorem day_range {today date : Date} (h : today < date) : 1 ≤ date.dayNum - today.dayNum ∧ date.dayNum - today.dayNum ≤ 2 ^ 23 := by
  have h1 := Date.lt_iff.1 h
  have h2 := today.dayNum_range
  have h3 := date.dayNum_range
  have e1 : minDay = -3652424 := by decide
  have e2 : maxDay = 3652059 := by decide
  rw [e1] at h2
  rw [e2] at h3
  omega

theorem years_range {today date : Date} (h : today < date) : 1 / 366 ≤ years today date ∧ years today date ≤ 2 ^ 15 := by
  obtain ⟨h1, h2⟩ := day_range h
  have h1' : (1 : ℝ) ≤ ((date.dayNum - today.dayNum : ℤ) : ℝ) := by exact_mod_cast h1
  have h2' : ((date.dayNum - today.dayNum : ℤ) : ℝ) ≤ 2 ^ 23 := by exact_mod_cast h2
  unfold years
  constructor
  · rw [div_le_div_iff₀ (by norm_num) (by norm_num)]; linarith
  · rw [div_le_iff₀ (by norm_num)]; linarith

theorem year_fin : ∃ i : F64, ofQ 365.25 = fin i ∧ i.val = 365.25 := by
  have e : (toF64 365.25).map F64.val = some 365.25 := by decide +kernel
  obtain ⟨a, a1, a2⟩ := Option.map_eq_some_iff.1 e
  exact ⟨a, fin_of a1, a2⟩

theorem days_fin {today date : Date} (h : today < date) :
    ∃ i : F64, ofQ (wholeDays today date) = fin i ∧ i.val = ((date.dayNum - today.dayNum : ℤ) : ℚ) := by
  obtain ⟨h1, h2⟩ := day_range h
  have hr : Rep ((date.dayNum - today.dayNum : ℤ) : ℚ) := by
    have := rep_of_le (date.dayNum - today.dayNum) 0 (by rw [abs_of_nonneg (by omega)]; omega) (by norm_num)
    simpa using this
  have h3 : ((date.dayNum - today.dayNum : ℤ) : ℚ) ≤ 2 ^ 23 := by exact_mod_cast h2
  have h4 : (0 : ℚ) ≤ ((date.dayNum - today.dayNum : ℤ) : ℚ) := by exact_mod_cast (by omega : (0 : ℤ) ≤ date.dayNum - today.dayNum)
  obtain ⟨i, i1, i2⟩ := ofQ_fin (q := ((date.dayNum - today.dayNum : ℤ) : ℚ)) (by
    rw [rnd_rep hr, abs_of_nonneg h4]
    exact h3.trans_lt (pow_lt_pow_right₀ (by norm_num) (by norm_num)))
  exact ⟨i, i1, by rw [i2, rnd_rep hr]⟩

theorem tau_near {today date : Date} (h : today < date) : Near (tau today date) (years today date) (2 * ur * years today date) := by
  obtain ⟨i, i1, i2⟩ := days_fin h
  obtain ⟨j, j1, j2⟩ := year_fin
  obtain ⟨y1, y2⟩ := years_range h
  have hi : F64.real i = ((date.dayNum - today.dayNum : ℤ) : ℝ) := by unfold F64.real; rw [i2]; push_cast; rfl
  have hj : F64.real j = 365.25 := by unfold F64.real; rw [j2]; norm_num
  have e : F64.real i / F64.real j = years today date := by rw [hi, hj]; rfl
  have hy := years_pos h
  have hbox : Box 1000 |F64.real i / F64.real j| := by
    rw [e, abs_of_pos hy]
    refine Box.mono (i := 15) ⟨le_trans (by norm_num) y1, y2⟩ (by norm_num)
  obtain ⟨p, p1, p2⟩ := divN (a := i) (b := j) (A := F64.real i) (B := F64.real j) (α := 0) (β := 0) (by simp) (by simp) le_rfl (by norm_num)
    le_rfl (by norm_num) (by rw [hj]; norm_num) hbox
  refine ⟨p, ?_, ?_⟩
  · unfold tau
    rw [i1, j1]
    exact div_of p1
  · rw [e, abs_of_pos hy] at p2
    refine p2.trans (le_of_eq ?_)
    ring

/-! ## One exponential -/

/-- A `λ` between `2^-500` and `2^500`. -/
def Scale (lambda : F64) : Prop := Box 500 (F64.real lambda)

theorem ratio_box {today date : Date} (h : today < date) {lambda : F64} (hl : Scale lambda) :
    Box 515 (years today date / F64.real lambda) := by
  obtain ⟨y1, y2⟩ := years_range h
  exact Box.div (i := 15) (j := 500) ⟨le_trans (by norm_num) y1, y2⟩ hl

theorem ratio_near {today date : Date} (h : today < date) {lambda : F64} (hl : Scale lambda) :
    Near ((tau today date).div (fin lambda)) (years today date / F64.real lambda) (5 * ur * (years today date / F64.real lambda)) := by
  obtain ⟨t, t1, t2⟩ := tau_near h
  have hb := ratio_box h hl
  have hy := years_pos h
  have hu := ur_le
  have hu0 := ur_pos
  obtain ⟨p, p1, p2⟩ := divN (a := t) (b := lambda) (A := years today date) (B := F64.real lambda) (α := 2 * ur) (β := 0)
    (by rwa [abs_of_pos hy]) (by simp) (by positivity) (by linarith) le_rfl (by norm_num) hl.pos.ne'
    (by rw [abs_of_pos hb.pos]; exact hb.mono (by norm_num))
  refine ⟨p, by rw [t1]; exact div_of p1, ?_⟩
  rw [abs_of_pos hb.pos] at p2
  refine p2.trans ?_
  have := hb.pos
  gcongr
  linarith

theorem neg_ratio {today date : Date} (h : today < date) {lambda : F64} (hl : Scale lambda) :
    Near ((tau today date).neg.div (fin lambda)) (-(years today date / F64.real lambda))
      (5 * ur * (years today date / F64.real lambda)) := by
  obtain ⟨t, t1, t2⟩ := tau_near h
  have hb := ratio_box h hl
  have hy := years_pos h
  have hu := ur_le
  have hu0 := ur_pos
  have hn : |F64.real (Bsm.neg t) - -years today date| ≤ 2 * ur * |-years today date| := by
    rw [real_neg, show -F64.real t - -years today date = -(F64.real t - years today date) by ring, abs_neg, abs_neg, abs_of_pos hy]
    exact t2
  have hX : |-years today date / F64.real lambda| = years today date / F64.real lambda := by
    rw [neg_div, abs_neg, abs_of_pos hb.pos]
  obtain ⟨p, p1, p2⟩ := divN (a := Bsm.neg t) (b := lambda) (A := -years today date) (B := F64.real lambda) (α := 2 * ur) (β := 0)
    hn (by simp) (by positivity) (by linarith) le_rfl (by norm_num) hl.pos.ne'
    (by rw [hX]; exact hb.mono (by norm_num))
  refine ⟨p, by rw [t1, neg_of]; exact div_of p1, ?_⟩
  rw [hX, neg_div] at p2
  refine p2.trans ?_
  have := hb.pos
  gcongr
  linarith

theorem mul_exp_le {c X : ℝ} (hc : 0 < c) : X * Real.exp (-(c * X)) ≤ 3 / (8 * c) := by
  have h1 : c * X * Real.exp 1 ≤ Real.exp (c * X) := by
    have := Real.add_one_le_exp (c * X - 1)
    have h2 : Real.exp (c * X) = Real.exp (c * X - 1) * Real.exp 1 := by rw [← Real.exp_add]; ring_nf
    rw [h2]
    have := Real.exp_pos 1
    gcongr
    linarith
  have h3 := Real.exp_one_gt_d9
  by_cases hX : X ≤ 0
  · have := Real.exp_pos (-(c * X))
    have h4 : X * Real.exp (-(c * X)) ≤ 0 := mul_nonpos_of_nonpos_of_nonneg hX this.le
    exact h4.trans (by positivity)
  · have hX' : 0 < X := not_le.1 hX
    rw [Real.exp_neg, ← div_eq_mul_inv, div_le_div_iff₀ (Real.exp_pos _) (by positivity)]
    have h4 : c * X * (8 / 3) ≤ c * X * Real.exp 1 := by
      have : 0 < c * X := by positivity
      gcongr
      linarith
    linarith

/-- What a relative error of the exponent does. -/
theorem decay_real {X y : ℝ} (hX : 0 < X) (h : |y - -X| ≤ 5 * ur * X) :
    y ≤ 0 ∧ X * Real.exp y ≤ 1 / 2 ∧ |Real.exp y - Real.exp (-X)| ≤ 2 * ur ∧ X * |Real.exp y - Real.exp (-X)| ≤ 3 * ur := by
  have hu : ur ≤ 1 / 1000000 := by unfold ur; norm_num
  have hu0 := ur_pos
  obtain ⟨h1, h2⟩ := abs_le.1 h
  set c := 1 - 5 * ur with hc
  have hc0 : 99 / 100 ≤ c := by linarith
  have hy : y ≤ -(c * X) := by rw [hc]; nlinarith
  have hexp : Real.exp y ≤ Real.exp (-(c * X)) := Real.exp_le_exp.2 hy
  have hexp' : Real.exp (-X) ≤ Real.exp (-(c * X)) := Real.exp_le_exp.2 (by rw [hc]; nlinarith)
  have k1 := mul_exp_le (c := c) (X := X) (by linarith)
  have k1' : X * Real.exp (-(c * X)) ≤ 2 / 5 := k1.trans (by rw [div_le_div_iff₀ (by positivity) (by norm_num)]; linarith)
  have k2 := mul_exp_le (c := c / 2) (X := X) (by linarith)
  have k2' : X * Real.exp (-(c / 2 * X)) ≤ 153 / 200 := k2.trans (by rw [div_le_div_iff₀ (by positivity) (by norm_num)]; linarith)
  have k3 : X * (X * Real.exp (-(c * X))) ≤ 3 / 5 := by
    have e : X * (X * Real.exp (-(c * X))) = (X * Real.exp (-(c / 2 * X))) ^ 2 := by
      rw [mul_pow, ← Real.exp_nat_mul, sq, mul_assoc]; congr 3; push_cast; ring
    rw [e]
    have h0 : 0 ≤ X * Real.exp (-(c / 2 * X)) := by positivity
    nlinarith
  have hd : |Real.exp y - Real.exp (-X)| ≤ 5 * ur * (X * Real.exp (-(c * X))) := by
    rw [abs_le]
    constructor
    · have h3 : Real.exp (-X) - Real.exp y ≤ Real.exp (-X) * (-X - y) := by
        have e : Real.exp y = Real.exp (-X) * Real.exp (y - -X) := by rw [← Real.exp_add]; ring_nf
        have h4 := Real.add_one_le_exp (y - -X)
        have h5 := Real.exp_pos (-X)
        rw [e]
        nlinarith
      have h6 : Real.exp (-X) * (-X - y) ≤ Real.exp (-(c * X)) * (5 * ur * X) := by
        have := Real.exp_pos (-X)
        have h7 : Real.exp (-X) * (-X - y) ≤ Real.exp (-X) * (5 * ur * X) := by gcongr; linarith
        have h8 : 0 ≤ 5 * ur * X := by positivity
        exact h7.trans (by gcongr)
      nlinarith
    · have h3 : Real.exp y - Real.exp (-X) ≤ Real.exp y * (y - -X) := by
        have e : Real.exp (-X) = Real.exp y * Real.exp (-(y - -X)) := by rw [← Real.exp_add]; ring_nf
        have h4 := Real.add_one_le_exp (-(y - -X))
        have h5 := Real.exp_pos y
        rw [e]
        nlinarith
      have h6 : Real.exp y * (y - -X) ≤ Real.exp (-(c * X)) * (5 * ur * X) := by
        have := Real.exp_pos y
        have h7 : Real.exp y * (y - -X) ≤ Real.exp y * (5 * ur * X) := by gcongr
        have h8 : 0 ≤ 5 * ur * X := by positivity
        exact h7.trans (by gcongr)
      nlinarith
  refine ⟨hy.trans (by nlinarith), ?_, ?_, ?_⟩
  · have : X * Real.exp y ≤ X * Real.exp (-(c * X)) := by gcongr
    linarith
  · refine hd.trans ?_
    nlinarith
  · have : X * |Real.exp y - Real.exp (-X)| ≤ X * (5 * ur * (X * Real.exp (-(c * X)))) := by gcongr
    refine this.trans ?_
    rw [show X * (5 * ur * (X * Real.exp (-(c * X)))) = 5 * ur * (X * (X * Real.exp (-(c * X)))) by ring]
    nlinarith

theorem tiny_step {X : ℝ} (hX : X ≤ 2 ^ 515) : (2 : ℝ) ^ (-1074 : ℤ) * X ≤ ur / 2 := by
  have h1 : (2 : ℝ) ^ (-1074 : ℤ) * 2 ^ 515 ≤ ur / 2 := by
    unfold ur
    rw [← zpow_natCast (2 : ℝ) 515, ← zpow_add₀ (by norm_num), show (2 : ℝ) ^ (-53 : ℤ) / 2 = 2 ^ (-54 : ℤ) by
      rw [show (-54 : ℤ) = -53 - 1 by norm_num, zpow_sub₀ (by norm_num), zpow_one]]
    exact zpow_le_zpow_right₀ (by norm_num) (by norm_num)
  exact (mul_le_mul_of_nonneg_left hX (by positivity)).trans h1

/-- The exponential, and its product with the exponent. -/
theorem decay_near {l : Lib} {ε : ℝ} (hl : l.Good ε) (hε0 : 0 ≤ ε) {today date : Date} (h : today < date) {lambda : F64}
    (hs : Scale lambda) : ∃ r : F64, l.exp ((tau today date).neg.div (fin lambda)) = fin r ∧
      |F64.real r - Real.exp (-(years today date / F64.real lambda))| ≤ ε + 3 * ur ∧
      years today date / F64.real lambda * |F64.real r - Real.exp (-(years today date / F64.real lambda))| ≤ ε / 2 + 4 * ur := by
  obtain ⟨y, y1, y2⟩ := neg_ratio h hs
  have hb := ratio_box h hs
  set X := years today date / F64.real lambda with hX
  have hX0 := hb.pos
  obtain ⟨d1, d2, d3, d4⟩ := decay_real hX0 y2
  obtain ⟨r, r1, r2⟩ := hl.exp_down y d1
  have hE : Real.exp (F64.real y) ≤ 1 := by rw [← Real.exp_zero]; exact Real.exp_le_exp.2 d1
  have hE0 := Real.exp_pos (F64.real y)
  have hu0 := ur_pos
  have ht1 := tiny_step hb.2
  have ht2 := tiny_step (X := 1) (one_le_pow₀ (by norm_num))
  refine ⟨r, by rw [y1]; exact r1, ?_, ?_⟩
  all_goals clear_value X
  all_goals generalize (2 : ℝ) ^ (-1074 : ℤ) = ν at *
  · rw [show F64.real r - Real.exp (-X) = (F64.real r - Real.exp (F64.real y)) + (Real.exp (F64.real y) - Real.exp (-X)) by ring]
    refine (abs_add_le _ _).trans ?_
    have : ε * Real.exp (F64.real y) ≤ ε * 1 := by gcongr
    linarith
  · have h1 : |F64.real r - Real.exp (-X)| ≤ ε * Real.exp (F64.real y) + ν + |Real.exp (F64.real y) - Real.exp (-X)| := by
      rw [show F64.real r - Real.exp (-X) = (F64.real r - Real.exp (F64.real y)) + (Real.exp (F64.real y) - Real.exp (-X)) by ring]
      exact (abs_add_le _ _).trans (by linarith)
    have h2 : X * |F64.real r - Real.exp (-X)| ≤ X * (ε * Real.exp (F64.real y) + ν + |Real.exp (F64.real y) - Real.exp (-X)|) := by gcongr
    have h3 : ε * (X * Real.exp (F64.real y)) ≤ ε * (1 / 2) := by gcongr
    refine h2.trans ?_
    rw [show X * (ε * Real.exp (F64.real y) + ν + |Real.exp (F64.real y) - Real.exp (-X)|) =
      ε * (X * Real.exp (F64.real y)) + ν * X + X * |Real.exp (F64.real y) - Real.exp (-X)| by ring]
    linarith

theorem mul_exp_half (X : ℝ) : X * Real.exp (-X) ≤ 1 / 2 := by
  have := mul_exp_le (c := 1) (X := X) one_pos
  rw [one_mul] at this
  linarith

/-- The hump of the forward curve. -/
theorem hump_near {l : Lib} {ε : ℝ} (hl : l.Good ε) (hε0 : 0 ≤ ε) (hε : ε ≤ 1 / 16) {today date : Date} (h : today < date) {lambda : F64}
    (hs : Scale lambda) :
    Near (((tau today date).div (fin lambda)).mul (l.exp ((tau today date).neg.div (fin lambda))))
      (years today date / F64.real lambda * Real.exp (-(years today date / F64.real lambda))) (ε + 9 * ur) := by
  obtain ⟨r, r1, r2, r3⟩ := decay_near hl hε0 h hs
  obtain ⟨z, z1, z2⟩ := ratio_near h hs
  have hb := ratio_box h hs
  rw [r1, z1]
  set X := years today date / F64.real lambda with hX
  have hX0 := hb.pos
  clear_value X
  have hu : ur ≤ 1 / 1000000 := by unfold ur; norm_num
  have hu0 := ur_pos
  have hm : mu ≤ ur := Fft.mu_le
  have hh := mul_exp_half X
  have hh0 : 0 ≤ X * Real.exp (-X) := by positivity
  have hr : X * |F64.real r| ≤ 3 / 5 := by
    have h1 : X * |F64.real r| ≤ X * (|Real.exp (-X)| + |F64.real r - Real.exp (-X)|) := by gcongr; exact size_le le_rfl
    rw [abs_of_pos (Real.exp_pos _)] at h1
    linarith
  have hE : |F64.real z * F64.real r - X * Real.exp (-X)| ≤ ε / 2 + 7 * ur := by
    rw [show F64.real z * F64.real r - X * Real.exp (-X) = (F64.real z - X) * F64.real r + X * (F64.real r - Real.exp (-X)) by ring]
    refine (abs_add_le _ _).trans ?_
    rw [abs_mul, abs_mul, abs_of_pos hX0]
    have h1 : |F64.real z - X| * |F64.real r| ≤ 5 * ur * X * |F64.real r| := by gcongr
    have h2 : 5 * ur * X * |F64.real r| = 5 * ur * (X * |F64.real r|) := by ring
    nlinarith
  have hsz := size_le hE
  rw [abs_of_nonneg hh0] at hsz
  have htop : (1 : ℝ) ≤ top := by unfold top; exact one_le_pow₀ (by norm_num)
  obtain ⟨p, p1, p2⟩ := mulR (a := z) (b := r) (hsz.trans (le_trans (by linarith) htop))
  refine ⟨p, fin_of p1, ?_⟩
  rw [show F64.real p - X * Real.exp (-X) = (F64.real p - F64.real z * F64.real r) + (F64.real z * F64.real r - X * Real.exp (-X)) by ring]
  refine (abs_add_le _ _).trans ?_
  have h1 : ur * |F64.real z * F64.real r| ≤ ur * 1 := by gcongr; linarith
  linarith

/-! ## The sum -/

theorem Near.step {x y : X64} {A B e f S : ℝ} (hx : Near x A e) (hy : Near y B f) (hS : |A + B| ≤ S) (h : S + (e + f) ≤ top) :
    Near (x.add y) (A + B) (1001 / 1000 * (e + f) + S * ur) := by
  refine (hx.add hy (by linarith)).mono ?_
  have h1 := ur_le
  have h2 := ur_pos
  have h3 := hx.nonneg
  have h4 := hy.nonneg
  have h5 : ur * (|A + B| + (e + f)) ≤ ur * (S + (e + f)) := by gcongr
  have h6 : ur * (e + f) ≤ 1 / 1000 * (e + f) := by gcongr
  linarith

theorem combine {b0 b1 b2 b3 : F64} {t1 t2 t3 : X64} {T1 T2 T3 d : ℝ} (h1 : Near t1 T1 d) (h2 : Near t2 T2 d) (h3 : Near t3 T3 d)
    (a1 : |T1| ≤ 1) (a2 : |T2| ≤ 1) (a3 : |T3| ≤ 1)
    (hS : |F64.real b0| + |F64.real b1| + |F64.real b2| + |F64.real b3| ≤ 2 ^ 450) (hd : d ≤ 2 ^ 520) :
    Near ((((fin b0).add ((fin b1).mul t1)).add ((fin b2).mul t2)).add ((fin b3).mul t3))
      (F64.real b0 + F64.real b1 * T1 + F64.real b2 * T2 + F64.real b3 * T3)
      ((9 / 8 * d + 5 * ur) * (|F64.real b0| + |F64.real b1| + |F64.real b2| + |F64.real b3|) + 4 * mu) := by
  have hu : ur ≤ 1 / 1000000 := by unfold ur; norm_num
  have hu0 := ur_pos
  have hm0 := mu_pos
  have hm : mu ≤ 1 := Fft.mu_le.trans (by linarith)
  have hd0 := h1.nonneg
  set B0 := |F64.real b0| with hB0
  set B1 := |F64.real b1| with hB1
  set B2 := |F64.real b2| with hB2
  set B3 := |F64.real b3| with hB3
  have n0 : 0 ≤ B0 := abs_nonneg _
  have n1 : 0 ≤ B1 := abs_nonneg _
  have n2 : 0 ≤ B2 := abs_nonneg _
  have n3 : 0 ≤ B3 := abs_nonneg _
  have htop : ∀ x : ℝ, x ≤ 8 * ((B0 + B1 + B2 + B3) * (1 + d)) + 8 → x ≤ top := by
    intro x hx
    have h7 : 1 + d ≤ 2 * 2 ^ 520 := by
      rw [two_mul]
      exact _root_.add_le_add (one_le_pow₀ (by norm_num)) hd
    have h8 : (B0 + B1 + B2 + B3) * (1 + d) ≤ 2 ^ 450 * (2 * 2 ^ 520) := by gcongr
    have h9 : (2 : ℝ) ^ 450 * (2 * 2 ^ 520) = 2 ^ 971 := by rw [← pow_succ', ← pow_add]
    rw [h9] at h8
    have h10 : (16 : ℝ) * 2 ^ 971 ≤ top := by
      unfold top
      rw [show (16 : ℝ) = 2 ^ 4 by norm_num, ← pow_add]
      exact pow_le_pow_right₀ (by norm_num) (by norm_num)
    have h11 : (1 : ℝ) ≤ 2 ^ 971 := one_le_pow₀ (by norm_num)
    clear hd h7 h9 hS
    generalize (2 : ℝ) ^ 971 = P at *
    linarith
  have hp : ∀ (b : F64) (t : X64) (T : ℝ), Near t T d → |T| ≤ 1 → |F64.real b| ≤ B0 + B1 + B2 + B3 →
      Near ((fin b).mul t) (F64.real b * T) (|F64.real b| * (d + ur * (1 + d)) + mu) := by
    intro b t T ht hT hb
    have hbT : |F64.real b * T| ≤ |F64.real b| := by
      rw [abs_mul]; exact mul_le_of_le_one_right (abs_nonneg _) hT
    have hbd : |F64.real b| * d ≤ (B0 + B1 + B2 + B3) * d := by gcongr
    have := (near_fin b).mul ht (E := |F64.real b| * d) (by simp) (htop _ (by nlinarith [abs_nonneg (F64.real b)]))
    refine this.mono ?_
    nlinarith
  have q1 := hp b1 t1 T1 h1 a1 (by linarith)
  have q2 := hp b2 t2 T2 h2 a2 (by linarith)
  have q3 := hp b3 t3 T3 h3 a3 (by linarith)
  have m1 : |F64.real b1 * T1| ≤ B1 := by rw [abs_mul]; exact mul_le_of_le_one_right (abs_nonneg _) a1
  have m2 : |F64.real b2 * T2| ≤ B2 := by rw [abs_mul]; exact mul_le_of_le_one_right (abs_nonneg _) a2
  have m3 : |F64.real b3 * T3| ≤ B3 := by rw [abs_mul]; exact mul_le_of_le_one_right (abs_nonneg _) a3
  clear hS hd hp h1 h2 h3 a1 a2 a3
  have r1 : |F64.real b0 + F64.real b1 * T1| ≤ B0 + B1 + B2 + B3 := (abs_add_le _ _).trans (by linarith)
  have r2 : |F64.real b0 + F64.real b1 * T1 + F64.real b2 * T2| ≤ B0 + B1 + B2 + B3 :=
    ((abs_add_le _ _).trans (_root_.add_le_add (abs_add_le _ _) le_rfl)).trans (by linarith)
  have r3 : |F64.real b0 + F64.real b1 * T1 + F64.real b2 * T2 + F64.real b3 * T3| ≤ B0 + B1 + B2 + B3 :=
    ((abs_add_le _ _).trans (_root_.add_le_add ((abs_add_le _ _).trans (_root_.add_le_add (abs_add_le _ _) le_rfl)) le_rfl)).trans (by linarith)
  set c := d + ur * (1 + d) with hc
  have hc1 : c ≤ 1001 / 1000 * d + ur := by rw [hc]; nlinarith
  have hc0 : 0 ≤ c := by positivity
  obtain ⟨S, hS⟩ : ∃ S, S = B0 + B1 + B2 + B3 := ⟨_, rfl⟩
  have hS0 : 0 ≤ S := by rw [hS]; positivity
  have g1 : 0 ≤ B1 * c := by positivity
  have g2 : 0 ≤ B2 * c := by positivity
  have g3 : 0 ≤ B3 * c := by positivity
  have gs : B1 * c + B2 * c + B3 * c ≤ S * c := by
    rw [← add_mul, ← add_mul]
    gcongr
    linarith
  have kc : S * c ≤ 1001 / 1000 * (S * d) + S * ur := by
    have : S * c ≤ S * (1001 / 1000 * d + ur) := by gcongr
    linarith
  have kd : 0 ≤ S * d := by positivity
  have ku : S * ur ≤ 1 / 1000000 * S := by
    have : S * ur ≤ S * (1 / 1000000) := by gcongr
    linarith
  have ku0 : 0 ≤ S * ur := by positivity
  have htop' : ∀ x : ℝ, x ≤ 8 * (S + S * d) + 8 → x ≤ top := by
    intro x hx
    refine htop x ?_
    rw [← hS, mul_add, mul_one]
    exact hx
  clear htop hc
  rw [← hS] at r1 r2 r3 ⊢
  change Near _ _ (B1 * c + mu) at q1
  change Near _ _ (B2 * c + mu) at q2
  change Near _ _ (B3 * c + mu) at q3
  clear_value c B0 B1 B2 B3
  generalize B1 * c = x1 at *
  generalize B2 * c = x2 at *
  generalize B3 * c = x3 at *
  have e1 := (near_fin b0).step q1 r1 (htop' _ (by linarith))
  have e2 := e1.step q2 r2 (htop' _ (by linarith))
  have e3 := e2.step q3 r3 (htop' _ (by linarith))
  refine e3.mono ?_
  linarith

end Verif.Float.Curves
