import Verif.Float.FftSpec
import Verif.Float.SumProps
import Verif.Math.FftProps
import Mathlib.Analysis.Real.Pi.Bounds

/-! Helper lemmas: rounded complex arithmetic, the rounded roots of unity and one level of the recursion. -/

namespace Verif.Float.Fft

open Verif.Math.Fft (splitFrom split_lengths)

/-- The unit roundoff. -/
noncomputable def ur : ℝ := 2 ^ (-53 : ℤ)

/-- Half the smallest positive number. -/
noncomputable def mu : ℝ := 2 ^ (-1075 : ℤ)

/-- Results up to here do not overflow. -/
noncomputable def top : ℝ := 2 ^ 1023

theorem top_ge : 2 ^ 10 ≤ top := pow_le_pow_right₀ (by norm_num) (by norm_num)

theorem ur_pos : 0 < ur := by unfold ur; positivity

theorem mu_pos : 0 < mu := by unfold mu; positivity

theorem ur_le : ur ≤ 1 / 1000 := by unfold ur; norm_num

theorem mu_le : mu ≤ ur := by
  unfold mu ur
  exact zpow_le_zpow_right₀ (by norm_num) (by norm_num)

theorem rnd_real (x : ℚ) : |((rnd x : ℚ) : ℝ) - x| ≤ ur * |(x : ℝ)| + mu := by
  have h := rnd_error' x
  rw [abs_sub_comm]
  have h : |x - rnd x| ≤ 2 ^ (-53 : ℤ) * |x| + 2 ^ (-1075 : ℤ) := h
  have := (Rat.cast_le (K := ℝ)).2 h
  push_cast at this
  exact this

theorem add_real {a b : ℚ} (ha : Rep a) (hb : Rep b) : |((rnd (a + b) : ℚ) : ℝ) - (a + b)| ≤ ur * |(a : ℝ) + b| := by
  have h : |a + b - rnd (a + b)| ≤ 2 ^ (-53 : ℤ) * |a + b| := rnd_add ha hb
  rw [abs_sub_comm]
  have := (Rat.cast_le (K := ℝ)).2 h
  push_cast at this
  exact this

theorem sub_real {a b : ℚ} (ha : Rep a) (hb : Rep b) : |((rnd (a - b) : ℚ) : ℝ) - (a - b)| ≤ ur * |(a : ℝ) - b| := by
  have h : |a - b - rnd (a - b)| ≤ 2 ^ (-53 : ℤ) * |a - b| := rnd_sub ha hb
  rw [abs_sub_comm]
  have := (Rat.cast_le (K := ℝ)).2 h
  push_cast at this
  exact this

theorem toF64_total {x : ℚ} (h : |(x : ℝ)| ≤ top) : ∃ r, toF64 x = some r ∧ (r.val : ℝ) = ((rnd x : ℚ) : ℝ) := by
  have h' : |x| ≤ 2 ^ 1023 := by
    unfold top at h
    exact_mod_cast h
  have hr : Rep (2 ^ 1023) := by
    have := rep_of_le 1 1023 (by norm_num) (by norm_num)
    simpa using this
  obtain ⟨r, h1, h2⟩ := toF64_isSome (x := x) ((rnd_abs_le hr h').trans_lt (pow_lt_pow_right₀ (by norm_num) (by norm_num)))
  exact ⟨r, h1, by rw [h2]⟩

theorem norm_parts {z w : ℂ} {c : ℝ} (hc : 0 ≤ c) (h1 : |z.re| ≤ c * |w.re|) (h2 : |z.im| ≤ c * |w.im|) : ‖z‖ ≤ c * ‖w‖ := by
  refine abs_le_of_sq_le_sq' ?_ (mul_nonneg hc (norm_nonneg _)) |>.2
  rw [mul_pow, Complex.sq_norm, Complex.sq_norm, Complex.normSq_apply, Complex.normSq_apply]
  have a1 : z.re * z.re ≤ c ^ 2 * (w.re * w.re) := by
    rw [← abs_mul_abs_self z.re, ← abs_mul_abs_self w.re]
    nlinarith [abs_nonneg z.re, abs_nonneg w.re, mul_nonneg hc (abs_nonneg w.re)]
  have a2 : z.im * z.im ≤ c ^ 2 * (w.im * w.im) := by
    rw [← abs_mul_abs_self z.im, ← abs_mul_abs_self w.im]
    nlinarith [abs_nonneg z.im, abs_nonneg w.im, mul_nonneg hc (abs_nonneg w.im)]
  linarith

theorem cadd {a b : C64} {A : ℝ} (hA : A ≤ top / 2) (ha : ‖a.toC‖ ≤ A) (hb : ‖b.toC‖ ≤ A) :
    ∃ s, a.add b = some s ∧ ‖s.toC - (a.toC + b.toC)‖ ≤ ur * ‖a.toC + b.toC‖ := by
  have r1 := (Complex.abs_re_le_norm a.toC).trans (ha.trans hA)
  have r2 := (Complex.abs_re_le_norm b.toC).trans (hb.trans hA)
  have i1 := (Complex.abs_im_le_norm a.toC).trans (ha.trans hA)
  have i2 := (Complex.abs_im_le_norm b.toC).trans (hb.trans hA)
  simp only [C64.toC] at r1 r2 i1 i2
  obtain ⟨x, x1, x2⟩ := toF64_total (x := a.re.val + b.re.val) (by
    push_cast; exact (abs_add_le _ _).trans (by linarith))
  obtain ⟨y, y1, y2⟩ := toF64_total (x := a.im.val + b.im.val) (by
    push_cast; exact (abs_add_le _ _).trans (by linarith))
  have xm : a.re.add b.re = some x := x1
  have ym : a.im.add b.im = some y := y1
  refine ⟨⟨x, y⟩, by simp [C64.add, xm, ym], norm_parts ur_pos.le ?_ ?_⟩
  · simp only [C64.toC, Complex.sub_re, Complex.add_re]
    rw [x2]
    exact add_real a.re.rep b.re.rep
  · simp only [C64.toC, Complex.sub_im, Complex.add_im]
    rw [y2]
    exact add_real a.im.rep b.im.rep

theorem csub {a b : C64} {A : ℝ} (hA : A ≤ top / 2) (ha : ‖a.toC‖ ≤ A) (hb : ‖b.toC‖ ≤ A) :
    ∃ s, a.sub b = some s ∧ ‖s.toC - (a.toC - b.toC)‖ ≤ ur * ‖a.toC - b.toC‖ := by
  have r1 := (Complex.abs_re_le_norm a.toC).trans (ha.trans hA)
  have r2 := (Complex.abs_re_le_norm b.toC).trans (hb.trans hA)
  have i1 := (Complex.abs_im_le_norm a.toC).trans (ha.trans hA)
  have i2 := (Complex.abs_im_le_norm b.toC).trans (hb.trans hA)
  simp only [C64.toC] at r1 r2 i1 i2
  obtain ⟨x, x1, x2⟩ := toF64_total (x := a.re.val - b.re.val) (by
    push_cast; exact (abs_sub _ _).trans (by linarith))
  obtain ⟨y, y1, y2⟩ := toF64_total (x := a.im.val - b.im.val) (by
    push_cast; exact (abs_sub _ _).trans (by linarith))
  have xm : a.re.sub b.re = some x := x1
  have ym : a.im.sub b.im = some y := y1
  refine ⟨⟨x, y⟩, by simp [C64.sub, xm, ym], norm_parts ur_pos.le ?_ ?_⟩
  · simp only [C64.toC, Complex.sub_re]
    rw [x2]
    exact sub_real a.re.rep b.re.rep
  · simp only [C64.toC, Complex.sub_im]
    rw [y2]
    exact sub_real a.im.rep b.im.rep

/-- One part of a complex product: two rounded products, added or subtracted with a third rounding. -/
theorem part_error {p q : ℚ} {x y : ℝ} (hx : |x - p| ≤ ur * |(p : ℝ)| + mu) (hy : |y - q| ≤ ur * |(q : ℝ)| + mu) {z : ℝ}
    (hz : |z - (x + y)| ≤ ur * |x + y|) : |z - (p + q)| ≤ 3 * ur * (|(p : ℝ)| + |(q : ℝ)|) + 3 * mu := by
  have hu := ur_pos
  have hm := mu_pos
  have h1 := ur_le
  have e1 : |x + y - (p + q)| ≤ ur * (|(p : ℝ)| + |(q : ℝ)|) + 2 * mu := by
    rw [show x + y - (p + q) = (x - p) + (y - q) by ring]
    refine (abs_add_le _ _).trans ?_
    linarith
  have e2 : |x + y| ≤ (|(p : ℝ)| + |(q : ℝ)|) + (ur * (|(p : ℝ)| + |(q : ℝ)|) + 2 * mu) := by
    rw [show x + y = (p + q) + (x + y - (p + q)) by ring]
    refine (abs_add_le _ _).trans ?_
    have := abs_add_le (p : ℝ) (q : ℝ)
    linarith
  rw [show z - (p + q) = (z - (x + y)) + (x + y - (p + q)) by ring]
  refine (abs_add_le _ _).trans ?_
  have n : 0 ≤ |(p : ℝ)| + |(q : ℝ)| := by positivity
  set s := |(p : ℝ)| + |(q : ℝ)|
  have e3 : ur * |x + y| ≤ ur * (s + (ur * s + 2 * mu)) := mul_le_mul_of_nonneg_left e2 hu.le
  have e4 : ur * (ur * s) ≤ 1 / 1000 * (ur * s) := mul_le_mul_of_nonneg_right h1 (mul_nonneg hu.le n)
  have e5 : ur * (2 * mu) ≤ 1 / 1000 * (2 * mu) := mul_le_mul_of_nonneg_right h1 (by linarith)
  have e6 : 0 ≤ ur * s := mul_nonneg hu.le n
  nlinarith

theorem cauchy (a b c d : ℝ) : |a| * |c| + |b| * |d| ≤ ‖(⟨a, b⟩ : ℂ)‖ * ‖(⟨c, d⟩ : ℂ)‖ := by
  refine abs_le_of_sq_le_sq' ?_ (by positivity) |>.2
  rw [mul_pow, Complex.sq_norm, Complex.sq_norm, Complex.normSq_apply, Complex.normSq_apply]
  simp only
  have h1 := abs_mul_abs_self a
  have h2 := abs_mul_abs_self b
  have h3 := abs_mul_abs_self c
  have h4 := abs_mul_abs_self d
  rw [← h1, ← h2, ← h3, ← h4]
  nlinarith [sq_nonneg (|a| * |d| - |b| * |c|)]

theorem cmul {w o : C64} {A : ℝ} (hA : A ≤ top / 8) (h : ‖w.toC‖ * ‖o.toC‖ ≤ A) :
    ∃ t, w.mul o = some t ∧ ‖t.toC - w.toC * o.toC‖ ≤ 6 * ur * (‖w.toC‖ * ‖o.toC‖) + 6 * mu := by
  have hu := ur_pos
  have hm := mu_pos
  have h1 := ur_le
  have hmu : mu ≤ 1 / 1000 := mu_le.trans h1
  set N := ‖w.toC‖ * ‖o.toC‖ with hN
  have big := top_ge
  have c1 : |(w.re.val : ℝ)| * |(o.re.val : ℝ)| + |(w.im.val : ℝ)| * |(o.im.val : ℝ)| ≤ N := cauchy _ _ _ _
  have c2 : |(w.re.val : ℝ)| * |(o.im.val : ℝ)| + |(w.im.val : ℝ)| * |(o.re.val : ℝ)| ≤ N := by
    have := cauchy (w.re.val : ℝ) (w.im.val) (o.im.val) (o.re.val)
    refine this.trans (le_of_eq ?_)
    rw [hN]
    congr 1
    simp only [C64.toC, Complex.norm_def, Complex.normSq_mk]
    congr 1
    ring
  have n1 : 0 ≤ |(w.re.val : ℝ)| * |(o.re.val : ℝ)| := by positivity
  have n2 : 0 ≤ |(w.im.val : ℝ)| * |(o.im.val : ℝ)| := by positivity
  have n3 : 0 ≤ |(w.re.val : ℝ)| * |(o.im.val : ℝ)| := by positivity
  have n4 : 0 ≤ |(w.im.val : ℝ)| * |(o.re.val : ℝ)| := by positivity
  have prod : ∀ {x y : F64}, |(x.val : ℝ)| * |(y.val : ℝ)| ≤ N → ∃ r, x.mul y = some r ∧
      |(r.val : ℝ) - ((x.val * y.val : ℚ) : ℝ)| ≤ ur * |((x.val * y.val : ℚ) : ℝ)| + mu ∧ |(r.val : ℝ)| ≤ 2 * (top / 8) := by
    intro x y hxy
    have hq : |((x.val * y.val : ℚ) : ℝ)| ≤ (top / 8) := by
      push_cast
      rw [abs_mul]
      linarith
    obtain ⟨r, r1, r2⟩ := toF64_total (x := x.val * y.val) (by linarith)
    refine ⟨r, r1, by rw [r2]; exact rnd_real _, ?_⟩
    have := rnd_real (x.val * y.val)
    rw [← r2] at this
    have h3 := abs_sub_abs_le_abs_sub (r.val : ℝ) ((x.val * y.val : ℚ) : ℝ)
    have h4 : ur * |((x.val * y.val : ℚ) : ℝ)| ≤ 1 / 1000 * (top / 8) := mul_le_mul h1 hq (abs_nonneg _) (by norm_num)
    linarith
  obtain ⟨a, a1, a2, a3⟩ := prod (x := w.re) (y := o.re) (by linarith)
  obtain ⟨b, b1, b2, b3⟩ := prod (x := w.im) (y := o.im) (by linarith)
  obtain ⟨c, d1, d2, d3⟩ := prod (x := w.re) (y := o.im) (by linarith)
  obtain ⟨d, e1, e2, e3⟩ := prod (x := w.im) (y := o.re) (by linarith)
  obtain ⟨x, x1, x2⟩ := toF64_total (x := a.val - b.val) (by
    push_cast; exact (abs_sub _ _).trans (by linarith))
  obtain ⟨y, y1, y2⟩ := toF64_total (x := c.val + d.val) (by
    push_cast; exact (abs_add_le _ _).trans (by linarith))
  have xm : a.sub b = some x := x1
  have ym : c.add d = some y := y1
  refine ⟨⟨x, y⟩, by simp [C64.mul, a1, b1, d1, e1, xm, ym], ?_⟩
  have f1 := part_error (p := w.re.val * o.re.val) (q := -(w.im.val * o.im.val)) (x := (a.val : ℝ)) (y := -(b.val : ℝ)) (z := (x.val : ℝ))
    a2 (by
      rw [show -(b.val : ℝ) - ((-(w.im.val * o.im.val) : ℚ) : ℝ) = -((b.val : ℝ) - ((w.im.val * o.im.val : ℚ) : ℝ)) by push_cast; ring,
        abs_neg]
      refine b2.trans (le_of_eq ?_)
      rw [show ((-(w.im.val * o.im.val) : ℚ) : ℝ) = -((w.im.val * o.im.val : ℚ) : ℝ) by push_cast; ring, abs_neg])
    (by
      rw [x2, ← sub_eq_add_neg]
      exact sub_real a.rep b.rep)
  have f2 := part_error (p := w.re.val * o.im.val) (q := w.im.val * o.re.val) (x := (c.val : ℝ)) (y := (d.val : ℝ)) (z := (y.val : ℝ))
    d2 e2 (by rw [y2]; exact add_real c.rep d.rep)
  push_cast at f1 f2
  rw [abs_neg, abs_mul, abs_mul] at f1
  rw [abs_mul, abs_mul] at f2
  refine (Complex.norm_le_abs_re_add_abs_im _).trans ?_
  have g1 : (C64.toC ⟨x, y⟩ - w.toC * o.toC).re = (x.val : ℝ) - (w.re.val * o.re.val + -(w.im.val * o.im.val)) := by
    simp [C64.toC]; ring
  have g2 : (C64.toC ⟨x, y⟩ - w.toC * o.toC).im = (y.val : ℝ) - (w.re.val * o.im.val + w.im.val * o.re.val) := by
    simp [C64.toC]
  rw [g1, g2]
  have k1 := mul_le_mul_of_nonneg_left c1 (by linarith : 0 ≤ 3 * ur)
  have k2 := mul_le_mul_of_nonneg_left c2 (by linarith : 0 ≤ 3 * ur)
  linarith

/-- The growth factors of one level. -/
theorem coefficients {τ g a : ℝ} (hτ0 : 0 ≤ τ) (hτ : τ ≤ 1 / 8) (hg : 0 ≤ g) (ha : 0 ≤ a) :
    (1 + ur) * (1 + g) - 1 ≤ (1 + (τ + 9 * ur)) * (1 + g) - 1 ∧
      (1 + ur) * (1 + (τ + 7 * ur)) * (1 + g) - 1 ≤ (1 + (τ + 9 * ur)) * (1 + g) - 1 ∧
      (1 + ur) * ((2 + (τ + 7 * ur)) * a + 6 * mu) ≤ 3 * a + 7 * mu := by
  have hu := ur_pos
  have hm := mu_pos
  have h1 := ur_le
  have m1 : ur * τ ≤ ur * (1 / 8) := mul_le_mul_of_nonneg_left hτ hu.le
  have m2 : ur * ur ≤ ur * (1 / 1000) := mul_le_mul_of_nonneg_left h1 hu.le
  have c1 : (1 + ur) * (1 + (τ + 7 * ur)) ≤ 1 + (τ + 9 * ur) := by linarith
  refine ⟨?_, ?_, ?_⟩
  · have := mul_le_mul_of_nonneg_right (by linarith : 1 + ur ≤ 1 + (τ + 9 * ur)) (by linarith : 0 ≤ 1 + g)
    linarith
  · have := mul_le_mul_of_nonneg_right c1 (by linarith : 0 ≤ 1 + g)
    linarith
  · have : (1 + ur) * (2 + (τ + 7 * ur)) ≤ 3 := by linarith
    have h5 := mul_le_mul_of_nonneg_right this ha
    have h6 := mul_le_mul_of_nonneg_right (by linarith : 1 + ur ≤ 7 / 6) hm.le
    linarith

/-- One butterfly: the product with the rounded root of unity, and the rounded sum and difference. -/
theorem butterfly {w o e : C64} {W O E : ℂ} {τ g a Se So : ℝ} (hτ0 : 0 ≤ τ) (hτ : τ ≤ 1 / 8) (hW : ‖W‖ = 1)
    (hw : ‖w.toC - W‖ ≤ τ) (hO : ‖O‖ ≤ So) (hE : ‖E‖ ≤ Se) (ho : ‖o.toC - O‖ ≤ g * So + a) (he : ‖e.toC - E‖ ≤ g * Se + a)
    (hg : 0 ≤ g) (ha : 0 ≤ a) (hS : (1 + g) * (Se + So) + a ≤ (top / 32)) :
    ∃ t s d, w.mul o = some t ∧ e.add t = some s ∧ e.sub t = some d ∧
      ‖s.toC - (E + W * O)‖ ≤ ((1 + (τ + 9 * ur)) * (1 + g) - 1) * (Se + So) + (3 * a + 7 * mu) ∧
      ‖d.toC - (E - W * O)‖ ≤ ((1 + (τ + 9 * ur)) * (1 + g) - 1) * (Se + So) + (3 * a + 7 * mu) := by
  have hu := ur_pos
  have hm := mu_pos
  have h1 := ur_le
  have hmu : mu ≤ 1 / 1000 := mu_le.trans h1
  have hSo : 0 ≤ So := (norm_nonneg _).trans hO
  have hSe : 0 ≤ Se := (norm_nonneg _).trans hE
  have big := top_ge
  have no : ‖o.toC‖ ≤ (1 + g) * So + a := by
    have := norm_add_le (o.toC - O) O
    rw [sub_add_cancel] at this
    linarith
  have ne : ‖e.toC‖ ≤ (1 + g) * Se + a := by
    have := norm_add_le (e.toC - E) E
    rw [sub_add_cancel] at this
    linarith
  have nw : ‖w.toC‖ ≤ 1 + τ := by
    have := norm_add_le (w.toC - W) W
    rw [sub_add_cancel] at this
    linarith
  have ge : 0 ≤ (1 + g) * Se := by positivity
  have go : 0 ≤ (1 + g) * So := by positivity
  set Q := (1 + g) * So + a with hQ
  have hQ0 : 0 ≤ Q := by positivity
  have hQ1 : Q ≤ (top / 32) := by
    rw [hQ]; nlinarith
  have nwo : ‖w.toC‖ * ‖o.toC‖ ≤ (1 + τ) * Q := mul_le_mul nw no (norm_nonneg _) (by linarith)
  obtain ⟨t, t1, t2⟩ := cmul (w := w) (o := o) (A := 2 * (top / 32)) (by linarith) (nwo.trans (by nlinarith))
  -- the error of the product
  have et : ‖t.toC - W * O‖ ≤ (τ + 7 * ur) * Q + (g * So + a) + 6 * mu := by
    rw [show t.toC - W * O = (t.toC - w.toC * o.toC) + ((w.toC - W) * o.toC + W * (o.toC - O)) by ring]
    refine (norm_add_le _ _).trans ?_
    have k1 : ‖(w.toC - W) * o.toC + W * (o.toC - O)‖ ≤ τ * Q + (g * So + a) := by
      refine (norm_add_le _ _).trans ?_
      rw [norm_mul, norm_mul, hW, one_mul]
      exact add_le_add (mul_le_mul hw no (norm_nonneg _) hτ0) ho
    have k2 : 6 * ur * (‖w.toC‖ * ‖o.toC‖) ≤ 7 * ur * Q := by
      have : 6 * ur * (‖w.toC‖ * ‖o.toC‖) ≤ 6 * ur * ((1 + τ) * Q) := mul_le_mul_of_nonneg_left nwo (by linarith)
      refine this.trans ?_
      have : (1 + τ) * Q ≤ 9 / 8 * Q := mul_le_mul_of_nonneg_right (by linarith) hQ0
      have uq : 0 ≤ ur * Q := by positivity
      nlinarith
    linarith
  have nt : ‖t.toC‖ ≤ 4 * (top / 32) := by
    have h3 := norm_add_le (t.toC - W * O) (W * O)
    rw [sub_add_cancel, norm_mul, hW, one_mul] at h3
    have h4 : (τ + 7 * ur) * Q ≤ 1 * Q := mul_le_mul_of_nonneg_right (by linarith) hQ0
    have h5 : g * So + a + So ≤ (top / 32) := by
      have : g * So + a + So = Q := by rw [hQ]; ring
      linarith
    linarith
  have ne' : ‖e.toC‖ ≤ 4 * (top / 32) := by
    have : (1 + g) * Se + a ≤ (top / 32) := by nlinarith
    linarith
  obtain ⟨s, s1, s2⟩ := cadd (A := 4 * (top / 32)) (by linarith) ne' nt
  obtain ⟨d, d1, d2⟩ := csub (A := 4 * (top / 32)) (by linarith) ne' nt
  set X := (τ + 7 * ur) * Q + (g * So + a) + 6 * mu with hX
  have hX0 : 0 ≤ X := (norm_nonneg _).trans et
  -- the common estimate
  have fin : ∀ {z y Y : ℂ}, ‖z - y‖ ≤ ur * ‖y‖ → ‖y - Y‖ ≤ (g * Se + a) + X → ‖Y‖ ≤ Se + So →
      ‖z - Y‖ ≤ ((1 + (τ + 9 * ur)) * (1 + g) - 1) * (Se + So) + (3 * a + 7 * mu) := by
    intro z y Y hz hy hY
    have k1 : ‖y‖ ≤ (g * Se + a) + X + (Se + So) := by
      have := norm_add_le (y - Y) Y
      rw [sub_add_cancel] at this
      linarith
    rw [show z - Y = (z - y) + (y - Y) by ring]
    refine (norm_add_le _ _).trans ?_
    have k2 : ur * ‖y‖ ≤ ur * ((g * Se + a) + X + (Se + So)) := mul_le_mul_of_nonneg_left k1 hu.le
    refine (add_le_add (hz.trans k2) hy).trans ?_
    -- (1 + u) (g Se + a + X) + u (Se + So)
    have e1 : ur * (g * Se + a + X + (Se + So)) + (g * Se + a + X) =
        ((1 + ur) * (1 + g) - 1) * Se + ((1 + ur) * (1 + (τ + 7 * ur)) * (1 + g) - 1) * So +
          (1 + ur) * ((2 + (τ + 7 * ur)) * a + 6 * mu) := by
      rw [hX, hQ]; ring
    rw [e1]
    obtain ⟨c2, c3, c4⟩ := coefficients hτ0 hτ hg ha
    have c5 := mul_le_mul_of_nonneg_right c2 hSe
    have c6 := mul_le_mul_of_nonneg_right c3 hSo
    linarith
  refine ⟨t, s, d, t1, s1, d1, fin s2 ?_ ?_, fin d2 ?_ ?_⟩
  · rw [show e.toC + t.toC - (E + W * O) = (e.toC - E) + (t.toC - W * O) by ring]
    exact (norm_add_le _ _).trans (add_le_add he et)
  · refine (norm_add_le _ _).trans (add_le_add hE ?_)
    rw [norm_mul, hW, one_mul]; exact hO
  · rw [show e.toC - t.toC - (E - W * O) = (e.toC - E) - (t.toC - W * O) by ring]
    exact (norm_sub_le _ _).trans (add_le_add he et)
  · refine (norm_sub_le _ _).trans (add_le_add hE ?_)
    rw [norm_mul, hW, one_mul]; exact hO

end Verif.Float.Fft
