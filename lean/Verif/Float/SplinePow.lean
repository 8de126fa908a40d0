import Verif.Float.SplineEdges
import Verif.Float.NelsonSiegelRun
import Mathlib.Analysis.SpecialFunctions.Pow.Real

/-!
# C111: exponential interpolation in double precision
-/

namespace Verif.Float.Spline

open X64 Nan
open Verif.Float.Curves (rep_pow dyadic grid_round fine_mu)
open Verif.Float.Sim (F64.real)
open Verif.Float.Activation (grid)
open Verif.Float.Fft (ur mu top ur_pos mu_pos ur_le rnd_real toF64_total)

/-- A `powf` that is accurate to the factor `δ` for exponents between 0 and 1 and bases between `2^-500` and `2^500`. -/
def GoodPow (pow : X64 → X64 → X64) (δ : ℝ) : Prop :=
  ∀ y e : F64, 2 ^ (-500 : ℤ) ≤ F64.real y → F64.real y ≤ 2 ^ (500 : ℤ) → 0 ≤ F64.real e → F64.real e ≤ 1 →
    ∃ r : F64, pow (fin y) (fin e) = fin r ∧ |F64.real r - F64.real y ^ (F64.real e)| ≤ δ * F64.real y ^ (F64.real e)

theorem ratio {a b c d : F64} (hn : 0 < b.val - a.val) (hle : b.val - a.val ≤ c.val - d.val) (hb : c.val - d.val ≤ 2 ^ (1001 : ℤ)) :
    ∃ e : F64, ((fin b).sub (fin a)).div ((fin c).sub (fin d)) = fin e ∧ 0 ≤ e.val ∧ e.val ≤ 1 ∧
      |e.val - (b.val - a.val) / (c.val - d.val)| ≤ 5 * u := by
  have hu := u_pos
  have hus := u_small
  have hrep : Rep (2 ^ (1001 : ℤ)) := rep_pow 1001 (by norm_num)
  have hlt : (2 : ℚ) ^ (1001 : ℤ) < 2 ^ 1024 := by
    rw [← zpow_natCast]; exact zpow_lt_zpow_right₀ (by norm_num) (by norm_num)
  have hn2 : |b.val - a.val| ≤ 2 ^ (1001 : ℤ) := (abs_of_pos hn).trans_le (hle.trans hb)
  have hD : 0 < c.val - d.val := hn.trans_le hle
  have hd2 : |c.val - d.val| ≤ 2 ^ (1001 : ℤ) := (abs_of_pos hD).trans_le hb
  obtain ⟨x, x1, x2⟩ := ofQ_fin (lt_of_le_of_lt (rnd_abs_le hrep hn2) hlt)
  obtain ⟨y, y1, y2⟩ := ofQ_fin (lt_of_le_of_lt (rnd_abs_le hrep hd2) hlt)
  have ex := rnd_sub b.rep a.rep
  have ey := rnd_sub c.rep d.rep
  rw [← x2, abs_of_pos hn] at ex
  rw [← y2, abs_of_pos hD] at ey
  have hxy : x.val ≤ y.val := by rw [x2, y2]; exact rnd_mono hle
  generalize hN : b.val - a.val = n at *
  generalize hM : c.val - d.val = m at *
  have hun : u * n ≤ n / 2 := by nlinarith
  have hum : u * m ≤ m / 4 := by nlinarith
  have hx0 : 0 < x.val := by linarith [(abs_le.1 ex).2]
  have hy0 : 0 < y.val := hx0.trans_le hxy
  have hq0 : 0 ≤ x.val / y.val := (div_pos hx0 hy0).le
  have hq1 : x.val / y.val ≤ 1 := (div_le_one hy0).2 hxy
  have hr0 : 0 ≤ rnd (x.val / y.val) := rnd_nonneg hq0
  have hr1 : rnd (x.val / y.val) ≤ 1 := rnd_le rep_one hq1
  obtain ⟨e, e1, e2⟩ := ofQ_fin (q := x.val / y.val) (by
    rw [abs_of_nonneg hr0]; exact lt_of_le_of_lt hr1 (one_lt_pow₀ (by norm_num) (by norm_num)))
  refine ⟨e, ?_, by rw [e2]; exact hr0, by rw [e2]; exact hr1, ?_⟩
  · rw [sub_fin, sub_fin, hN, hM, x1, y1]
    change (if y.val = 0 then _ else ofQ (x.val / y.val)) = _
    rw [if_neg hy0.ne', e1]
  · have er := rnd_error' (x.val / y.val)
    rw [← e2, abs_sub_comm, abs_of_nonneg hq0] at er
    have eu : u * (x.val / y.val) ≤ u * 1 := mul_le_mul_of_nonneg_left hq1 hu.le
    have he : (2 : ℚ) ^ (-1075 : ℤ) ≤ u := by unfold u; exact zpow_le_zpow_right₀ (by norm_num) (by norm_num)
    have hd : |x.val / y.val - n / m| ≤ 3 * u := by
      rw [div_sub_div _ _ hy0.ne' hD.ne', abs_div, abs_of_pos (mul_pos hy0 hD), div_le_iff₀ (mul_pos hy0 hD)]
      have h1 : |x.val * m - y.val * n| ≤ |n - x.val| * m + |m - y.val| * n := by
        have := abs_sub ((m - y.val) * n) ((n - x.val) * m)
        rw [abs_mul, abs_mul, abs_of_pos hn, abs_of_pos hD] at this
        rw [show x.val * m - y.val * n = (m - y.val) * n - (n - x.val) * m by ring]
        linarith
      have h2 : |n - x.val| * m ≤ u * n * m := mul_le_mul_of_nonneg_right ex hD.le
      have h3 : |m - y.val| * n ≤ u * m * n := mul_le_mul_of_nonneg_right ey hn.le
      have h4 : 3 / 4 * m ≤ y.val := by linarith [(abs_le.1 ey).2]
      have h5 : u * (n * m) ≤ u * (m * m) := mul_le_mul_of_nonneg_left (mul_le_mul_of_nonneg_right hle hD.le) hu.le
      have h6 : u * (3 / 4 * m * m) ≤ u * (y.val * m) := mul_le_mul_of_nonneg_left (mul_le_mul_of_nonneg_right h4 hD.le) hu.le
      have h7 : 0 ≤ u * (m * m) := mul_nonneg hu.le (mul_nonneg hD.le hD.le)
      linarith
    have := abs_sub_le e.val (x.val / y.val) (n / m)
    linarith

theorem log_le {y : ℝ} (h1 : 2 ^ (-500 : ℤ) ≤ y) (h2 : y ≤ 2 ^ (500 : ℤ)) : |Real.log y| ≤ 500 := by
  have hy : 0 < y := lt_of_lt_of_le (by positivity) h1
  have l2 : Real.log 2 ≤ 1 := by have := Real.log_le_sub_one_of_pos (show (0 : ℝ) < 2 by norm_num); linarith
  have l0 : 0 ≤ Real.log 2 := Real.log_nonneg (by norm_num)
  have a := Real.log_le_log (by positivity) h1
  have b := Real.log_le_log hy h2
  rw [Real.log_zpow] at a b
  push_cast at a b
  exact abs_le.2 ⟨by linarith, by linarith⟩

theorem ur_tiny : ur ≤ 1 / 10 ^ 12 := by unfold ur; norm_num

/-- What an error of the exponent does. -/
theorem rpow_near {y e e' : ℝ} (h1 : 2 ^ (-500 : ℤ) ≤ y) (h2 : y ≤ 2 ^ (500 : ℤ)) (h : |e' - e| ≤ 5 * ur) :
    |y ^ e' - y ^ e| ≤ 6 * ur * |Real.log y| * y ^ e := by
  have hy : 0 < y := lt_of_lt_of_le (by positivity) h1
  have hl := log_le h1 h2
  have hu := ur_pos
  have hut := ur_tiny
  have hx : |Real.log y * (e' - e)| ≤ 5 * ur * |Real.log y| := by
    rw [abs_mul, mul_comm]; exact mul_le_mul_of_nonneg_right h (abs_nonneg _)
  have h5 : 5 * ur * |Real.log y| ≤ 5 * ur * 500 := mul_le_mul_of_nonneg_left hl (by linarith)
  have hx1 : |Real.log y * (e' - e)| ≤ 1 / 10 := by linarith
  have e1 := Real.abs_exp_sub_one_sub_id_le (x := Real.log y * (e' - e)) (by linarith)
  have e2 : |Real.exp (Real.log y * (e' - e)) - 1| ≤ 6 * ur * |Real.log y| := by
    have h3 := abs_add_le (Real.exp (Real.log y * (e' - e)) - 1 - Real.log y * (e' - e)) (Real.log y * (e' - e))
    rw [sub_add_cancel] at h3
    have h4 : (Real.log y * (e' - e)) ^ 2 ≤ 1 / 10 * |Real.log y * (e' - e)| := by
      rw [← sq_abs, sq]; exact mul_le_mul_of_nonneg_right hx1 (abs_nonneg _)
    have h6 : 0 ≤ ur * |Real.log y| := mul_nonneg hu.le (abs_nonneg _)
    linarith
  have hr : y ^ e' = y ^ e * Real.exp (Real.log y * (e' - e)) := by
    rw [← Real.rpow_def_of_pos hy, ← Real.rpow_add hy]; congr 1; ring
  have hp : 0 < y ^ e := Real.rpow_pos_of_pos hy e
  rw [hr, show y ^ e * Real.exp (Real.log y * (e' - e)) - y ^ e = (Real.exp (Real.log y * (e' - e)) - 1) * y ^ e by ring, abs_mul, abs_of_pos hp]
  exact mul_le_mul_of_nonneg_right e2 hp.le

/-- The errors of the library and of the exponent together. -/
theorem pow_near {pow : X64 → X64 → X64} {δ : ℝ} (hp : GoodPow pow δ) (hδ0 : 0 ≤ δ) {y e : F64} {t : ℝ} (h1 : 2 ^ (-500 : ℤ) ≤ F64.real y)
    (h2 : F64.real y ≤ 2 ^ (500 : ℤ)) (he0 : 0 ≤ F64.real e) (he1 : F64.real e ≤ 1) (h : |F64.real e - t| ≤ 5 * ur) :
    ∃ r : F64, pow (fin y) (fin e) = fin r ∧
      |F64.real r - F64.real y ^ t| ≤ ((1 + δ) * (1 + 6 * ur * |Real.log (F64.real y)|) - 1) * F64.real y ^ t := by
  obtain ⟨r, r1, r2⟩ := hp y e h1 h2 he0 he1
  refine ⟨r, r1, ?_⟩
  have hy : 0 < F64.real y := lt_of_lt_of_le (by positivity) h1
  have h3 := rpow_near h1 h2 h
  have hp : 0 < F64.real y ^ t := Real.rpow_pos_of_pos hy t
  have h4 := abs_sub_le (F64.real r) (F64.real y ^ (F64.real e)) (F64.real y ^ t)
  generalize 6 * ur * |Real.log (F64.real y)| = x at *
  have h5 : F64.real y ^ (F64.real e) ≤ (1 + x) * F64.real y ^ t := by linarith [(abs_le.1 h3).2]
  have h6 : δ * F64.real y ^ (F64.real e) ≤ δ * ((1 + x) * F64.real y ^ t) := mul_le_mul_of_nonneg_left h5 hδ0
  linarith

theorem times {a b A B α β : ℝ} (hA : 0 < A) (hB : 0 < B) (ha : |a - A| ≤ α * A) (hb : |b - B| ≤ β * B) :
    |a * b - A * B| ≤ ((1 + α) * (1 + β) - 1) * (A * B) := by
  have h1 : |a * b - A * B| ≤ |a - A| * |b| + A * |b - B| := by
    have := abs_add_le ((a - A) * b) (A * (b - B))
    rw [abs_mul, abs_mul, abs_of_pos hA] at this
    rwa [show (a - A) * b + A * (b - B) = a * b - A * B by ring] at this
  have h2 : |b| ≤ (1 + β) * B := by
    have := abs_add_le (b - B) B
    rw [sub_add_cancel, abs_of_pos hB] at this
    linarith
  have h3 : |a - A| * |b| ≤ α * A * ((1 + β) * B) := mul_le_mul ha h2 (abs_nonneg _) ((abs_nonneg _).trans ha)
  have h4 : A * |b - B| ≤ A * (β * B) := mul_le_mul_of_nonneg_left hb hA.le
  linarith

/-- **C111**: between two points with positive values the exponential interpolator computes `yr ^ ((p - xl) / (xr - xl)) * yl ^ ((xr - p) / (xr - xl))`, the value on the
straight line through the logarithms, to the factor `3 δ + 2^-50 (1 + |ln yl| + |ln yr|)`, and it is positive. `δ` is the error of the platform's power function. -/
theorem C111_exponential_error {pow : X64 → X64 → X64} {δ : ℝ} (hp : GoodPow pow δ) (hδ0 : 0 ≤ δ) (hδ : δ ≤ 2 ^ (-20 : ℤ)) {p xl xr yl yr : F64}
    (hl : xl.val < p.val) (hr : p.val < xr.val) (hxl : |xl.val| ≤ 2 ^ (1000 : ℤ)) (hxr : |xr.val| ≤ 2 ^ (1000 : ℤ))
    (hyl : 2 ^ (-500 : ℤ) ≤ F64.real yl ∧ F64.real yl ≤ 2 ^ (500 : ℤ)) (hyr : 2 ^ (-500 : ℤ) ≤ F64.real yr ∧ F64.real yr ≤ 2 ^ (500 : ℤ)) :
    ∃ r : F64, powSegment pow (fin p) (fin xl) (fin xr) (fin yl) (fin yr) = fin r ∧ 0 < r.val ∧
      |F64.real r - F64.real yr ^ ((F64.real p - F64.real xl) / (F64.real xr - F64.real xl)) * F64.real yl ^ ((F64.real xr - F64.real p) / (F64.real xr - F64.real xl))| ≤
        (3 * δ + 2 ^ (-50 : ℤ) * (1 + |Real.log (F64.real yl)| + |Real.log (F64.real yr)|)) *
          (F64.real yr ^ ((F64.real p - F64.real xl) / (F64.real xr - F64.real xl)) * F64.real yl ^ ((F64.real xr - F64.real p) / (F64.real xr - F64.real xl))) := by
  have hu := ur_pos
  have hut := ur_tiny
  have hb : xr.val - xl.val ≤ 2 ^ (1001 : ℤ) := by
    have : (2 : ℚ) ^ (1001 : ℤ) = 2 ^ (1000 : ℤ) * 2 := by
      rw [show (1001 : ℤ) = 1000 + 1 by norm_num, zpow_add₀ (by norm_num)]; norm_num
    rw [this]
    generalize (2 : ℚ) ^ (1000 : ℤ) = T at *
    linarith [(abs_le.1 hxl).1, (abs_le.1 hxr).2]
  have hcast : ∀ {e : F64} {q : ℚ}, |e.val - q| ≤ 5 * u → |F64.real e - (q : ℝ)| ≤ 5 * ur := by
    intro e q h
    have := (Rat.cast_le (K := ℝ)).2 h
    unfold F64.real ur
    unfold u at this
    push_cast at this
    exact this
  obtain ⟨e, e1, e2, e3, e4⟩ := ratio (a := xl) (b := p) (c := xr) (d := xl) (by linarith) (by linarith) hb
  obtain ⟨f, f1, f2, f3, f4⟩ := ratio (a := p) (b := xr) (c := xr) (d := xl) (by linarith) (by linarith) hb
  have e5 := hcast e4
  have f5 := hcast f4
  have hreal : ∀ {e : F64}, 0 ≤ e.val → e.val ≤ 1 → 0 ≤ F64.real e ∧ F64.real e ≤ 1 := by
    intro e h1 h2
    unfold F64.real
    exact ⟨by exact_mod_cast h1, by exact_mod_cast h2⟩
  push_cast at e5 f5
  change |_ - (F64.real p - F64.real xl) / (F64.real xr - F64.real xl)| ≤ _ at e5
  change |_ - (F64.real xr - F64.real p) / (F64.real xr - F64.real xl)| ≤ _ at f5
  have hs : (F64.real p - F64.real xl) / (F64.real xr - F64.real xl) + (F64.real xr - F64.real p) / (F64.real xr - F64.real xl) = 1 := by
    have : F64.real xr - F64.real xl ≠ 0 := by
      unfold F64.real
      have h : ((xl.val : ℚ) : ℝ) < xr.val := by exact_mod_cast hl.trans hr
      linarith
    field_simp
    ring
  have hpos : 0 ≤ (F64.real p - F64.real xl) / (F64.real xr - F64.real xl) ∧ 0 ≤ (F64.real xr - F64.real p) / (F64.real xr - F64.real xl) := by
    unfold F64.real
    have h1 : ((xl.val : ℚ) : ℝ) < p.val := by exact_mod_cast hl
    have h2 : ((p.val : ℚ) : ℝ) < xr.val := by exact_mod_cast hr
    exact ⟨div_nonneg (by linarith) (by linarith), div_nonneg (by linarith) (by linarith)⟩
  generalize (F64.real p - F64.real xl) / (F64.real xr - F64.real xl) = s at *
  generalize (F64.real xr - F64.real p) / (F64.real xr - F64.real xl) = t at *
  obtain ⟨a, a1, a2⟩ := pow_near hp hδ0 hyr.1 hyr.2 (hreal e2 e3).1 (hreal e2 e3).2 e5
  obtain ⟨b, b1, b2⟩ := pow_near hp hδ0 hyl.1 hyl.2 (hreal f2 f3).1 (hreal f2 f3).2 f5
  have hyl0 : 0 < F64.real yl := lt_of_lt_of_le (by positivity) hyl.1
  have hyr0 : 0 < F64.real yr := lt_of_lt_of_le (by positivity) hyr.1
  have hA : 0 < F64.real yr ^ s := Real.rpow_pos_of_pos hyr0 s
  have hB : 0 < F64.real yl ^ t := Real.rpow_pos_of_pos hyl0 t
  have hLl := log_le hyl.1 hyl.2
  have hLr := log_le hyr.1 hyr.2
  have hl0 := abs_nonneg (Real.log (F64.real yl))
  have hr0 := abs_nonneg (Real.log (F64.real yr))
  have hV1 : (2 : ℝ) ^ (-500 : ℤ) ≤ F64.real yr ^ s * F64.real yl ^ t := by
    have h0 : (0 : ℝ) < 2 ^ (-500 : ℤ) := by positivity
    calc (2 : ℝ) ^ (-500 : ℤ) = (2 ^ (-500 : ℤ)) ^ s * (2 ^ (-500 : ℤ)) ^ t := by rw [← Real.rpow_add h0, hs, Real.rpow_one]
      _ ≤ _ := mul_le_mul (Real.rpow_le_rpow h0.le hyr.1 hpos.1) (Real.rpow_le_rpow h0.le hyl.1 hpos.2) (Real.rpow_nonneg h0.le _) hA.le
  have hV2 : F64.real yr ^ s * F64.real yl ^ t ≤ (2 : ℝ) ^ (500 : ℤ) := by
    have h0 : (0 : ℝ) < 2 ^ (500 : ℤ) := by positivity
    calc _ ≤ ((2 : ℝ) ^ (500 : ℤ)) ^ s * (2 ^ (500 : ℤ)) ^ t :=
          mul_le_mul (Real.rpow_le_rpow hyr0.le hyr.2 hpos.1) (Real.rpow_le_rpow hyl0.le hyl.2 hpos.2) hB.le (Real.rpow_nonneg h0.le _)
      _ = _ := by rw [← Real.rpow_add h0, hs, Real.rpow_one]
  have hδ1 : δ ≤ 1 / 1000 := hδ.trans (by norm_num)
  have hxb : 0 ≤ 6 * ur * |Real.log (F64.real yr)| := mul_nonneg (by linarith) hr0
  have hyb : 0 ≤ 6 * ur * |Real.log (F64.real yl)| := mul_nonneg (by linarith) hl0
  have hxs : 6 * ur * |Real.log (F64.real yr)| ≤ 1 / 1000 := by
    have : 6 * ur * |Real.log (F64.real yr)| ≤ 6 * ur * 500 := mul_le_mul_of_nonneg_left hLr (by linarith)
    linarith
  have hys : 6 * ur * |Real.log (F64.real yl)| ≤ 1 / 1000 := by
    have : 6 * ur * |Real.log (F64.real yl)| ≤ 6 * ur * 500 := mul_le_mul_of_nonneg_left hLl (by linarith)
    linarith
  have hgoal : (2 : ℝ) ^ (-50 : ℤ) * (1 + |Real.log (F64.real yl)| + |Real.log (F64.real yr)|) =
      8 * ur + 4 / 3 * (6 * ur * |Real.log (F64.real yr)| + 6 * ur * |Real.log (F64.real yl)|) := by
    rw [Verif.Float.Curves.eight]; ring
  rw [hgoal]
  generalize 6 * ur * |Real.log (F64.real yr)| = x at *
  generalize 6 * ur * |Real.log (F64.real yl)| = y at *
  have hab := times hA hB a2 b2
  generalize F64.real yr ^ s * F64.real yl ^ t = V at *
  have hV0 : 0 < V := lt_of_lt_of_le (by positivity) hV1
  have hγ : (1 + ((1 + δ) * (1 + x) - 1)) * (1 + ((1 + δ) * (1 + y) - 1)) - 1 ≤ 21 / 10 * δ + 11 / 10 * (x + y) := by
    have k1 : (1 + δ) * (1 + δ) ≤ 1 + 201 / 100 * δ := by nlinarith
    have k2 : (1 + x) * (1 + y) ≤ 1 + 101 / 100 * (x + y) := by nlinarith
    have k3 : (1 + δ) * (1 + δ) * ((1 + x) * (1 + y)) ≤ (1 + 201 / 100 * δ) * (1 + 101 / 100 * (x + y)) :=
      mul_le_mul k1 k2 (by positivity) (by positivity)
    have k4 : δ * (x + y) ≤ δ * (2 / 1000) := mul_le_mul_of_nonneg_left (by linarith) hδ0
    nlinarith
  have hab' : |F64.real a * F64.real b - V| ≤ (21 / 10 * δ + 11 / 10 * (x + y)) * V :=
    hab.trans (mul_le_mul_of_nonneg_right hγ hV0.le)
  have hprod : |F64.real a * F64.real b| ≤ 2 * V := by
    have := abs_add_le (F64.real a * F64.real b - V) V
    rw [sub_add_cancel, abs_of_pos hV0] at this
    have h2 : (21 / 10 * δ + 11 / 10 * (x + y)) * V ≤ 1 * V := mul_le_mul_of_nonneg_right (by linarith) hV0.le
    linarith
  have htop : |((a.val * b.val : ℚ) : ℝ)| ≤ top := by
    push_cast
    change |F64.real a * F64.real b| ≤ top
    refine hprod.trans ?_
    have : (2 : ℝ) * 2 ^ (500 : ℤ) ≤ top := by
      unfold top
      rw [show (2 : ℝ) ^ (500 : ℤ) = 2 ^ 500 from zpow_natCast 2 500, ← pow_succ']
      exact pow_le_pow_right₀ (by norm_num) (by norm_num)
    generalize (2 : ℝ) ^ (500 : ℤ) = T at *
    linarith
  obtain ⟨r, r1, r2⟩ := toF64_total htop
  have hround := rnd_real (a.val * b.val)
  rw [← r2] at hround
  push_cast at hround
  change |F64.real r - F64.real a * F64.real b| ≤ ur * |F64.real a * F64.real b| + mu at hround
  have hmu : mu ≤ ur * V := by
    have h1 : mu = 2 ^ (-522 : ℤ) * (ur * 2 ^ (-500 : ℤ)) := by
      unfold mu ur
      rw [← zpow_add₀ (by norm_num), ← zpow_add₀ (by norm_num)]
      norm_num
    rw [h1]
    have h2 : ur * 2 ^ (-500 : ℤ) ≤ ur * V := mul_le_mul_of_nonneg_left hV1 hu.le
    have h3 : (2 : ℝ) ^ (-522 : ℤ) ≤ 1 := zpow_le_one_of_nonpos₀ (by norm_num) (by norm_num)
    have h4 : 0 ≤ ur * (2 : ℝ) ^ (-500 : ℤ) := mul_nonneg hu.le (zpow_nonneg (by norm_num) _)
    exact (mul_le_of_le_one_left h4 h3).trans h2
  have h5 : ur * |F64.real a * F64.real b| ≤ ur * (2 * V) := mul_le_mul_of_nonneg_left hprod hu.le
  have hfinal : |F64.real r - V| ≤ (3 * δ + (8 * ur + 4 / 3 * (x + y))) * V := by
    have h6 := abs_sub_le (F64.real r) (F64.real a * F64.real b) V
    have h7 : (21 / 10 * δ + 11 / 10 * (x + y) + 3 * ur) * V ≤ (3 * δ + (8 * ur + 4 / 3 * (x + y))) * V :=
      mul_le_mul_of_nonneg_right (by linarith) hV0.le
    linarith
  refine ⟨r, ?_, ?_, hfinal⟩
  · unfold powSegment
    rw [e1, f1, a1, b1]
    exact fin_of r1
  · have h8 : (3 * δ + (8 * ur + 4 / 3 * (x + y))) * V ≤ 1 / 2 * V := mul_le_mul_of_nonneg_right (by linarith) hV0.le
    have h9 : 0 < F64.real r := by linarith [(abs_le.1 hfinal).1]
    unfold F64.real at h9
    exact_mod_cast h9

end Verif.Float.Spline
