import Verif.Float.NelsonSiegelCost
import Verif.Float.NelsonSiegelDiscount
import Verif.Float.ActivationsRun
import Mathlib.Analysis.SpecialFunctions.Trigonometric.Series

/-!
# C110: a platform and cases
-/

namespace Verif.Float.Curves

open X64 Nan Verif.Float.Sim Verif.Float.Bsm Verif.Float.Laws Fft Activation
open Verif.Time (Date)

/-- The hyperbolic cosine, rounded. -/
noncomputable def goodCosh : X64 → X64
  | fin a => ofQ (grid (Real.cosh (F64.real a)))
  | inf _ => inf false
  | nan => nan

/-- The logarithm, rounded. -/
noncomputable def goodLn : X64 → X64
  | fin a => if a.val < 0 then nan else if a.val = 0 then inf true else ofQ (grid (Real.log (F64.real a)))
  | inf s => if s then nan else inf false
  | nan => nan

/-- A platform that rounds well. -/
noncomputable def goodLib : Lib := ⟨goodExp, goodCosh, goodLn⟩

theorem grid_fine (y : ℝ) : (grid y : ℝ) ≤ y + 2 ^ (-1200 : ℤ) := by
  unfold grid
  push_cast
  have h2 := Int.ceil_lt_add_one (y * 2 ^ 1200)
  have hp : (0 : ℝ) < 2 ^ 1200 := by positivity
  rw [zpow_neg, show ((2 : ℝ) ^ (1200 : ℤ)) = 2 ^ 1200 from zpow_natCast 2 1200, div_le_iff₀ hp, add_mul, inv_mul_cancel₀ hp.ne']
  exact h2.le

theorem rnd_tie_below : rnd (1 - 2 ^ (-54 : ℤ)) = 1 := by
  have e : (toF64 (1 - 2 ^ (-54 : ℤ))).map F64.val = some 1 := by decide +kernel
  obtain ⟨a, a1, a2⟩ := Option.map_eq_some_iff.1 e
  have := toF64_some a1
  rw [← this, a2]

theorem ofQ_grid_one {y : ℝ} (h1 : 1 - 2 ^ (-54 : ℤ) ≤ y) (h2 : y ≤ 1 + 2 ^ (-54 : ℤ) + 2 ^ (-60 : ℤ)) : ofQ (grid y) = ofQ 1 := by
  have g1 := (grid_near y).1
  have g2 := grid_fine y
  have h3 : (1 - 2 ^ (-54 : ℤ) : ℚ) ≤ grid y := by
    rw [← Rat.cast_le (K := ℝ)]; push_cast; exact h1.trans g1
  have h4 : grid y ≤ (1 + 2 ^ (-53 : ℤ) : ℚ) := by
    rw [← Rat.cast_le (K := ℝ)]; push_cast
    have : (2 : ℝ) ^ (-1200 : ℤ) ≤ 2 ^ (-60 : ℤ) := zpow_le_zpow_right₀ (by norm_num) (by norm_num)
    refine (g2.trans (_root_.add_le_add h2 this)).trans ?_
    norm_num
  have h5 : rnd (grid y) = 1 := le_antisymm (rnd_tie ▸ rnd_mono h4) (rnd_tie_below ▸ rnd_mono h3)
  obtain ⟨i, i1, i2⟩ := one_fin
  obtain ⟨c, c1, c2⟩ := ofQ_fin (q := grid y) (by rw [h5, abs_one]; exact one_lt_pow₀ (by norm_num) (by norm_num))
  rw [c1, i1]
  congr 1
  exact F64.ext (by rw [c2, h5, i2])

theorem eight : (2 : ℝ) ^ (-50 : ℤ) = 8 * ur := by unfold ur; norm_num

/-- Rounding a positive number that is not huge. -/
theorem grid_round {y : ℝ} (h0 : 0 ≤ y) (h1 : y ≤ 2 ^ 990) :
    ∃ r : F64, ofQ (grid y) = fin r ∧ |F64.real r - y| ≤ ur * (y + 2 ^ (-1200 : ℤ)) + mu + 2 ^ (-1200 : ℤ) := by
  have hu := ur_pos
  have g1 := (grid_near y).1
  have g2 := grid_fine y
  have hs : (2 : ℝ) ^ (-1200 : ℤ) ≤ 1 := zpow_le_one_of_nonpos₀ (by norm_num) (by norm_num)
  have hg0 : 0 ≤ (grid y : ℝ) := h0.trans g1
  generalize (2 : ℝ) ^ (-1200 : ℤ) = s at *
  have htop : |(grid y : ℝ)| ≤ top := by
    rw [abs_of_nonneg hg0]
    have h4 : (2 : ℝ) ^ 991 ≤ top := pow_le_pow_right₀ (by norm_num) (by norm_num)
    rw [pow_succ] at h4
    have h5 : (1 : ℝ) ≤ 2 ^ 990 := one_le_pow₀ (by norm_num)
    generalize (2 : ℝ) ^ 990 = T at *
    linarith
  obtain ⟨r, r1, r2⟩ := toF64_total htop
  refine ⟨r, fin_of r1, ?_⟩
  have h5 := rnd_real (grid y)
  rw [← r2] at h5
  change |F64.real r - grid y| ≤ _ at h5
  rw [abs_of_nonneg hg0] at h5
  have h6 : ur * (grid y : ℝ) ≤ ur * (y + s) := mul_le_mul_of_nonneg_left g2 hu.le
  rw [show F64.real r - y = (F64.real r - grid y) + (grid y - y) by ring]
  refine (abs_add_le _ _).trans ?_
  rw [abs_of_nonneg (show 0 ≤ (grid y : ℝ) - y by linarith)]
  linarith

theorem fine_mu : (2 : ℝ) ^ (-1200 : ℤ) ≤ mu / 4 := by
  unfold mu
  rw [show (2 : ℝ) ^ (-1075 : ℤ) / 4 = 2 ^ (-1077 : ℤ) by
    rw [show (-1075 : ℤ) = -1077 + 2 by norm_num, zpow_add₀ (by norm_num)]; norm_num]
  exact zpow_le_zpow_right₀ (by norm_num) (by norm_num)

theorem goodLib_good : goodLib.Good (2 ^ (-50 : ℤ)) := by
  have G := Activation.goodLib_good
  have hu := ur_pos
  have hu1 := ur_le
  have hmu := mu_pos
  have hmu4 := mu_ur
  have hfm := fine_mu
  have hf0 : (0 : ℝ) < 2 ^ (-1200 : ℤ) := by positivity
  have hb2 : ∀ {a : F64} {k : ℤ}, |a.val| ≤ (2 : ℚ) ^ k → |F64.real a| ≤ (2 : ℝ) ^ k := by
    intro a k h
    have := (Rat.cast_le (K := ℝ)).2 h
    rw [Rat.cast_zpow, Rat.cast_abs, Rat.cast_ofNat] at this
    exact this
  refine ⟨rfl, rfl, G.exp_zero, G.exp_mono, G.exp_near, ?_, ?_, rfl, ?_, ?_, ?_, fun _ => rfl, ?_, rfl, ?_, ?_, ?_, rfl⟩
  · intro a ha
    have hE0 := Real.exp_pos (F64.real a)
    have hE1 : Real.exp (F64.real a) ≤ 1 := Real.exp_le_one_iff.2 ha
    obtain ⟨r, r1, r2⟩ := grid_round hE0.le (hE1.trans (one_le_pow₀ (by norm_num)))
    refine ⟨r, r1, r2.trans ?_⟩
    have h2 : (2 : ℝ) ^ (-1074 : ℤ) = 2 * mu := by
      unfold mu
      rw [show (-1074 : ℤ) = -1075 + 1 by norm_num, zpow_add₀ (by norm_num)]; ring
    rw [h2, eight]
    generalize (2 : ℝ) ^ (-1200 : ℤ) = s at *
    nlinarith [mul_pos hu hE0]
  · intro a ha
    have hr := hb2 ha
    refine ofQ_grid_one ?_ ?_
    · have := Real.add_one_le_exp (F64.real a)
      linarith [(abs_le.1 hr).1]
    · have h1 : |F64.real a| ≤ 1 := hr.trans (by norm_num)
      have h2 := (abs_le.1 (Real.abs_exp_sub_one_sub_id_le h1)).2
      have h3 : F64.real a ^ 2 ≤ 2 ^ (-60 : ℤ) := by
        rw [← sq_abs]
        refine (pow_le_pow_left₀ (abs_nonneg _) hr 2).trans (by norm_num)
      linarith [(abs_le.1 hr).2]
  · intro a ha
    have hr := hb2 ha
    refine ofQ_grid_one ?_ ?_
    · have := Real.one_le_cosh (F64.real a)
      refine le_trans ?_ this
      norm_num
    · have h1 := Real.cosh_le_exp_half_sq (F64.real a)
      have h3 : F64.real a ^ 2 / 2 ≤ 2 ^ (-55 : ℤ) := by
        rw [← sq_abs]
        have := pow_le_pow_left₀ (abs_nonneg _) hr 2
        refine (div_le_div_of_nonneg_right this (by norm_num)).trans (by norm_num)
      have h0 : 0 ≤ F64.real a ^ 2 / 2 := by positivity
      have h4 : |F64.real a ^ 2 / 2| ≤ 1 := by
        rw [abs_of_nonneg h0]; exact h3.trans (by norm_num)
      have h2 := (abs_le.1 (Real.abs_exp_sub_one_le h4)).2
      rw [abs_of_nonneg h0] at h2
      refine h1.trans ?_
      have : (2 : ℝ) ^ (-54 : ℤ) = 2 * 2 ^ (-55 : ℤ) := by norm_num
      have h6 : (0 : ℝ) ≤ 2 ^ (-60 : ℤ) := by positivity
      linarith
  · intro x hx
    cases x with
    | nan => exact absurd rfl hx
    | inf s => exact le_top (by obtain ⟨i, i1, -⟩ := one_fin; rw [i1]; nofun)
    | fin a =>
      refine ofQ_mono ?_
      have : (1 : ℝ) ≤ (grid (Real.cosh (F64.real a)) : ℝ) := (Real.one_le_cosh _).trans (grid_near _).1
      exact_mod_cast this
  · intro a ha
    have hE1 := Real.one_le_cosh (F64.real a)
    have hE2 : Real.cosh (F64.real a) ≤ 2 ^ 990 := by
      rw [← Real.cosh_abs, Real.cosh_eq]
      have h1 : Real.exp |F64.real a| ≤ 2 ^ 990 := (Real.exp_le_exp.2 ha).trans exp_big
      have h2 : Real.exp (-|F64.real a|) ≤ Real.exp |F64.real a| := Real.exp_le_exp.2 (by linarith [abs_nonneg (F64.real a)])
      linarith
    obtain ⟨r, r1, r2⟩ := grid_round (by linarith) hE2
    refine ⟨r, r1, r2.trans ?_⟩
    rw [eight]
    generalize (2 : ℝ) ^ (-1200 : ℤ) = s at *
    nlinarith
  · intro a ha
    change ofQ (grid (Real.cosh (F64.real a))) = _
    have h1 : (711 : ℝ) ≤ |F64.real a| := by unfold F64.real; exact_mod_cast ha
    have h2 : (2 : ℝ) ^ 1024 ≤ (grid (Real.cosh (F64.real a)) : ℝ) := by
      refine exp_huge.trans (le_trans ?_ (grid_near _).1)
      rw [← Real.cosh_abs, Real.cosh_eq]
      have h3 := Real.exp_pos (-|F64.real a|)
      have h4 : Real.exp 711 ≤ Real.exp |F64.real a| := Real.exp_le_exp.2 h1
      have h5 : Real.exp 711 = Real.exp 710 * Real.exp 1 := by rw [← Real.exp_add]; norm_num
      have h6 : 2 ≤ Real.exp 1 := by linarith [Real.exp_one_gt_d9]
      have h7 : Real.exp 710 * 2 ≤ Real.exp 710 * Real.exp 1 := mul_le_mul_of_nonneg_left h6 (Real.exp_pos _).le
      linarith
    have h3 : (2 : ℚ) ^ 1024 ≤ grid (Real.cosh (F64.real a)) := by
      rw [← Rat.cast_le (K := ℝ), Rat.cast_pow]
      exact h2
    have h4 : Rep ((2 : ℚ) ^ 1024) := by
      have := rep_two 1024 (by norm_num)
      exact_mod_cast this
    have h5 := le_rnd h4 h3
    have h6 : 0 ≤ grid (Real.cosh (F64.real a)) := le_trans (by positivity) h3
    rw [ofQ_inf (not_lt.2 (h5.trans (le_abs_self _))), decide_eq_false (not_lt.2 h6)]
  · obtain ⟨i, i1, i2⟩ := one_fin
    change goodLn (ofQ 1) = _
    rw [i1]
    change (if i.val < 0 then _ else if i.val = 0 then _ else ofQ (grid (Real.log (F64.real i)))) = _
    have hr : F64.real i = 1 := by unfold F64.real; rw [i2]; norm_num
    rw [i2, hr, Real.log_one, if_neg (by norm_num), if_neg (by norm_num)]
    have : grid 0 = 0 := by unfold grid; simp
    rw [this]; exact ofQ_zero
  · intro x hx
    obtain ⟨i, i1, i2⟩ := one_fin
    rw [i1] at hx
    cases x with
    | nan => rw [le_nan] at hx; simp at hx
    | inf s => cases s with
      | true => simp [le] at hx
      | false => rfl
    | fin a =>
      have h1 : 1 ≤ a.val := by have := (le_fin i a).1 hx; rwa [i2] at this
      change le zero (if a.val < 0 then _ else if a.val = 0 then _ else ofQ (grid (Real.log (F64.real a)))) = true
      rw [if_neg (by linarith), if_neg (by linarith), ← ofQ_zero]
      refine ofQ_mono ?_
      have h2 : (1 : ℝ) ≤ F64.real a := by unfold F64.real; exact_mod_cast h1
      have : (0 : ℝ) ≤ (grid (Real.log (F64.real a)) : ℝ) := (Real.log_nonneg h2).trans (grid_near _).1
      exact_mod_cast this
  · intro a ha
    have h1 : 1 ≤ a.val := by unfold F64.real at ha; exact_mod_cast ha
    have hl0 := Real.log_nonneg ha
    have hl1 : Real.log (F64.real a) ≤ 2 ^ 990 := by
      have h2 : F64.real a ≤ Real.exp 710 := by
        refine le_trans ?_ exp_huge
        have := (abs_lt.1 a.fin).2.le
        have := (Rat.cast_le (K := ℝ)).2 this
        rw [Rat.cast_pow, Rat.cast_ofNat] at this
        exact this
      have h3 : Real.log (F64.real a) ≤ 710 := by
        have := Real.log_le_log (by linarith) h2
        rwa [Real.log_exp] at this
      have h4 : (2 : ℝ) ^ 10 ≤ 2 ^ 990 := pow_le_pow_right₀ (by norm_num) (by norm_num)
      refine h3.trans (le_trans (by norm_num) h4)
    obtain ⟨r, r1, r2⟩ := grid_round hl0 hl1
    refine ⟨r, ?_, r2.trans ?_⟩
    · change (if a.val < 0 then _ else if a.val = 0 then _ else ofQ (grid (Real.log (F64.real a)))) = _
      rw [if_neg (by linarith), if_neg (by linarith), r1]
    · rw [eight]
      generalize (2 : ℝ) ^ (-1200 : ℤ) = s at *
      nlinarith

/-! ## Cases -/

/-- The number `m / 2^k`. -/
def dyadic (m : ℤ) (k : ℕ) (hm : |m| < 2 ^ 53) (hk : k ≤ 1074) : F64 := by
  refine ⟨m * 2 ^ (-(k : ℤ)), ⟨m, -k, rfl, ?_, by omega⟩, ?_⟩
  · exact_mod_cast hm
  · rw [abs_mul, abs_of_pos (show (0 : ℚ) < 2 ^ (-(k : ℤ)) by positivity)]
    have h1 : ((|m| : ℤ) : ℚ) < 2 ^ 53 := by exact_mod_cast hm
    rw [Int.cast_abs] at h1
    have h2 : (2 : ℚ) ^ (-(k : ℤ)) ≤ 1 := zpow_le_one_of_nonpos₀ (by norm_num) (by omega)
    have h3 : |(m : ℚ)| * 2 ^ (-(k : ℤ)) ≤ |(m : ℚ)| * 1 := mul_le_mul_of_nonneg_left h2 (abs_nonneg _)
    have h4 : (2 : ℚ) ^ 53 < 2 ^ 1024 := pow_lt_pow_right₀ (by norm_num) (by norm_num)
    rw [mul_one] at h3
    exact lt_trans (lt_of_le_of_lt h3 h1) h4

/-- `β = (4, -1, 1, 1/2)` and `λ = (3/2, 4)`. -/
def curve : Params := ⟨dyadic 16 2 (by norm_num) (by norm_num), dyadic (-4) 2 (by norm_num) (by norm_num),
  dyadic 4 2 (by norm_num) (by norm_num), dyadic 2 2 (by norm_num) (by norm_num), dyadic 6 2 (by norm_num) (by norm_num),
  dyadic 16 2 (by norm_num) (by norm_num)⟩

theorem curve_size : curve.size = 13 / 2 := by
  simp only [Params.size, curve, F64.real, dyadic]
  norm_num [abs_of_nonneg, abs_of_neg]

theorem curve_lambda : F64.real curve.lambda1 = 3 / 2 ∧ F64.real curve.lambda2 = 4 := by
  simp only [curve, F64.real, dyadic]
  norm_num

theorem curve_moderate : curve.Moderate := by
  have h1 : (2 : ℝ) ^ (-500 : ℤ) ≤ 1 := zpow_le_one_of_nonpos₀ (by norm_num) (by norm_num)
  have h2 : (2 : ℝ) ^ 3 ≤ 2 ^ 500 := pow_le_pow_right₀ (by norm_num) (by norm_num)
  have h3 : (2 : ℝ) ^ 3 ≤ 2 ^ 450 := pow_le_pow_right₀ (by norm_num) (by norm_num)
  unfold Params.Moderate
  rw [curve_size, curve_lambda.1, curve_lambda.2]
  exact ⟨⟨h1.trans (by norm_num), le_trans (by norm_num) h2⟩, ⟨h1.trans (by norm_num), le_trans (by norm_num) h2⟩, le_trans (by norm_num) h3⟩

theorem eps : (0 : ℝ) ≤ 2 ^ (-50 : ℤ) ∧ (2 : ℝ) ^ (-50 : ℤ) ≤ 1 / 16 ∧ (2 : ℝ) ^ (-50 : ℤ) ≤ 2 ^ (-16 : ℤ) := by norm_num

example := C110_forward_error goodLib_good eps.1 eps.2.1 curve curve_moderate (today := ⟨2024, 2, 29, by decide⟩)
  (date := ⟨2030, 1, 1, by decide⟩) (by decide)

example := C110_spot_error goodLib_good eps.1 eps.2.1 curve curve_moderate (today := ⟨2024, 2, 29, by decide⟩)
  (date := ⟨2030, 1, 1, by decide⟩) (by decide)

example := C110_discount_error goodLib_good eps.1 eps.2.2 curve curve_moderate (today := ⟨2024, 2, 29, by decide⟩)
  (date := ⟨2030, 1, 1, by decide⟩) (by decide) (by
    rw [curve_size, curve_lambda.1, curve_lambda.2]
    have : Stochastics.years ⟨2024, 2, 29, by decide⟩ ⟨2030, 1, 1, by decide⟩ ≤ 1000 := by
      have h : Date.dayNum ⟨2030, 1, 1, by decide⟩ - Date.dayNum ⟨2024, 2, 29, by decide⟩ ≤ 3000 := by decide +kernel
      have h' : ((Date.dayNum ⟨2030, 1, 1, by decide⟩ - Date.dayNum ⟨2024, 2, 29, by decide⟩ : ℤ) : ℝ) ≤ 3000 := by exact_mod_cast h
      unfold Stochastics.years
      rw [div_le_iff₀ (by norm_num)]
      linarith
    linarith)

example : curve.nss.spotRate goodLib ⟨2024, 2, 29, by decide⟩ ⟨2024, 2, 29, by decide⟩ = none :=
  (C110_panics goodLib curve.nss (by decide)).2.1

example := C110_nan goodLib_good { curve.nss with beta2 := nan } (by simp) (today := ⟨2024, 2, 29, by decide⟩)
  (date := ⟨2030, 1, 1, by decide⟩) (by decide)

example : ({ curve.nss with lambda2 := zero } : Nss).forwardRate goodLib ⟨2024, 2, 29, by decide⟩ ⟨2030, 1, 1, by decide⟩ = some nan :=
  C110_small_lambda goodLib_good _ (a := F64.zero) (Or.inr rfl) (by rw [Laws.zero_val]) (by rw [Laws.zero_val]; positivity) (by decide)

/-- The number `2^70`. -/
def huge : F64 := ⟨2 ^ (70 : ℤ), ⟨1, 70, by simp, by norm_num, by norm_num⟩, by
  rw [abs_of_pos (by positivity), ← zpow_natCast]; exact zpow_lt_zpow_right₀ (by norm_num) (by norm_num)⟩

/-- `β = (4, -1, 0, 0)` and `λ = (2^70, 2^70)`. -/
def slow : Params := ⟨curve.beta0, curve.beta1, F64.zero, F64.zero, huge, huge⟩

theorem slow_spot {today date : Date} (h : today < date) : slow.nss.spotRate goodLib today date = some (fin curve.beta0) :=
  (C110_large_lambda goodLib_good slow rfl rfl le_rfl le_rfl h).2.2

theorem four : curve.beta0.val = 4 := by
  simp only [curve, dyadic]
  norm_num

example : ∃ d, slow.nss.discountFactor goodLib ⟨2024, 2, 29, by decide⟩ ⟨2030, 1, 1, by decide⟩ = some d ∧ Fraction d :=
  C110_discount_range goodLib_good _ (by decide) (slow_spot (by decide)) ((le_fin _ _).2 (by rw [four, Laws.zero_val]; norm_num))

/-- Two nodes, at 5 and 3, where the curve gives 4. -/
def rows : List Row := [⟨⟨2030, 1, 1, by decide⟩, dyadic 20 2 (by norm_num) (by norm_num), curve.beta0⟩,
  ⟨⟨2035, 1, 1, by decide⟩, dyadic 12 2 (by norm_num) (by norm_num), curve.beta0⟩]

theorem rows_fit : Fits goodLib .spot slow.nss ⟨2024, 2, 29, by decide⟩ rows := by
  intro r hr
  simp only [rows, List.mem_cons, List.not_mem_nil, or_false] at hr
  rcases hr with rfl | rfl <;> exact slow_spot (by decide)

example := C110_cost_nonneg goodLib_good (by decide) (by simp [rows]) (by simp [rows]) rows_fit

example := C110_cost_error goodLib_good eps.1 eps.2.1 (by decide) (by simp [rows]) (by simp [rows]) rows_fit (M := 1) (by norm_num) (by
  intro r hr
  simp only [rows, List.mem_cons, List.not_mem_nil, or_false] at hr
  rcases hr with rfl | rfl <;> simp only [curve, F64.real, dyadic] <;> norm_num [abs_of_neg, abs_of_pos])

/-- A node at `4 + 2^-28`, where the curve gives 4: the cost is zero. -/
example : ∃ d, dyadic (2 ^ 30 + 1) 28 (by norm_num) (by norm_num) = d ∧ d.val ≠ 4 ∧
    cost goodLib .spot [(⟨2030, 1, 1, by decide⟩, fin d)] ⟨2024, 2, 29, by decide⟩ slow.nss = some zero := by
  refine ⟨_, rfl, ?_, ?_⟩
  · simp only [dyadic]; norm_num
  · exact C110_cost_flat goodLib_good (by decide) (rows := [⟨⟨2030, 1, 1, by decide⟩, _, curve.beta0⟩]) (by simp) (by simp)
      (by intro r hr; obtain rfl := List.mem_singleton.1 hr; exact slow_spot (by decide))
      (by
        intro r hr
        obtain rfl := List.mem_singleton.1 hr
        simp only [four]
        norm_num [abs_of_neg, abs_of_pos])

/-- A node at 1000. -/
example : cost goodLib .spot [(⟨2030, 1, 1, by decide⟩, fin (dyadic 1000 0 (by norm_num) (by norm_num)))] ⟨2024, 2, 29, by decide⟩ slow.nss =
    some (inf false) :=
  C110_cost_overflow goodLib_good (by decide) (rows := [⟨⟨2030, 1, 1, by decide⟩, _, curve.beta0⟩]) (by simp)
    (by intro r hr; obtain rfl := List.mem_singleton.1 hr; exact slow_spot (by decide))
    ⟨_, List.mem_singleton.2 rfl, by simp only [four]; norm_num [abs_of_neg, abs_of_pos]⟩

example : cost goodLib .forward [(⟨2030, 1, 1, by decide⟩, nan), (⟨2031, 1, 1, by decide⟩, zero)] ⟨2024, 2, 29, by decide⟩ curve.nss = some nan :=
  C110_cost_nan goodLib_good (by decide) (by simp only [List.mem_cons, List.not_mem_nil, or_false, forall_eq_or_imp, forall_eq]; decide)
    ⟨_, List.mem_cons_self, Or.inl rfl⟩

example := C110_cost_empty goodLib (t := .discount) (by decide) curve.nss ⟨2024, 2, 29, by decide⟩

example : cost goodLib .spot [(⟨2024, 2, 29, by decide⟩, zero)] ⟨2024, 2, 29, by decide⟩ curve.nss = none :=
  C110_cost_panics goodLib .spot _ _ _ (Or.inr ⟨_, List.mem_cons_self, by decide⟩)

end Verif.Float.Curves
