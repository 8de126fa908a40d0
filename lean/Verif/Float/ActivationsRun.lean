import Verif.Float.ActivationsVar
import Verif.Float.ActivationsGelu
import Verif.Float.TapeRun

/-!
# C109: a platform and cases
-/

namespace Verif.Float.Activation

open X64 Nan Verif.Float.Sim Verif.Float.Bsm Verif.Float.Laws Fft

/-- A real number rounded up to a multiple of `2^-1200`. -/
noncomputable def grid (y : ℝ) : ℚ := ⌈y * 2 ^ 1200⌉ / 2 ^ 1200

theorem grid_mono {y z : ℝ} (h : y ≤ z) : grid y ≤ grid z := by
  unfold grid
  have : ⌈y * 2 ^ 1200⌉ ≤ ⌈z * 2 ^ 1200⌉ := Int.ceil_mono (mul_le_mul_of_nonneg_right h (by positivity))
  have h2 : ((⌈y * 2 ^ 1200⌉ : ℤ) : ℚ) ≤ ⌈z * 2 ^ 1200⌉ := by exact_mod_cast this
  exact div_le_div_of_nonneg_right h2 (by positivity)

theorem grid_near (y : ℝ) : y ≤ (grid y : ℝ) ∧ (grid y : ℝ) ≤ y + mu := by
  unfold grid
  push_cast
  have h1 := Int.le_ceil (y * 2 ^ 1200)
  have h2 := Int.ceil_lt_add_one (y * 2 ^ 1200)
  have hp : (0 : ℝ) < 2 ^ 1200 := by positivity
  have hm : 1 / 2 ^ 1200 ≤ mu := by
    unfold mu
    rw [one_div, ← zpow_natCast, ← zpow_neg]
    exact zpow_le_zpow_right₀ (by norm_num) (by norm_num)
  constructor
  · rwa [le_div_iff₀ hp]
  · refine le_trans ?_ (_root_.add_le_add le_rfl hm)
    rw [div_le_iff₀ hp, add_mul, one_div_mul_cancel hp.ne']
    exact h2.le

theorem grid_one : grid 1 = 1 := by
  unfold grid
  have : ⌈(1 : ℝ) * 2 ^ 1200⌉ = 2 ^ 1200 := by
    rw [one_mul, show ((2 : ℝ) ^ 1200) = (((2 : ℤ) ^ 1200 : ℤ) : ℝ) by rw [Int.cast_pow]; rfl, Int.ceil_intCast]
  rw [this, Int.cast_pow]
  exact div_self (by positivity)

/-- The exponential function, rounded. -/
noncomputable def goodExp : X64 → X64
  | fin a => ofQ (grid (Real.exp (F64.real a)))
  | inf s => if s then zero else inf false
  | nan => nan

/-- The logarithm, rounded. -/
noncomputable def goodLn : X64 → X64
  | fin a => if a.val = 1 then zero else lift someLibm.ln (fin a)
  | inf s => if s then nan else inf false
  | nan => nan

/-- The error function, rounded. -/
noncomputable def goodErf : X64 → X64
  | fin a => lift (fun a => nearest (Distributions.erf (F64.real a))) (fin a)
  | inf s => if s then ofQ (-1) else ofQ 1
  | nan => nan

/-- A platform that rounds well. -/
noncomputable def goodLib : Lib := ⟨goodExp, goodLn, lift someLibm.sqrt, goodErf⟩

theorem rep_two (e : ℤ) (he : -1074 ≤ e) : Rep ((2 : ℚ) ^ e) := ⟨1, e, by simp, by norm_num, he⟩

theorem exp_huge : (2 : ℝ) ^ 1024 ≤ Real.exp 710 := by
  have h1 : Real.exp 710 = ((Real.exp 1 ^ 71) ^ 5) ^ 2 := by rw [← pow_mul, ← pow_mul, ← Real.exp_nat_mul]; norm_num
  have h2 : (2 : ℝ) ^ 512 ≤ (Real.exp 1 ^ 71) ^ 5 := by
    calc (2 : ℝ) ^ 512 = ((2 : ℝ) ^ 128) ^ 4 := by rw [← pow_mul]
      _ ≤ (2.7182818283 ^ 71) ^ 5 := by norm_num
      _ ≤ (Real.exp 1 ^ 71) ^ 5 := pow_le_pow_left₀ (by norm_num) (pow_le_pow_left₀ (by norm_num) Real.exp_one_gt_d9.le _) _
  rw [h1]
  calc (2 : ℝ) ^ 1024 = (2 ^ 512) ^ 2 := by rw [← pow_mul]
    _ ≤ _ := pow_le_pow_left₀ (by positivity) h2 _

theorem goodLib_good : goodLib.Good (2 ^ (-50 : ℤ)) := by
  have hu := ur_pos
  have hu1 := ur_le
  have hmu := mu_pos
  have h8 : (2 : ℝ) ^ (-50 : ℤ) = 8 * ur := by unfold ur; norm_num
  have hpos : ∀ a : F64, 0 ≤ grid (Real.exp (F64.real a)) := by
    intro a
    have := (grid_near (Real.exp (F64.real a))).1
    have h1 : (0 : ℝ) ≤ (grid (Real.exp (F64.real a)) : ℝ) := (Real.exp_pos _).le.trans this
    exact_mod_cast h1
  have hzero : F64.real F64.zero = 0 := by unfold F64.real; rw [Laws.zero_val]; norm_num
  refine ⟨rfl, rfl, rfl, ?_, ?_, ?_, ?_, ?_, rfl, ?_, ?_, ?_, rfl, rfl⟩
  · change ofQ (grid (Real.exp (F64.real F64.zero))) = _
    rw [hzero, Real.exp_zero, grid_one]
  · intro x y h
    change le (goodExp x) (goodExp y) = true
    cases x with
    | nan => rw [nan_le] at h; simp at h
    | fin a =>
      cases y with
      | nan => rw [le_nan] at h; simp at h
      | fin b =>
        have := (le_fin a b).1 h
        exact ofQ_mono (grid_mono (Real.exp_le_exp.2 (by unfold F64.real; exact_mod_cast this)))
      | inf t =>
        cases t with
        | true => simp [le] at h
        | false =>
          refine le_top ?_
          intro hn
          have := ofQ_mono (hpos a)
          change ofQ _ = nan at hn
          rw [hn, le_nan] at this
          simp at this
    | inf s =>
      cases s with
      | false =>
        cases y with
        | nan => rw [le_nan] at h; simp at h
        | fin b => simp [le] at h
        | inf t => cases t with
          | true => simp [le] at h
          | false => rfl
      | true =>
        cases y with
        | nan => rw [le_nan] at h; simp at h
        | fin b =>
          change le zero (ofQ _) = true
          rw [zero_eq]
          exact ofQ_mono (hpos b)
        | inf t => cases t with
          | true => exact (le_fin _ _).2 le_rfl
          | false => rfl
  · intro a ha
    change ofQ (grid (Real.exp (F64.real a))) = _
    have h1 : (710 : ℝ) ≤ F64.real a := by unfold F64.real; exact_mod_cast ha
    have h2 : (2 : ℝ) ^ 1024 ≤ (grid (Real.exp (F64.real a)) : ℝ) :=
      exp_huge.trans ((Real.exp_le_exp.2 h1).trans (grid_near _).1)
    have h3 : (2 : ℚ) ^ 1024 ≤ grid (Real.exp (F64.real a)) := by
      rw [← Rat.cast_le (K := ℝ), Rat.cast_pow]
      exact h2
    have h4 : Rep ((2 : ℚ) ^ 1024) := by
      have := rep_two 1024 (by norm_num)
      exact_mod_cast this
    have h5 := le_rnd h4 h3
    rw [ofQ_inf (not_lt.2 (h5.trans (le_abs_self _))), decide_eq_false (not_lt.2 (hpos a))]
  · intro a ha
    change ∃ r, ofQ (grid (Real.exp (F64.real a))) = fin r ∧ _
    set E := Real.exp (F64.real a) with hE
    have hE2 : E ≤ 2 ^ 990 := (Real.exp_le_exp.2 (abs_le.1 ha).2).trans exp_big
    have hbox : Box 1000 E := by
      refine Box.mono (i := 990) ⟨?_, hE2⟩ (by norm_num)
      have h1 : E = (Real.exp (-F64.real a))⁻¹ := by rw [Real.exp_neg, inv_inv]
      rw [h1]
      exact inv_anti₀ (Real.exp_pos _) ((Real.exp_le_exp.2 (by linarith [(abs_le.1 ha).1])).trans exp_big)
    have hm := mu_small hbox
    have hE0 := hbox.pos
    obtain ⟨g1, g2⟩ := grid_near E
    have hgE : (grid E : ℝ) ≤ 2 * E := by nlinarith
    have hg0 : 0 ≤ (grid E : ℝ) := by linarith
    have htop : |(grid E : ℝ)| ≤ top := by
      rw [abs_of_nonneg hg0]
      have h4 : (2 : ℝ) ^ 991 ≤ top := pow_le_pow_right₀ (by norm_num) (by norm_num)
      rw [pow_succ] at h4
      generalize (2 : ℝ) ^ 990 = T at *
      linarith
    obtain ⟨r, r1, r2⟩ := toF64_total htop
    refine ⟨r, fin_of r1, ?_⟩
    have h5 := rnd_real (grid E)
    rw [← r2] at h5
    change |F64.real r - grid E| ≤ _ at h5
    rw [abs_of_nonneg hg0] at h5
    have h6 : ur * (grid E : ℝ) ≤ ur * (2 * E) := mul_le_mul_of_nonneg_left hgE hu.le
    rw [h8, show F64.real r - E = (F64.real r - grid E) + (grid E - E) by ring]
    refine (abs_add_le _ _).trans ?_
    rw [abs_of_nonneg (show 0 ≤ (grid E : ℝ) - E by linarith)]
    have h7 := mul_pos hu hE0
    linarith
  · obtain ⟨i, i1, i2⟩ := one_fin
    change goodLn (ofQ 1) = _
    rw [i1]
    change (if i.val = 1 then _ else _) = _
    rw [if_pos i2]
  · intro a ha
    change ∃ r, (if a.val = 1 then _ else lift someLibm.ln (fin a)) = fin r ∧ _
    by_cases h : a.val = 1
    · rw [if_pos h]
      refine ⟨F64.zero, rfl, ?_⟩
      have : F64.real a = 1 := by unfold F64.real; rw [h]; norm_num
      rw [this, hzero, Real.log_one]
      norm_num
    · rw [if_neg h]
      obtain ⟨r, r1, r2⟩ := someLibm_accurate.ln a ha
      exact ⟨r, by change (match someLibm.ln a with | some r => fin r | none => nan) = _; rw [r1], r2⟩
  · obtain ⟨w, w1, w2⟩ := two_fin
    have wr : F64.real w = 2 := by unfold F64.real; rw [w2]; norm_num
    obtain ⟨r, r1, r2⟩ := someLibm_accurate.sqrt w (by rw [wr]; norm_num)
    rw [wr] at r2
    exact ⟨r, by rw [w1]; change (match someLibm.sqrt w with | some r => fin r | none => nan) = _; rw [r1], r2⟩
  · intro a
    have hP := Phi_mem (√2 * F64.real a)
    have hb : |Distributions.erf (F64.real a)| ≤ 1 := by
      rw [erf_Phi, abs_le]; constructor <;> linarith
    obtain ⟨r, r1, r2⟩ := nearest_spec (y := Distributions.erf (F64.real a)) (hb.trans (one_le_pow₀ (by norm_num)))
    refine ⟨r, ?_, ?_⟩
    · change (match nearest (Distributions.erf (F64.real a)) with | some r => fin r | none => nan) = _
      rw [r1]
    · have h1 := mul_le_mul_of_nonneg_left hb hu.le
      have := mu_ur
      rw [h8]
      linarith

/-! ## Cases -/

theorem small : (0 : ℝ) ≤ 2 ^ (-50 : ℤ) ∧ (2 : ℝ) ^ (-50 : ℤ) ≤ 1 / 16 ∧ (2 : ℝ) ^ (-50 : ℤ) ≤ 1 / 8 := by norm_num

example := C109_sigmoid goodLib _ goodLib_good

/-- The number 2. -/
example : ∃ a : F64, F64.real a = 2 ∧ (∃ c : F64, sigmoid goodLib (fin a) = fin c ∧ |F64.real c - 1 / (1 + Real.exp (-2))| ≤ 2 ^ (-48 : ℤ)) := by
  obtain ⟨w, w1, w2⟩ := two_fin
  have wr : F64.real w = 2 := by unfold F64.real; rw [w2]; norm_num
  obtain ⟨c, c1, c2⟩ := C109_sigmoid_error goodLib _ small.1 small.2.1 goodLib_good w (by rw [wr]; norm_num)
  refine ⟨w, wr, c, c1, ?_⟩
  rw [wr] at c2
  change |F64.real c - 1 / (1 + Real.exp (-2))| ≤ _ * (1 / (1 + Real.exp (-2))) at c2
  refine c2.trans ?_
  have h1 : 1 / (1 + Real.exp (-2)) ≤ 1 := by rw [div_le_one (by positivity)]; linarith [Real.exp_pos (-2)]
  calc _ ≤ (2 * (2 : ℝ) ^ (-50 : ℤ) + 4 * 2 ^ (-53 : ℤ)) * 1 := mul_le_mul_of_nonneg_left h1 (by positivity)
    _ ≤ _ := by norm_num

example : sigmoid goodLib (ofQ 37) = ofQ 1 := by
  obtain ⟨i, i1, i2⟩ := thirtyseven
  exact (C109_sigmoid_one goodLib _ small.1 small.2.1 goodLib_good).1 _ (by rw [i1]; exact (le_fin _ _).2 le_rfl)

example := C109_relu F64.one

example : ∃ a c : F64, F64.real a = 2 ∧ softplus goodLib (fin a) = fin c ∧ ∃ d : F64, gelu goodLib (fin a) = fin d := by
  obtain ⟨w, w1, w2⟩ := two_fin
  have wr : F64.real w = 2 := by unfold F64.real; rw [w2]; norm_num
  obtain ⟨c, c1, -⟩ := C109_softplus_error goodLib _ small.1 small.2.1 goodLib_good w (by rw [wr]; norm_num)
  obtain ⟨d, d1, -⟩ := C109_gelu_error goodLib _ small.1 small.2.1 goodLib_good w (by
    rw [wr, abs_two]
    exact le_self_pow₀ (by norm_num) (by norm_num))
  exact ⟨w, c, wr, c1, d, d1⟩

/-- The number 1000. -/
theorem thousand : ∃ i : F64, ofQ 1000 = fin i ∧ i.val = 1000 := by
  have e : (toF64 1000).map F64.val = some 1000 := by decide +kernel
  obtain ⟨a, a1, a2⟩ := Option.map_eq_some_iff.1 e
  exact ⟨a, fin_of a1, a2⟩

example : softplus goodLib (ofQ 1000) = inf false ∧ gaussian goodLib (ofQ 1000) = inf false := by
  obtain ⟨i, i1, i2⟩ := thousand
  rw [i1]
  exact ⟨(C109_softplus_overflow goodLib _ goodLib_good i (by rw [i2]; norm_num)).1,
    (C109_gaussian goodLib _ goodLib_good).2.1 i (by rw [i2]; norm_num)⟩

example : softplus goodLib (inf true) = zero := (C109_softplus_zero goodLib _ small.2.2 goodLib_good (inf true) (by
  obtain ⟨i, i1, i2⟩ := thirtyseven
  obtain ⟨m, m1, m2⟩ := X64.neg_fin i
  rw [show ofQ (-37) = fin m from ofQ_of_eq m (by rw [m2, i2])]
  rfl)).1

example := C109_gelu_infinite goodLib _ small.2.1 goodLib_good

/-- The derivative of the sigmoid at -1000, in a graph with two inputs. -/
example : ∃ g' z adj, sigmoidV goodLib Tape.two ⟨0, (ofQ 1000).neg⟩ = some (g', z) ∧ Tape.accumulate g' z = some adj ∧
    Tape.wrt adj ⟨0, (ofQ 1000).neg⟩ = some nan := by
  obtain ⟨i, i1, i2⟩ := thousand
  obtain ⟨m, m1, m2⟩ := X64.neg_fin i
  obtain ⟨⟨g', z, adj, h1, -, h2, h3⟩, -⟩ := C109_sigmoid_gradient goodLib _ goodLib_good Tape.two Tape.two_built ⟨0, (ofQ 1000).neg⟩
    (Tape.two_input (by norm_num)) m (by rw [i1]; exact m1) (by rw [m2, i2]; norm_num)
  exact ⟨g', z, adj, h1, h2, h3⟩

example : ∃ g' z adj, softplusV goodLib Tape.two ⟨0, ofQ 1000⟩ = some (g', z) ∧ Tape.accumulate g' z = some adj ∧
    Tape.wrt adj ⟨0, ofQ 1000⟩ = some nan := by
  obtain ⟨i, i1, i2⟩ := thousand
  obtain ⟨⟨g', z, adj, h1, -, h2, h3⟩, -⟩ := C109_softplus_gradient goodLib _ goodLib_good Tape.two Tape.two_built ⟨0, ofQ 1000⟩
    (Tape.two_input (by norm_num)) i i1 (by rw [i2]; norm_num)
  exact ⟨g', z, adj, h1, h2, h3⟩

example := C109_variable_values goodLib Tape.two ⟨1, ofQ 2⟩

example := C109_relu_variable Tape.two ⟨1, fin F64.one⟩ F64.one rfl (by
  change |(1 : ℚ)| < _
  rw [abs_one]
  exact one_lt_pow₀ (by norm_num) (by norm_num))

/-- The number `2^1023`. -/
example : ∃ a : F64, a.val = 2 ^ 1023 ∧ ∃ g' z, reluV Tape.two ⟨1, fin a⟩ = some (g', z) ∧ z.value = inf false := by
  have hr : Rep ((2 : ℚ) ^ 1023) := by exact_mod_cast rep_two 1023 (by norm_num)
  refine ⟨⟨2 ^ 1023, hr, ?_⟩, rfl, ?_⟩
  · rw [abs_of_pos (by positivity)]
    exact pow_lt_pow_right₀ (by norm_num) (by norm_num)
  · exact (C109_relu_overflow Tape.two ⟨1, _⟩).1 _ rfl le_rfl

end Verif.Float.Activation
