import Verif.Float.NelsonSiegelDiscount

/-!
# C110: parameters for which the Nelson-Siegel-Svensson formulas fail
-/

namespace Verif.Float.Curves

open X64 Nan Verif.Float.Sim Verif.Float.Bsm Verif.Float.Laws Verif.Time MeasureTheory
open Verif.Float.Fft (ur mu top ur_pos mu_pos ur_le)
open Verif.Stochastics (years years_pos)

/-! ## Helper lemmas -/

theorem tau_fin {today date : Date} (h : today < date) : ∃ t : F64, tau today date = fin t ∧ 2 ^ (-9 : ℤ) ≤ t.val ∧ t.val ≤ 2 ^ 16 := by
  obtain ⟨t, t1, t2⟩ := tau_near h
  obtain ⟨y1, y2⟩ := years_range h
  have hu := ur_le
  have hu0 := ur_pos
  obtain ⟨h1, h2⟩ := abs_le.1 t2
  refine ⟨t, t1, ?_, ?_⟩
  · have : (2 : ℝ) ^ (-9 : ℤ) ≤ F64.real t := by rw [show (2 : ℝ) ^ (-9 : ℤ) = 1 / 512 by norm_num]; nlinarith
    rw [← Rat.cast_le (K := ℝ)]
    push_cast
    exact this
  · have : F64.real t ≤ 2 ^ 16 := by nlinarith
    rw [← Rat.cast_le (K := ℝ)]
    push_cast
    exact this

theorem rep_pow (e : ℤ) (he : -1074 ≤ e) : Rep ((2 : ℚ) ^ e) := ⟨1, e, by simp, by norm_num, he⟩

theorem over {q : ℚ} (h : 2 ^ (1024 : ℤ) ≤ q) : ofQ q = inf false := by
  have h1 := le_rnd (rep_pow 1024 (by norm_num)) h
  have h0 : (0 : ℚ) < 2 ^ (1024 : ℤ) := by positivity
  rw [ofQ_inf, decide_eq_false (not_lt.2 (h0.le.trans h))]
  rw [not_lt, ← zpow_natCast]
  exact h1.trans (le_abs_self _)

theorem under {q : ℚ} (h : 2 ^ (1024 : ℤ) ≤ q) : ofQ (-q) = inf true := by
  have h1 := le_rnd (rep_pow 1024 (by norm_num)) h
  have h0 : (0 : ℚ) < 2 ^ (1024 : ℤ) := by positivity
  rw [ofQ_inf, decide_eq_true (neg_lt_zero.2 (h0.trans_le h))]
  rw [not_lt, ← zpow_natCast, rnd_neg, abs_neg]
  exact h1.trans (le_abs_self _)

theorem small_lambda {l : Lib} {ε : ℝ} (hl : l.Good ε) {today date : Date} (h : today < date) {a : F64} (h0 : 0 ≤ a.val)
    (h1 : a.val ≤ 2 ^ (-1040 : ℤ)) : ((tau today date).div (fin a)).mul (l.exp ((tau today date).neg.div (fin a))) = nan := by
  obtain ⟨t, t1, t2, -⟩ := tau_fin h
  have ht : 0 < t.val := lt_of_lt_of_le (by positivity) t2
  have hn : (Bsm.neg t).val = -t.val := rfl
  have e1 : (fin t).div (fin a) = inf false := by
    change (if a.val = 0 then (if t.val = 0 then nan else inf (decide (t.val < 0))) else ofQ (t.val / a.val)) = _
    by_cases ha : a.val = 0
    · rw [if_pos ha, if_neg ht.ne', decide_eq_false (not_lt.2 ht.le)]
    · rw [if_neg ha]
      have ha' : 0 < a.val := lt_of_le_of_ne h0 (Ne.symm ha)
      refine over ?_
      rw [le_div_iff₀ ha']
      refine le_trans (mul_le_mul_of_nonneg_left h1 (by positivity)) (le_trans ?_ t2)
      rw [← zpow_add₀ (by norm_num)]
      exact zpow_le_zpow_right₀ (by norm_num) (by norm_num)
  have e2 : (fin (Bsm.neg t)).div (fin a) = inf true := by
    change (if a.val = 0 then (if (Bsm.neg t).val = 0 then nan else inf (decide ((Bsm.neg t).val < 0))) else ofQ ((Bsm.neg t).val / a.val)) = _
    rw [hn]
    by_cases ha : a.val = 0
    · rw [if_pos ha, if_neg (by linarith : ¬ -t.val = 0), decide_eq_true (by linarith)]
    · rw [if_neg ha, neg_div]
      have ha' : 0 < a.val := lt_of_le_of_ne h0 (Ne.symm ha)
      refine under ?_
      rw [le_div_iff₀ ha']
      refine le_trans (mul_le_mul_of_nonneg_left h1 (by positivity)) (le_trans ?_ t2)
      rw [← zpow_add₀ (by norm_num)]
      exact zpow_le_zpow_right₀ (by norm_num) (by norm_num)
  rw [t1, neg_of, e1, e2, hl.exp_bottom]
  rfl

theorem add_zero' (x : X64) : x.add zero = x := by
  cases x with
  | fin a =>
    change ofQ (a.val + F64.zero.val) = _
    rw [Laws.zero_val, _root_.add_zero, ofQ_val]
  | inf s => rfl
  | nan => rfl

theorem ofQ_zero : ofQ 0 = zero := ofQ_val F64.zero

theorem zero_mul_fin (a : F64) : zero.mul (fin a) = zero := by
  change ofQ (F64.zero.val * a.val) = _
  rw [Laws.zero_val, zero_mul, ofQ_zero]

theorem mul_zero_fin (a : F64) : (fin a).mul zero = zero := by
  change ofQ (a.val * F64.zero.val) = _
  rw [Laws.zero_val, mul_zero, ofQ_zero]

theorem mul_one_fin (a : F64) : (fin a).mul (ofQ 1) = fin a := by
  obtain ⟨i, i1, i2⟩ := one_fin
  rw [i1]
  change ofQ (a.val * i.val) = _
  rw [i2, mul_one, ofQ_val]

theorem one_sub_one : (ofQ 1).sub (ofQ 1) = zero := by
  obtain ⟨i, i1, i2⟩ := one_fin
  rw [i1, X64.sub_fin, sub_self, ofQ_zero]

theorem large_lambda {l : Lib} {ε : ℝ} (hl : l.Good ε) {today date : Date} (h : today < date) {a : F64} (ha : 2 ^ (70 : ℤ) ≤ a.val) :
    l.exp ((tau today date).neg.div (fin a)) = ofQ 1 ∧ (∃ z : F64, (tau today date).div (fin a) = fin z) ∧
      slope l (fin a) (tau today date) = zero := by
  obtain ⟨t, t1, t2, t3⟩ := tau_fin h
  have ht : 0 < t.val := lt_of_lt_of_le (by positivity) t2
  have ha0 : 0 < a.val := lt_of_lt_of_le (by positivity) ha
  have hq : t.val / a.val ≤ 2 ^ (-54 : ℤ) := by
    rw [div_le_iff₀ ha0]
    refine t3.trans (le_trans ?_ (mul_le_mul_of_nonneg_left ha (by positivity)))
    rw [← zpow_add₀ (by norm_num), ← zpow_natCast]
    exact zpow_le_zpow_right₀ (by norm_num) (by norm_num)
  have hq0 : 0 ≤ t.val / a.val := by positivity
  have hr := rnd_le (rep_pow (-54) (by norm_num)) hq
  have hr0 := rnd_nonneg hq0
  have hf : |rnd (t.val / a.val)| < 2 ^ 1024 := by
    rw [abs_of_nonneg hr0]
    refine hr.trans_lt ?_
    rw [← zpow_natCast]
    exact zpow_lt_zpow_right₀ (by norm_num) (by norm_num)
  have e1 : l.exp ((fin t).neg.div (fin a)) = ofQ 1 := by
    rw [neg_of]
    have e : (fin (Bsm.neg t)).div (fin a) = ofQ (-(t.val / a.val)) := by
      change (if a.val = 0 then _ else ofQ (-t.val / a.val)) = _
      rw [if_neg ha0.ne', neg_div]
    obtain ⟨y, y1, y2⟩ := ofQ_fin (q := -(t.val / a.val)) (by rw [rnd_neg, abs_neg]; exact hf)
    rw [e, y1]
    refine hl.exp_one y ?_
    rw [y2, rnd_neg, abs_neg, abs_of_nonneg hr0]
    exact hr
  rw [t1]
  refine ⟨e1, ?_, ?_⟩
  · obtain ⟨z, z1, -⟩ := ofQ_fin hf
    refine ⟨z, ?_⟩
    change (if a.val = 0 then _ else ofQ (t.val / a.val)) = _
    rw [if_neg ha0.ne', z1]
  · unfold slope
    rw [e1, one_sub_one, mul_zero_fin]
    change (if t.val = 0 then _ else ofQ (F64.zero.val / t.val)) = _
    rw [if_neg ht.ne', Laws.zero_val, zero_div, ofQ_zero]

/-! ## Theorems -/

/-- **C110.** Today and for past dates the three functions panic. -/
theorem C110_panics (l : Lib) (m : Nss) {today date : Date} (h : ¬ today < date) :
    m.forwardRate l today date = none ∧ m.spotRate l today date = none ∧ m.discountFactor l today date = none := by
  simp [Nss.forwardRate, Nss.spotRate, Nss.discountFactor, h]

/-- **C110.** A parameter that is NaN makes every rate and every discount factor NaN. -/
theorem C110_nan {l : Lib} {ε : ℝ} (hl : l.Good ε) (m : Nss)
    (hn : m.beta0 = nan ∨ m.beta1 = nan ∨ m.beta2 = nan ∨ m.beta3 = nan ∨ m.lambda1 = nan ∨ m.lambda2 = nan) {today date : Date}
    (h : today < date) :
    m.forwardRate l today date = some nan ∧ m.spotRate l today date = some nan ∧ m.discountFactor l today date = some nan := by
  have hf : m.forwardAt l (tau today date) = nan := by
    unfold Nss.forwardAt
    rcases hn with e | e | e | e | e | e <;>
      simp only [e, X64.nan_add, X64.add_nan, X64.nan_mul, X64.mul_nan, X64.div_nan, hl.exp_nan]
  have hs : m.spotAt l (tau today date) = nan := by
    unfold Nss.spotAt slope
    rcases hn with e | e | e | e | e | e <;>
      simp only [e, X64.nan_add, X64.add_nan, X64.nan_mul, X64.mul_nan, X64.div_nan, hl.exp_nan, X64.sub_nan]
  have hn' : (nan : X64).neg = nan := rfl
  simp only [Nss.forwardRate, Nss.spotRate, Nss.discountFactor, if_pos h, hf, hs, Option.map_some, hn', X64.nan_mul, nan_div, hl.exp_nan,
    and_self]

/-- C110 (defect): a `λ` that is zero, or positive but at most `2^-1040`, makes every forward rate NaN, whatever the `β`s, even when the `β`
of the hump it shapes is zero. -/
theorem C110_small_lambda {l : Lib} {ε : ℝ} (hl : l.Good ε) (m : Nss) {a : F64} (ha : m.lambda1 = fin a ∨ m.lambda2 = fin a)
    (h0 : 0 ≤ a.val) (h1 : a.val ≤ 2 ^ (-1040 : ℤ)) {today date : Date} (h : today < date) :
    m.forwardRate l today date = some nan := by
  unfold Nss.forwardRate Nss.forwardAt
  rw [if_pos h]
  have := small_lambda hl h h0 h1
  rcases ha with e | e <;> simp only [e, this, X64.mul_nan, X64.add_nan, X64.nan_add]

/-- C110 (defect): the spot rate loses the slope of the curve when the `λ`s are large. From `2^70` on, with `β₂ = β₃ = 0`, the average of the
forward curve is `β₀ + β₁` for every date, up to `|β₁| / 2^54`; the forward rate is `β₀ + β₁`, rounded; but the spot rate is `β₀`. -/
theorem C110_large_lambda {l : Lib} {ε : ℝ} (hl : l.Good ε) (p : Params) (h2 : p.beta2 = F64.zero) (h3 : p.beta3 = F64.zero)
    (hl1 : 2 ^ (70 : ℤ) ≤ p.lambda1.val) (hl2 : 2 ^ (70 : ℤ) ≤ p.lambda2.val) {today date : Date} (h : today < date) :
    |(∫ s in (0 : ℝ)..years today date, p.exact.curve s) / years today date - (F64.real p.beta0 + F64.real p.beta1)| ≤
      |F64.real p.beta1| * 2 ^ (-54 : ℤ) ∧
    p.nss.forwardRate l today date = some (ofQ (p.beta0.val + p.beta1.val)) ∧ p.nss.spotRate l today date = some (fin p.beta0) := by
  obtain ⟨a1, ⟨z1, b1⟩, c1⟩ := large_lambda hl h hl1
  obtain ⟨a2, ⟨z2, b2⟩, c2⟩ := large_lambda hl h hl2
  obtain ⟨i, i1, i2⟩ := one_fin
  have real1 : (2 : ℝ) ^ (70 : ℤ) ≤ F64.real p.lambda1 := by
    have := (Rat.cast_le (K := ℝ)).2 hl1
    rw [Rat.cast_zpow, Rat.cast_ofNat] at this
    exact this
  have real2 : (2 : ℝ) ^ (70 : ℤ) ≤ F64.real p.lambda2 := by
    have := (Rat.cast_le (K := ℝ)).2 hl2
    rw [Rat.cast_zpow, Rat.cast_ofNat] at this
    exact this
  have p1 : 0 < F64.real p.lambda1 := lt_of_lt_of_le (by positivity) real1
  have p2 : 0 < F64.real p.lambda2 := lt_of_lt_of_le (by positivity) real2
  have hT := years_pos h
  refine ⟨?_, ?_, ?_⟩
  · rw [average_eq p p1 p2 hT, h2, h3]
    have hz : F64.real F64.zero = 0 := by unfold F64.real; rw [Laws.zero_val]; norm_num
    obtain ⟨s1, s2, -⟩ := slope_real hT p1
    rw [hz, zero_mul, zero_mul, _root_.add_zero, _root_.add_zero]
    have h5 := Real.add_one_le_exp (-(years today date / F64.real p.lambda1))
    have h6 : years today date / F64.real p.lambda1 ≤ 2 ^ (-54 : ℤ) := by
      rw [div_le_iff₀ p1]
      refine (years_range h).2.trans (le_trans ?_ (mul_le_mul_of_nonneg_left real1 (by positivity)))
      norm_num
    have e : F64.real p.beta0 + F64.real p.beta1 * (F64.real p.lambda1 * (1 - Real.exp (-(years today date / F64.real p.lambda1))) / years today date) -
        (F64.real p.beta0 + F64.real p.beta1) = F64.real p.beta1 *
          (F64.real p.lambda1 * (1 - Real.exp (-(years today date / F64.real p.lambda1))) / years today date - 1) := by ring
    rw [e, abs_mul]
    gcongr
    rw [abs_le]
    constructor <;> linarith
  · unfold Nss.forwardRate Nss.forwardAt Params.nss
    rw [if_pos h]
    simp only [a1, a2, b1, b2, h2, h3, mul_one_fin]
    have hz : fin F64.zero = zero := rfl
    rw [hz, zero_mul_fin, zero_mul_fin, add_zero', add_zero']
    rfl
  · unfold Nss.spotRate Nss.spotAt Params.nss
    rw [if_pos h]
    simp only [a1, a2, c1, c2, h2, h3]
    have hz : fin F64.zero = zero := rfl
    have hs : zero.sub (ofQ 1) = ofQ (-1) := by
      rw [i1, ← hz, X64.sub_fin, Laws.zero_val, i2, zero_sub]
    obtain ⟨j, j1⟩ : ∃ j : F64, ofQ (-1) = fin j := by
      obtain ⟨j, j1, -⟩ := X64.neg_fin i
      have : (fin i).neg = ofQ (-1) := by change ofQ (-i.val) = _; rw [i2]
      exact ⟨j, by rw [← this, j1]⟩
    rw [hz, hs, j1, mul_zero_fin, zero_mul_fin, add_zero', add_zero', add_zero']

end Verif.Float.Curves
