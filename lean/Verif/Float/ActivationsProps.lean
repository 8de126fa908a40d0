import Verif.Float.ActivationsLemmas
import Verif.ML.ActivationsProps

/-!
# C109: activation functions in double precision
-/

namespace Verif.Float.Activation

open X64 Nan Verif.Float.Sim Verif.Float.Bsm Verif.Float.Laws Fft
open Verif.ML (Act)

/-- C109: the sigmoid of every value except NaN, infinities included, is a number from 0 to 1, in order, 1/2 at zero, 0 and 1 at the
infinities; the sigmoid of NaN is NaN. -/
theorem C109_sigmoid (l : Lib) (ε : ℝ) (hl : l.Good ε) :
    (∀ x, x ≠ nan → Probability (sigmoid l x)) ∧
    (∀ x y, le x y = true → le (sigmoid l x) (sigmoid l y) = true) ∧
    sigmoid l zero = ofQ (1 / 2) ∧ sigmoid l (inf true) = zero ∧ sigmoid l (inf false) = ofQ 1 ∧ sigmoid l nan = nan := by
  obtain ⟨i, i1, i2⟩ := one_fin
  refine ⟨?_, ?_, ?_, ?_, ?_, ?_⟩
  · intro x hx
    unfold sigmoid
    rcases one_add (hl.nonneg (neg_ne hx)) with h | ⟨c, h, hc⟩ <;> rw [h]
    · rw [one_div_top]; exact ⟨F64.zero, rfl, le_rfl, zero_le_one⟩
    · obtain ⟨p, p1, -, p2, p3⟩ := one_div_of c hc
      exact ⟨p, p1, p2, p3⟩
  · intro x y hxy
    have hx : x ≠ nan := by rintro rfl; rw [nan_le] at hxy; simp at hxy
    have hy : y ≠ nan := by rintro rfl; rw [le_nan] at hxy; simp at hxy
    have h := one_add_mono (hl.nonneg (neg_ne hy)) (hl.exp_mono _ _ (neg_anti hxy))
    unfold sigmoid
    rcases one_add (hl.nonneg (neg_ne hx)) with h1 | ⟨c, h1, hc⟩ <;>
      rcases one_add (hl.nonneg (neg_ne hy)) with h2 | ⟨d, h2, hd⟩ <;> rw [h1, h2] at h ⊢
    · rw [one_div_top]; rfl
    · obtain ⟨p, p1, -, p2, p3⟩ := one_div_of d hd
      rw [one_div_top, p1]
      exact (zero_le_fin _).2 p2
    · simp [le] at h
    · obtain ⟨p, p1, p2, -⟩ := one_div_of c hc
      obtain ⟨q, q1, q2, -⟩ := one_div_of d hd
      rw [p1, q1]
      refine (le_fin _ _).2 ?_
      rw [p2, q2]
      exact rnd_mono (one_div_le_one_div_of_le (by linarith) ((le_fin _ _).1 h))
  · unfold sigmoid
    have h1 : zero.neg = zero := by
      change ofQ (-F64.zero.val) = _
      rw [Laws.zero_val, neg_zero]; exact zero_eq.symm
    obtain ⟨w, w1, w2⟩ := two_fin
    have h2 : (ofQ 1).add (ofQ 1) = fin w := by
      rw [i1]
      exact ofQ_of_eq w (by rw [i2, w2]; norm_num)
    rw [h1, hl.exp_zero, h2, i1]
    change (if w.val = 0 then _ else ofQ (i.val / w.val)) = _
    rw [if_neg (by rw [w2]; norm_num), i2, w2]
  · unfold sigmoid
    change (ofQ 1).div ((ofQ 1).add (l.exp (inf false))) = _
    rw [hl.exp_top, i1]; rfl
  · unfold sigmoid
    change (ofQ 1).div ((ofQ 1).add (l.exp (inf true))) = _
    rw [hl.exp_bottom]
    have : (ofQ 1).add zero = ofQ 1 := one_add_small F64.zero le_rfl (zpos _).le
    rw [this, i1]
    change (if i.val = 0 then _ else ofQ (i.val / i.val)) = _
    rw [if_neg (by rw [i2]; norm_num)]
    exact ofQ_of_eq i (by rw [i2]; norm_num)
  · unfold sigmoid
    change (ofQ 1).div ((ofQ 1).add (l.exp nan)) = _
    rw [hl.exp_nan, add_nan, div_nan]

/-- C109: for arguments up to 680 in size the sigmoid has a small relative error. -/
theorem C109_sigmoid_error (l : Lib) (ε : ℝ) (hε0 : 0 ≤ ε) (hε : ε ≤ 1 / 16) (hl : l.Good ε) (a : F64) (ha : |F64.real a| ≤ 680) :
    ∃ c : F64, sigmoid l (fin a) = fin c ∧
      |F64.real c - Act.sigmoid.math (F64.real a)| ≤ (2 * ε + 4 * 2 ^ (-53 : ℤ)) * Act.sigmoid.math (F64.real a) := by
  obtain ⟨m, m1, m2⟩ := X64.neg_fin a
  have mr : F64.real m = -F64.real a := by unfold F64.real; rw [m2]; push_cast; rfl
  obtain ⟨b, b1, b2, b3⟩ := hl.one_exp hε0 hε m (by rw [mr, abs_neg]; exact ha)
  rw [mr] at b3
  have hE := Real.exp_pos (-F64.real a)
  have hE2 : Real.exp (-F64.real a) ≤ 2 ^ 990 := (Real.exp_le_exp.2 (by linarith [(abs_le.1 ha).1])).trans exp_big
  have hu := ur_pos
  have hu1 := ur_le
  obtain ⟨i, i1, i2⟩ := one_fin
  have ir : F64.real i = 1 := by unfold F64.real; rw [i2]; norm_num
  set B := 1 + Real.exp (-F64.real a) with hB
  have hB0 : 1 ≤ B := by linarith
  obtain ⟨p, p1, p2⟩ := divN (a := i) (b := b) (A := 1) (B := B) (α := 0) (β := 17 / 16 * (ε + ur)) (by rw [ir]; simp)
    (by rw [abs_of_pos (show 0 < B by linarith)]; exact b3) le_rfl (by norm_num) (by positivity) (by linarith) (by linarith) (by
      rw [abs_of_pos (by positivity)]
      refine ⟨?_, ?_⟩
      · rw [one_div]
        refine inv_anti₀ (by linarith) ?_
        have h5 : (1 : ℝ) ≤ 2 ^ 990 := one_le_pow₀ (by norm_num)
        have h6 : (2 : ℝ) ^ 1000 = 2 ^ 10 * 2 ^ 990 := by rw [← pow_add]
        rw [h6]
        clear h6
        generalize (2 : ℝ) ^ 990 = T at *
        linarith
      · have h5 : (1 : ℝ) ≤ 2 ^ 1000 := one_le_pow₀ (by norm_num)
        exact le_trans (by rw [div_le_one (by linarith)]; exact hB0) h5)
  refine ⟨p, ?_, ?_⟩
  · unfold sigmoid
    rw [m1, b1, i1]
    have h0 : b.val ≠ 0 := by linarith
    change (if b.val = 0 then _ else ofQ (i.val / b.val)) = _
    unfold F64.div at p1
    rw [if_neg h0] at p1 ⊢
    exact fin_of p1
  · change |F64.real p - 1 / B| ≤ (2 * ε + 4 * ur) * (1 / B)
    rw [abs_of_pos (show 0 < 1 / B by positivity)] at p2
    refine p2.trans (mul_le_mul_of_nonneg_right ?_ (by positivity))
    linarith

/-- C109 (defect): from 37 on the sigmoid is exactly 1, although that of the opposite number is not 0: the two probabilities do not add up
to 1, and the logarithm of the complement is minus infinity. The mathematical sigmoid is below 1. -/
theorem C109_sigmoid_one (l : Lib) (ε : ℝ) (hε0 : 0 ≤ ε) (hε : ε ≤ 1 / 16) (hl : l.Good ε) :
    (∀ x, le (ofQ 37) x = true → sigmoid l x = ofQ 1) ∧
    (∀ a : F64, -680 ≤ a.val → a.val ≤ 680 → ∃ c : F64, sigmoid l (fin a) = fin c ∧ 0 < c.val) ∧
    (∀ x, Act.sigmoid.math x < 1) := by
  obtain ⟨i, i1, i2⟩ := one_fin
  refine ⟨?_, ?_, ?_⟩
  · intro x hx
    have h1 := neg_anti hx
    have h2 : (ofQ 37).neg = ofQ (-37) := by
      obtain ⟨j, j1, j2⟩ := thirtyseven
      rw [j1]
      change ofQ (-j.val) = _
      rw [j2]
    rw [h2] at h1
    obtain ⟨r, r1, r2, r3⟩ := hl.tiny (by linarith) h1
    unfold sigmoid
    rw [r1, one_add_small r r2 r3, i1]
    change (if i.val = 0 then _ else ofQ (i.val / i.val)) = _
    rw [if_neg (by rw [i2]; norm_num)]
    exact ofQ_of_eq i (by rw [i2]; norm_num)
  · intro a h1 h2
    have h1' : -680 ≤ F64.real a := by unfold F64.real; exact_mod_cast h1
    have h2' : F64.real a ≤ 680 := by unfold F64.real; exact_mod_cast h2
    obtain ⟨c, c1, c2⟩ := C109_sigmoid_error l ε hε0 hε hl a (abs_le.2 ⟨h1', h2'⟩)
    refine ⟨c, c1, ?_⟩
    have hs : 0 < Act.sigmoid.math (F64.real a) := by unfold Act.math; positivity
    have h3 := (abs_le.1 c2).1
    have h4 : (2 * ε + 4 * (2 : ℝ) ^ (-53 : ℤ)) * Act.sigmoid.math (F64.real a) ≤ 1 / 2 * Act.sigmoid.math (F64.real a) :=
      mul_le_mul_of_nonneg_right (by norm_num; linarith) hs.le
    have h5 : 0 < F64.real c := by
      generalize (2 * ε + 4 * (2 : ℝ) ^ (-53 : ℤ)) * Act.sigmoid.math (F64.real a) = Z at *
      linarith
    unfold F64.real at h5
    exact_mod_cast h5
  · intro x
    have := Real.exp_pos (-x)
    change 1 / (1 + Real.exp (-x)) < 1
    rw [div_lt_one (by linarith)]
    linarith

/-- C109: `relu` is exact on every finite number, and right at the infinities. -/
theorem C109_relu (a : F64) :
    (∃ c : F64, relu (fin a) = fin c ∧ F64.real c = Act.relu.math (F64.real a)) ∧
    relu (inf false) = inf false ∧ relu (inf true) = zero := by
  refine ⟨?_, rfl, rfl⟩
  unfold relu
  by_cases h : 0 < a.val
  · rw [if_pos ((zero_lt_fin a).2 h)]
    refine ⟨a, rfl, ?_⟩
    have : 0 < F64.real a := by unfold F64.real; exact_mod_cast h
    exact (max_eq_left this.le).symm
  · rw [if_neg (by rw [zero_lt_fin]; exact h)]
    refine ⟨F64.zero, rfl, ?_⟩
    have : F64.real a ≤ 0 := by unfold F64.real; exact_mod_cast not_lt.1 h
    change _ = Max.max (F64.real a) 0
    rw [max_eq_right this]
    unfold F64.real
    rw [Laws.zero_val]; norm_num

/-- C109 (defect): `relu` turns NaN into zero. -/
theorem C109_relu_nan : relu nan = zero := rfl

/-- C109: `softplus` of numbers up to 680 in size has a small error, absolute or relative. -/
theorem C109_softplus_error (l : Lib) (ε : ℝ) (hε0 : 0 ≤ ε) (hε : ε ≤ 1 / 16) (hl : l.Good ε) (a : F64) (ha : |F64.real a| ≤ 680) :
    ∃ c : F64, softplus l (fin a) = fin c ∧
      |F64.real c - Act.softplus.math (F64.real a)| ≤ ε * Act.softplus.math (F64.real a) + 4 * (ε + 2 ^ (-53 : ℤ)) := by
  obtain ⟨b, b1, b2, b3⟩ := hl.one_exp hε0 hε a ha
  have hE := Real.exp_pos (F64.real a)
  have hu := ur_pos
  have hu1 := ur_le
  have hb : 1 ≤ F64.real b := by unfold F64.real; exact_mod_cast b2
  obtain ⟨c, c1, c2⟩ := hl.ln_near b (by linarith)
  refine ⟨c, ?_, ?_⟩
  · unfold softplus
    rw [b1, c1]
  · change |F64.real c - Real.log (1 + Real.exp (F64.real a))| ≤ ε * Real.log (1 + Real.exp (F64.real a)) + 4 * (ε + ur)
    set B := 1 + Real.exp (F64.real a) with hB
    have hB0 : 1 ≤ B := by linarith
    set β := 17 / 16 * (ε + ur) with hβ
    have hβ0 : 0 ≤ β := by positivity
    have hβ1 : β ≤ 1 / 8 := by rw [hβ]; linarith
    have hl0 : 0 ≤ Real.log (F64.real b) := Real.log_nonneg hb
    rw [abs_of_nonneg hl0] at c2
    -- the move of the logarithm
    have h1 : |Real.log (F64.real b) - Real.log B| ≤ 8 / 7 * β := by
      rw [← Real.log_div (by linarith) (by linarith)]
      set t := F64.real b / B with ht
      have hBp : 0 < B := by linarith
      have ht1 : |t - 1| ≤ β := by
        rw [ht, div_sub_one (by linarith), abs_div, abs_of_pos hBp, div_le_iff₀ hBp]
        exact b3
      have ht2 := abs_le.1 ht1
      have ht0 : 7 / 8 ≤ t := by linarith
      have h2 := Real.log_le_sub_one_of_pos (show 0 < t by linarith)
      have h3 := Real.one_sub_inv_le_log_of_pos (show 0 < t by linarith)
      have h4 : -(8 / 7 * β) ≤ 1 - t⁻¹ := by
        have : 1 - t⁻¹ = (t - 1) / t := by field_simp
        rw [this, le_div_iff₀ (by linarith)]
        nlinarith
      rw [abs_le]
      constructor <;> linarith
    have h2 := abs_le.1 h1
    rw [show F64.real c - Real.log B = (F64.real c - Real.log (F64.real b)) + (Real.log (F64.real b) - Real.log B) by ring]
    refine (abs_add_le _ _).trans ?_
    have h3 : ε * (1 + Real.log (F64.real b)) ≤ ε * (1 + (Real.log B + 8 / 7 * β)) := mul_le_mul_of_nonneg_left (by linarith) hε0
    have h4 : ε * (8 / 7 * β) ≤ 1 / 16 * (8 / 7 * β) := mul_le_mul_of_nonneg_right hε (by positivity)
    rw [hβ] at *
    linarith

/-- C109 (defect): from 710 on `softplus` is infinite, although the mathematical function is within 1 of its argument. -/
theorem C109_softplus_overflow (l : Lib) (ε : ℝ) (hl : l.Good ε) (a : F64) (ha : 710 ≤ a.val) :
    softplus l (fin a) = inf false ∧ F64.real a < Act.softplus.math (F64.real a) ∧ Act.softplus.math (F64.real a) ≤ F64.real a + 1 := by
  obtain ⟨i, i1, i2⟩ := one_fin
  refine ⟨?_, ?_, ?_⟩
  · unfold softplus
    rw [hl.exp_over a ha, i1]
    exact hl.ln_top
  · change _ < Real.log (1 + Real.exp (F64.real a))
    rw [Real.lt_log_iff_exp_lt (by positivity)]
    linarith
  · change Real.log (1 + Real.exp (F64.real a)) ≤ _
    have h0 : (0 : ℝ) ≤ F64.real a := by
      have : (0 : ℚ) ≤ a.val := by linarith
      unfold F64.real; exact_mod_cast this
    rw [Real.log_le_iff_le_exp (by positivity), Real.exp_add]
    have h1 : (2 : ℝ) ≤ Real.exp 1 := by have := Real.add_one_le_exp (1 : ℝ); linarith
    have h2 : 1 ≤ Real.exp (F64.real a) := Real.one_le_exp h0
    nlinarith

/-- C109 (defect): from -37 down `softplus` is exactly zero, although the mathematical function is positive. -/
theorem C109_softplus_zero (l : Lib) (ε : ℝ) (hε : ε ≤ 1 / 8) (hl : l.Good ε) (x : X64) (hx : le x (ofQ (-37)) = true) :
    softplus l x = zero ∧ ∀ t, 0 < Act.softplus.math t := by
  constructor
  · obtain ⟨r, r1, r2, r3⟩ := hl.tiny hε hx
    unfold softplus
    rw [r1, one_add_small r r2 r3, hl.ln_one]
  · intro t
    exact Real.log_pos (by linarith [Real.exp_pos t])

/-- C109 (defect): `gaussian` is never below 1, and infinite from 27 on in size; the mathematical function is never above 1. -/
theorem C109_gaussian (l : Lib) (ε : ℝ) (hl : l.Good ε) :
    (∀ x, x ≠ nan → le (ofQ 1) (gaussian l x) = true) ∧
    (∀ a : F64, 27 ≤ |a.val| → gaussian l (fin a) = inf false) ∧
    (∀ t, Act.gaussian.math t ≤ 1) := by
  have hsq : ∀ x, x ≠ nan → le zero (x.neg.mul x.neg) = true := by
    intro x hx
    cases x with
    | fin a =>
      obtain ⟨m, m1, m2⟩ := X64.neg_fin a
      rw [m1, zero_eq]
      exact ofQ_mono (mul_self_nonneg _)
    | inf s => cases s <;> rfl
    | nan => exact absurd rfl hx
  refine ⟨?_, ?_, ?_⟩
  · intro x hx
    unfold gaussian
    rw [← hl.exp_zero]
    exact hl.exp_mono _ _ (hsq x hx)
  · intro a ha
    obtain ⟨m, m1, m2⟩ := X64.neg_fin a
    unfold gaussian
    rw [m1]
    change l.exp (ofQ (m.val * m.val)) = _
    have h1 : 710 ≤ m.val * m.val := by
      rw [m2, neg_mul_neg, ← abs_mul_abs_self]
      nlinarith [abs_nonneg a.val]
    by_cases hf : |rnd (m.val * m.val)| < 2 ^ 1024
    · obtain ⟨c, c1, c2⟩ := ofQ_fin hf
      rw [c1]
      exact hl.exp_over c (by rw [c2]; exact le_rnd (rep_nat 710 (by norm_num)) h1)
    · rw [ofQ_inf hf, decide_eq_false (by linarith)]
      exact hl.exp_top
  · intro t
    change Real.exp (-(t ^ 2)) ≤ 1
    exact Real.exp_le_one_iff.2 (by have := sq_nonneg t; linarith)

end Verif.Float.Activation
