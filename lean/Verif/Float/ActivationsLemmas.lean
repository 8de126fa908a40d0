import Verif.Float.ActivationsSpec
import Verif.Float.LawsGaussian

/-!
# Lemmas for C109
-/

namespace Verif.Float.Activation

open X64 Nan Verif.Float.Sim Verif.Float.Bsm Verif.Float.Laws Fft

theorem zero_eq : zero = ofQ 0 := (ofQ_val F64.zero).symm

theorem bottom_le {x : X64} (h : x ≠ nan) : le (inf true) x = true := by
  cases x <;> simp [le] at h ⊢

theorem le_top {x : X64} (h : x ≠ nan) : le x (inf false) = true := by
  cases x <;> simp [le] at h ⊢

theorem le_self {x : X64} (h : x ≠ nan) : le x x = true := by
  cases x with
  | fin a => exact (le_fin _ _).2 le_rfl
  | inf s => cases s <;> rfl
  | nan => exact absurd rfl h

theorem neg_ne {x : X64} (h : x ≠ nan) : x.neg ≠ nan := by
  cases x with
  | fin a => obtain ⟨b, h1, -⟩ := X64.neg_fin a; rw [h1]; nofun
  | inf s => nofun
  | nan => exact absurd rfl h

/-- Values from 0 on. -/
theorem up_cases {x : X64} (h : le zero x = true) : x = inf false ∨ ∃ a : F64, x = fin a ∧ 0 ≤ a.val := by
  cases x with
  | fin a => exact .inr ⟨a, rfl, (zero_le_fin _).1 h⟩
  | inf s => cases s with
    | false => exact .inl rfl
    | true => simp [le, zero] at h
  | nan => rw [le_nan] at h; simp at h

theorem Lib.Good.nonneg {l : Lib} {ε : ℝ} (hl : l.Good ε) {x : X64} (h : x ≠ nan) : le zero (l.exp x) = true := by
  have := hl.exp_mono _ _ (bottom_le h)
  rwa [hl.exp_bottom] at this

theorem rep_at {n : ℕ} (h : n ≤ 2 ^ 53) : Rep (n : ℚ) := by
  have := rep_of_le (n : ℤ) 0 (by simpa using h) (by norm_num)
  simpa using this

/-- `1 + e` for `e` from 0 on. -/
theorem one_add {x : X64} (h : le zero x = true) :
    (ofQ 1).add x = inf false ∨ ∃ c : F64, (ofQ 1).add x = fin c ∧ 1 ≤ c.val := by
  obtain ⟨i, i1, i2⟩ := one_fin
  rw [i1]
  rcases up_cases h with rfl | ⟨a, rfl, ha⟩
  · exact .inl rfl
  · change ofQ (i.val + a.val) = _ ∨ ∃ c, ofQ (i.val + a.val) = fin c ∧ _
    by_cases hf : |rnd (i.val + a.val)| < 2 ^ 1024
    · obtain ⟨c, c1, c2⟩ := ofQ_fin hf
      exact .inr ⟨c, c1, by rw [c2]; exact le_rnd rep_one (by rw [i2]; linarith)⟩
    · left
      rw [ofQ_inf hf, decide_eq_false (by rw [i2]; linarith)]

theorem one_add_mono {x y : X64} (h0 : le zero x = true) (h : le x y = true) : le ((ofQ 1).add x) ((ofQ 1).add y) = true := by
  obtain ⟨i, i1, i2⟩ := one_fin
  rw [i1]
  cases y with
  | nan => rw [le_nan] at h; simp at h
  | inf t =>
    rcases up_cases h0 with rfl | ⟨a, rfl, ha⟩
    · cases t with
      | true => simp [le] at h
      | false => rfl
    · cases t with
      | true => simp [le] at h
      | false =>
        have := one_add h0
        rw [i1] at this
        rcases this with h1 | ⟨c, h1, -⟩ <;> rw [h1] <;> rfl
  | fin b =>
    rcases up_cases h0 with rfl | ⟨a, rfl, ha⟩
    · simp [le] at h
    · exact ofQ_mono (by have := (le_fin _ _).1 h; linarith)

/-- `1 / d` for `d` from 1 on. -/
theorem one_div_of (c : F64) (h : 1 ≤ c.val) : ∃ p : F64, (ofQ 1).div (fin c) = fin p ∧ p.val = rnd (1 / c.val) ∧ 0 ≤ p.val ∧ p.val ≤ 1 := by
  obtain ⟨i, i1, i2⟩ := one_fin
  have h0 : c.val ≠ 0 := by linarith
  obtain ⟨p, p1, p2, p3, p4⟩ := unit_round (q := 1 / c.val) (by positivity) (by rw [div_le_one (by linarith)]; exact h)
  refine ⟨p, ?_, p2, p3, p4⟩
  rw [i1]
  change (if c.val = 0 then _ else ofQ (i.val / c.val)) = _
  rw [if_neg h0, i2, p1]

theorem one_div_top : (ofQ 1).div (inf false) = zero := by
  obtain ⟨i, i1, -⟩ := one_fin
  rw [i1]; rfl

theorem exp_big : Real.exp 680 ≤ 2 ^ 990 := by
  have h1 : Real.exp 680 = (Real.exp 1 ^ 68) ^ 10 := by rw [← pow_mul, ← Real.exp_nat_mul]; norm_num
  have h2 : Real.exp 1 ^ 68 ≤ 2 ^ 99 := by
    have := Real.exp_one_lt_d9.le
    calc Real.exp 1 ^ 68 ≤ 2.7182818286 ^ 68 := pow_le_pow_left₀ (Real.exp_pos 1).le this _
      _ ≤ 2 ^ 99 := by norm_num
  rw [h1]
  calc (Real.exp 1 ^ 68) ^ 10 ≤ (2 ^ 99) ^ 10 := pow_le_pow_left₀ (by positivity) h2 _
    _ = 2 ^ 990 := by rw [← pow_mul]

theorem exp_37 : 9 / 8 * Real.exp (-37) ≤ 2 ^ (-53 : ℤ) := by
  have h1 : Real.exp 37 = Real.exp 1 ^ 37 := by rw [← Real.exp_nat_mul]; norm_num
  have h2 : 9 / 8 * 2 ^ 53 ≤ Real.exp 37 := by
    rw [h1]
    have := Real.exp_one_gt_d9.le
    calc (9 : ℝ) / 8 * 2 ^ 53 ≤ 2.7182818283 ^ 37 := by norm_num
      _ ≤ Real.exp 1 ^ 37 := pow_le_pow_left₀ (by norm_num) this _
  rw [Real.exp_neg, ← div_eq_mul_inv, div_le_iff₀ (Real.exp_pos _), zpow_neg]
  rw [show (2 : ℝ) ^ (53 : ℤ) = 2 ^ 53 by norm_cast]
  rw [inv_mul_eq_div, le_div_iff₀ (by positivity)]
  exact h2

theorem rnd_tie : rnd (1 + 2 ^ (-53 : ℤ)) = 1 := by
  have e : (toF64 (1 + 2 ^ (-53 : ℤ))).map F64.val = some 1 := by decide +kernel
  obtain ⟨a, a1, a2⟩ := Option.map_eq_some_iff.1 e
  have := toF64_some a1
  rw [← this, a2]

/-- Up to `2^-53`, `1 + e` is 1. -/
theorem one_add_small (a : F64) (h0 : 0 ≤ a.val) (h : a.val ≤ 2 ^ (-53 : ℤ)) : (ofQ 1).add (fin a) = ofQ 1 := by
  obtain ⟨i, i1, i2⟩ := one_fin
  rw [i1]
  change ofQ (i.val + a.val) = _
  have h1 : rnd (i.val + a.val) = 1 := by
    apply le_antisymm
    · rw [← rnd_tie]; exact rnd_mono (by rw [i2]; linarith)
    · exact le_rnd rep_one (by rw [i2]; linarith)
  obtain ⟨c, c1, c2⟩ := ofQ_fin (q := i.val + a.val) (by
    rw [h1, abs_one]; exact one_lt_pow₀ (by norm_num) (by norm_num))
  rw [c1]
  congr 1
  exact F64.ext (by rw [c2, h1, i2])

theorem thirtyseven : ∃ i : F64, ofQ 37 = fin i ∧ i.val = 37 := by
  have e : (toF64 37).map F64.val = some 37 := by decide +kernel
  obtain ⟨a, a1, a2⟩ := Option.map_eq_some_iff.1 e
  exact ⟨a, fin_of a1, a2⟩

/-- From -37 down, `exp` is at most `2^-53`. -/
theorem Lib.Good.tiny {l : Lib} {ε : ℝ} (hl : l.Good ε) (hε : ε ≤ 1 / 8) {x : X64} (h : le x (ofQ (-37)) = true) :
    ∃ r : F64, l.exp x = fin r ∧ 0 ≤ r.val ∧ r.val ≤ 2 ^ (-53 : ℤ) := by
  obtain ⟨i, i1, i2⟩ := thirtyseven
  obtain ⟨m, m1, m2⟩ := X64.neg_fin i
  have hm : ofQ (-37) = fin m := ofQ_of_eq m (by rw [m2, i2])
  rw [hm] at h
  have hx : x ≠ nan := by rintro rfl; rw [nan_le] at h; simp at h
  have hr : F64.real m = -37 := by unfold F64.real; rw [m2, i2]; norm_num
  obtain ⟨r, r1, r2⟩ := hl.exp_near m (by rw [hr]; norm_num)
  rw [hr] at r2
  have h1 := hl.exp_mono _ _ h
  rw [r1] at h1
  have h2 : F64.real r ≤ 2 ^ (-53 : ℤ) := by
    have h3 := (abs_le.1 r2).2
    have h4 : ε * Real.exp (-37) ≤ 1 / 8 * Real.exp (-37) := mul_le_mul_of_nonneg_right hε (Real.exp_pos _).le
    exact le_trans (by linarith) exp_37
  have h2' : r.val ≤ 2 ^ (-53 : ℤ) := by
    unfold F64.real at h2
    rw [← Rat.cast_le (K := ℝ)]
    push_cast
    exact h2
  rcases up_cases (hl.nonneg hx) with h3 | ⟨a, h3, h4⟩
  · rw [h3] at h1; simp [le] at h1
  · rw [h3] at h1
    exact ⟨a, h3, h4, ((le_fin _ _).1 h1).trans h2'⟩

/-- `1 + exp` on moderate numbers. -/
theorem Lib.Good.one_exp {l : Lib} {ε : ℝ} (hl : l.Good ε) (hε0 : 0 ≤ ε) (hε : ε ≤ 1 / 16) (a : F64) (ha : |F64.real a| ≤ 680) :
    ∃ b : F64, (ofQ 1).add (l.exp (fin a)) = fin b ∧ 1 ≤ b.val ∧
      |F64.real b - (1 + Real.exp (F64.real a))| ≤ 17 / 16 * (ε + ur) * (1 + Real.exp (F64.real a)) := by
  obtain ⟨r, r1, r2⟩ := hl.exp_near a ha
  have hE := Real.exp_pos (F64.real a)
  have hE2 : Real.exp (F64.real a) ≤ 2 ^ 990 := (Real.exp_le_exp.2 (abs_le.1 ha).2).trans exp_big
  have h1 := abs_le.1 r2
  have h2 : ε * Real.exp (F64.real a) ≤ 1 / 16 * Real.exp (F64.real a) := mul_le_mul_of_nonneg_right hε hE.le
  obtain ⟨i, i1, i2⟩ := one_fin
  have ir : F64.real i = 1 := by unfold F64.real; rw [i2]; norm_num
  have hr0 : 0 ≤ F64.real r := by linarith [h1.1]
  have hr0' : 0 ≤ r.val := by unfold F64.real at hr0; exact_mod_cast hr0
  have hbig : |F64.real i + F64.real r| ≤ top := by
    rw [ir, abs_of_nonneg (by linarith)]
    have h4 : (2 : ℝ) ^ 992 ≤ top := pow_le_pow_right₀ (by norm_num) (by norm_num)
    have h5 : (1 : ℝ) ≤ 2 ^ 990 := one_le_pow₀ (by norm_num)
    have h6 : (2 : ℝ) ^ 992 = 4 * 2 ^ 990 := by rw [pow_add (2 : ℝ) 990 2]; ring
    rw [h6] at h4
    clear h6
    generalize (2 : ℝ) ^ 990 = T at *
    linarith [h1.2]
  obtain ⟨b, b1, b2⟩ := addR hbig
  have hb : (ofQ 1).add (l.exp (fin a)) = fin b := by rw [i1, r1]; exact fin_of b1
  refine ⟨b, hb, ?_, ?_⟩
  · rcases one_add (x := l.exp (fin a)) (by rw [r1]; exact (zero_le_fin _).2 hr0') with h3 | ⟨c, h3, h4⟩
    · rw [hb] at h3; cases h3
    · rw [hb] at h3; cases h3; exact h4
  · rw [ir, abs_of_nonneg (by linarith : 0 ≤ 1 + F64.real r)] at b2
    rw [show F64.real b - (1 + Real.exp (F64.real a)) = (F64.real b - (1 + F64.real r)) + (F64.real r - Real.exp (F64.real a)) by ring]
    refine (abs_add_le _ _).trans ?_
    have hu := ur_pos
    have h5 : ur * (1 + F64.real r) ≤ ur * (17 / 16 * (1 + Real.exp (F64.real a))) := mul_le_mul_of_nonneg_left (by linarith [h1.2]) hu.le
    have h6 : 0 ≤ ε * Real.exp (F64.real a) := by positivity
    nlinarith

end Verif.Float.Activation
