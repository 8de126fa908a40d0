import Verif.Float.Ops

/-!
# Binary32 arithmetic (Rust's `f32`)

The same format as `Binary64` with 24 bits of significand, least exponent -149 and values below `2^128`. The library uses it in
one place, the weights of a portfolio.
-/

namespace Verif.Float.Single

open Verif.Float (ilog2 roundEven roundEven_near roundEven_nearest roundEven_int roundEven_neg ilog2_abs zpos zpow_lt_iff zpow_le_iff)

/-- The values `m · 2^e` with a significand of 24 bits; no bound above.
The type of crates/RustQuant_portfolios/src/lib.rs 212. -/
def Rep (x : ℚ) : Prop := ∃ m e : ℤ, x = m * 2 ^ e ∧ |m| < 2 ^ 24 ∧ -149 ≤ e

/-- The exponent of the last place of a number of this size: 23 below its leading bit, at least `-149`.
The type of crates/RustQuant_portfolios/src/lib.rs 212. -/
def ulpExp (x : ℚ) : ℤ := max (ilog2 |x| - 23) (-149)

/-- Rounding to 24 significant bits (with gradual underflow), ties to even.
The type of crates/RustQuant_portfolios/src/lib.rs 212. -/
def rnd (x : ℚ) : ℚ := if x = 0 then 0 else roundEven (x / 2 ^ ulpExp x) * 2 ^ ulpExp x

/-- A number is below `2^24` units in its last place. -/
theorem abs_lt_ulp (x : ℚ) (h : x ≠ 0) : |x| < 2 ^ (ulpExp x + 24) := by
  refine lt_of_lt_of_le (ilog2_abs x h).2 ?_
  rw [zpow_le_iff]
  have := le_max_left (ilog2 |x| - 23) (-149)
  unfold ulpExp
  omega

theorem ulpExp_ge (x : ℚ) : -149 ≤ ulpExp x := le_max_right _ _

/-- Above the least exponent a number is at least `2^23` units in its last place. -/
theorem abs_ge_ulp (x : ℚ) (h : x ≠ 0) (he : -149 < ulpExp x) : (2 : ℚ) ^ (ulpExp x + 23) ≤ |x| := by
  have : ulpExp x = ilog2 |x| - 23 := by unfold ulpExp at he ⊢; omega
  rw [this, sub_add_cancel]
  exact (ilog2_abs x h).1

theorem ulpExp_neg (x : ℚ) : ulpExp (-x) = ulpExp x := by unfold ulpExp; rw [abs_neg]

/-! ## Rounding -/

theorem rnd_zero : rnd 0 = 0 := if_pos rfl

theorem rnd_neg (x : ℚ) : rnd (-x) = -rnd x := by
  unfold rnd
  by_cases h : x = 0
  · simp [h]
  · rw [if_neg h, if_neg (neg_ne_zero.2 h), ulpExp_neg, neg_div, roundEven_neg]
    push_cast
    ring

theorem rep_zero : Rep 0 := ⟨0, 0, by norm_num, by norm_num, by norm_num⟩

theorem rep_neg {x : ℚ} (h : Rep x) : Rep (-x) := by
  obtain ⟨m, e, h1, h2, h3⟩ := h
  exact ⟨-m, e, by rw [h1]; push_cast; ring, by rwa [abs_neg], h3⟩

/-- The result of rounding is a value of the format. -/
theorem rep_rnd (x : ℚ) : Rep (rnd x) := by
  unfold rnd
  split_ifs with h
  · exact rep_zero
  · set E := ulpExp x
    set q := x / 2 ^ E
    have hq : |q| < 2 ^ 24 := by
      rw [abs_div, abs_of_pos (zpos E), div_lt_iff₀ (zpos E)]
      calc |x| < 2 ^ (E + 24) := abs_lt_ulp x h
        _ = 2 ^ 24 * 2 ^ E := by rw [zpow_add₀ (by norm_num)]; norm_num; ring
    have h1 := roundEven_near q
    have h2 : |roundEven q| ≤ 2 ^ 24 := by
      have a := abs_sub_abs_le_abs_sub (roundEven q : ℚ) q
      rw [abs_sub_comm] at a
      have : |(roundEven q : ℚ)| < ((2 ^ 24 + 1 : ℤ) : ℚ) := by push_cast; linarith
      have h3 : ((|roundEven q| : ℤ) : ℚ) < ((2 ^ 24 + 1 : ℤ) : ℚ) := by push_cast; push_cast at this; exact this
      have := Int.cast_lt.1 h3
      omega
    rcases lt_or_eq_of_le h2 with h3 | h3
    · exact ⟨_, E, rfl, h3, ulpExp_ge x⟩
    · rcases abs_eq (by norm_num : (0 : ℤ) ≤ 2 ^ 24) |>.1 h3 with h4 | h4
      · refine ⟨2 ^ 23, E + 1, ?_, by norm_num, by have := ulpExp_ge x; omega⟩
        rw [h4, zpow_add₀ (by norm_num)]; push_cast; ring
      · refine ⟨-2 ^ 23, E + 1, ?_, by norm_num, by have := ulpExp_ge x; omega⟩
        rw [h4, zpow_add₀ (by norm_num)]; push_cast; ring

/-- A value of the format is a whole number of units in its last place. -/
theorem rep_multiple {x : ℚ} (h : Rep x) (hx : x ≠ 0) : ∃ n : ℤ, x = n * 2 ^ ulpExp x := by
  obtain ⟨m, e, h1, h2, h3⟩ := h
  have hle : ulpExp x ≤ e := by
    have : |x| < 2 ^ (e + 24) := by
      rw [h1, abs_mul, abs_of_pos (zpos e), zpow_add₀ (by norm_num), mul_comm]
      apply mul_lt_mul_of_pos_left _ (zpos e)
      have : ((|m| : ℤ) : ℚ) < ((2 ^ 24 : ℤ) : ℚ) := Int.cast_lt.2 h2
      push_cast at this
      exact this
    have h4 := lt_of_le_of_lt (ilog2_abs x hx).1 this
    rw [zpow_lt_iff] at h4
    unfold ulpExp
    omega
  obtain ⟨k, hk⟩ : ∃ k : ℕ, e - ulpExp x = k := ⟨(e - ulpExp x).toNat, by omega⟩
  refine ⟨m * 2 ^ k, ?_⟩
  conv_lhs => rw [h1, show e = (k : ℤ) + ulpExp x by omega, zpow_add₀ (by norm_num), zpow_natCast]
  push_cast
  ring

/-- Values of the format are not changed by rounding. -/
theorem rnd_rep {x : ℚ} (h : Rep x) : rnd x = x := by
  by_cases hx : x = 0
  · rw [hx, rnd_zero]
  · obtain ⟨n, hn⟩ := rep_multiple h hx
    have : x / 2 ^ ulpExp x = n := by rw [div_eq_iff (zpos _).ne']; exact hn
    unfold rnd
    rw [if_neg hx, this, roundEven_int, ← hn]

/-- Rounding gives a nearest value of the format. -/
theorem rnd_nearest (x : ℚ) {y : ℚ} (hy : Rep y) : |x - rnd x| ≤ |x - y| := by
  by_cases hx : x = 0
  · rw [hx, rnd_zero, sub_self, abs_zero]; exact abs_nonneg _
  set E := ulpExp x with hE
  have scale : ∀ n : ℤ, |x - rnd x| ≤ |x - n * 2 ^ E| := by
    intro n
    have e1 : x - rnd x = (x / 2 ^ E - roundEven (x / 2 ^ E)) * 2 ^ E := by
      unfold rnd; rw [if_neg hx, ← hE, sub_mul, div_mul_cancel₀ _ (zpos E).ne']
    have e2 : x - n * 2 ^ E = (x / 2 ^ E - n) * 2 ^ E := by rw [sub_mul, div_mul_cancel₀ _ (zpos E).ne']
    rw [e1, e2, abs_mul, abs_mul]
    exact mul_le_mul_of_nonneg_right (roundEven_nearest _ n) (abs_nonneg _)
  obtain ⟨m, e, h1, h2, h3⟩ := hy
  by_cases he : E ≤ e
  · obtain ⟨k, hk⟩ : ∃ k : ℕ, e - E = k := ⟨(e - E).toNat, by omega⟩
    have : y = ((m * 2 ^ k : ℤ) : ℚ) * 2 ^ E := by
      rw [h1, show e = (k : ℤ) + E by omega, zpow_add₀ (by norm_num), zpow_natCast]; push_cast; ring
    rw [this]
    exact scale _
  · have hy' : |y| < 2 ^ (E + 23) := by
      have h4 : |y| < 2 ^ (e + 24) := by
        rw [h1, abs_mul, abs_of_pos (zpos e), zpow_add₀ (by norm_num), mul_comm]
        apply mul_lt_mul_of_pos_left _ (zpos e)
        have : ((|m| : ℤ) : ℚ) < ((2 ^ 24 : ℤ) : ℚ) := Int.cast_lt.2 h2
        push_cast at this
        exact this
      refine lt_of_lt_of_le h4 ?_
      rw [zpow_le_iff]; omega
    have hx' := abs_ge_ulp x hx (by omega)
    rcases lt_or_gt_of_ne hx with hneg | hpos
    · refine (scale (-2 ^ 23)).trans ?_
      have e23 : ((-2 ^ 23 : ℤ) : ℚ) * 2 ^ E = -2 ^ (E + 23) := by rw [zpow_add₀ (by norm_num)]; push_cast; norm_num; ring
      rw [e23]
      rw [abs_of_neg hneg] at hx'
      rw [abs_lt] at hy'
      rw [abs_of_nonpos (by linarith), abs_of_nonpos (by linarith)]
      linarith
    · refine (scale (2 ^ 23)).trans ?_
      have e23 : ((2 ^ 23 : ℤ) : ℚ) * 2 ^ E = 2 ^ (E + 23) := by rw [zpow_add₀ (by norm_num)]; push_cast; norm_num; ring
      rw [e23]
      rw [abs_of_pos hpos] at hx'
      rw [abs_lt] at hy'
      rw [abs_of_nonneg (by linarith), abs_of_nonneg (by linarith)]
      linarith

/-- Rounding preserves order. -/
theorem rnd_mono {x y : ℚ} (h : x ≤ y) : rnd x ≤ rnd y := by
  rcases eq_or_lt_of_le h with rfl | h
  · exact le_rfl
  by_contra hc
  rw [not_le] at hc
  have a := rnd_nearest x (rep_rnd y)
  have b := rnd_nearest y (rep_rnd x)
  rw [abs_le] at a b
  rcases le_total x (rnd y) with h1 | h1
  · rw [abs_of_nonpos (by linarith)] at a; linarith [a.1]
  · rw [abs_of_nonneg (by linarith)] at a
    rcases le_total y (rnd x) with h2 | h2
    · rw [abs_of_nonpos (by linarith)] at b; linarith [a.1, b.2]
    · rw [abs_of_nonneg (by linarith)] at b; linarith [b.2]

/-- The error is at most half a unit in the last place. -/
theorem rnd_half_ulp (x : ℚ) : |x - rnd x| ≤ 1 / 2 * 2 ^ ulpExp x := by
  by_cases hx : x = 0
  · rw [hx, rnd_zero, sub_self, abs_zero]; have := zpos (ulpExp 0); positivity
  have e1 : x - rnd x = (x / 2 ^ ulpExp x - roundEven (x / 2 ^ ulpExp x)) * 2 ^ ulpExp x := by
    unfold rnd; rw [if_neg hx, sub_mul, div_mul_cancel₀ _ (zpos _).ne']
  rw [e1, abs_mul, abs_of_pos (zpos _)]
  exact mul_le_mul_of_nonneg_right (roundEven_near _) (zpos _).le

/-- The relative error is at most `2^-24` for numbers of normal size, the absolute error at most `2^-150` below. -/
theorem rnd_error (x : ℚ) : |x - rnd x| ≤ 2 ^ (-24 : ℤ) * |x| ∨ (|x| < 2 ^ (-126 : ℤ) ∧ |x - rnd x| ≤ 2 ^ (-150 : ℤ)) := by
  by_cases hx : x = 0
  · left; rw [hx, rnd_zero]; simp
  have h := rnd_half_ulp x
  by_cases he : ulpExp x = ilog2 |x| - 23
  · left
    refine h.trans ?_
    have h1 := (ilog2_abs x hx).1
    calc (1 / 2 : ℚ) * 2 ^ ulpExp x = 2 ^ (-24 : ℤ) * 2 ^ ilog2 |x| := by
          rw [he, ← zpow_add₀ (by norm_num), show (1 / 2 : ℚ) = 2 ^ (-1 : ℤ) by norm_num, ← zpow_add₀ (by norm_num)]
          congr 1; ring
      _ ≤ _ := mul_le_mul_of_nonneg_left h1 (zpos _).le
  · right
    have e1 : ulpExp x = -149 := by unfold ulpExp at he ⊢; omega
    have e2 : ilog2 |x| - 23 < -149 := by unfold ulpExp at he; omega
    refine ⟨lt_of_lt_of_le (ilog2_abs x hx).2 ((zpow_le_iff _ _).2 (by omega)), ?_⟩
    rw [e1] at h
    refine h.trans (le_of_eq ?_)
    rw [show (1 / 2 : ℚ) = 2 ^ (-1 : ℤ) by norm_num, ← zpow_add₀ (by norm_num)]
    norm_num

/-- A finite `f32`. The type of crates/RustQuant_portfolios/src/lib.rs 212. -/
structure F32 where
  val : ℚ
  rep : Rep val
  fin : |val| < 2 ^ 128

theorem F32.ext {a b : F32} (h : a.val = b.val) : a = b := by
  cases a; cases b; simp only [F32.mk.injEq]; exact h

instance : DecidableEq F32 := fun a b => decidable_of_iff (a.val = b.val) ⟨F32.ext, fun h => h ▸ rfl⟩

/-- The `f32` nearest to a rational, unless that is out of range; for the value of an `f64`, `x as f32`.
The casts of crates/RustQuant_portfolios/src/lib.rs 212-224. -/
def toF32 (x : ℚ) : Option F32 := if h : |rnd x| < 2 ^ 128 then some ⟨rnd x, rep_rnd x, h⟩ else none

def F32.zero : F32 := ⟨0, rep_zero, by norm_num⟩

/-- `a / b` on `f32`. Used in crates/RustQuant_portfolios/src/lib.rs 212-224. -/
def F32.div (a b : F32) : Option F32 := if b.val = 0 then none else toF32 (a.val / b.val)

theorem toF32_some {x : ℚ} {r : F32} (h : toF32 x = some r) : r.val = rnd x := by
  unfold toF32 at h
  split_ifs at h with h1
  cases h
  rfl

theorem F32.div_some {a b s : F32} (h : a.div b = some s) : b.val ≠ 0 ∧ s.val = rnd (a.val / b.val) := by
  unfold F32.div at h
  split_ifs at h with hb
  exact ⟨hb, toF32_some h⟩

theorem rep_one : Rep 1 := ⟨1, 0, by norm_num, by norm_num, by norm_num⟩

end Verif.Float.Single
