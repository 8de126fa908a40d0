import Mathlib.Data.Rat.Floor
import Mathlib.Data.Nat.Log
import Mathlib.Algebra.Order.Field.Power
import Mathlib.Algebra.Order.Floor.Ring
import Mathlib.Tactic.Linarith
import Mathlib.Tactic.Ring
import Mathlib.Tactic.FieldSimp
import Mathlib.Tactic.NormNum
import Mathlib.Tactic.Positivity

/-!
# Binary64 arithmetic (Rust's `f64`)

The other parts of the model treat `f64` as exact numbers. Here the finite values of `f64` are modelled as they are: the
rationals `m · 2^e` with `|m| < 2^53` and `-1074 ≤ e`, below `2^1024` in size. Every operation rounds its exact result to the
nearest such value, ties to the even significand (IEEE 754, the only mode Rust uses).

Simplifications: the two zeros are one value; an operation whose result is an infinity or NaN is `none` (overflow, division by
zero), and the functions modelled here stop at that point.
-/

namespace Verif.Float

/-- The values `m · 2^e` with a significand of 53 bits; no bound above.
Models the type `f64`, e.g. crates/RustQuant_math/src/statistic.rs 87. -/
def Rep (x : ℚ) : Prop := ∃ m e : ℤ, x = m * 2 ^ e ∧ |m| < 2 ^ 53 ∧ -1074 ≤ e

/-- `⌊log₂ q⌋` for positive `q`, from the bit lengths of numerator and denominator.
Models the type `f64`, e.g. crates/RustQuant_math/src/statistic.rs 87. -/
def ilog2 (q : ℚ) : ℤ :=
  let e : ℤ := (Nat.log2 q.num.natAbs : ℤ) - Nat.log2 q.den
  if 2 ^ e ≤ q then e else e - 1

/-- The exponent of the last place of a number of this size: 52 below its leading bit, at least `-1074`.
Models the type `f64`, e.g. crates/RustQuant_math/src/statistic.rs 87. -/
def ulpExp (x : ℚ) : ℤ := max (ilog2 |x| - 52) (-1074)

/-- The nearest integer, ties to even. Models the type `f64`, e.g. crates/RustQuant_math/src/statistic.rs 87. -/
def roundEven (q : ℚ) : ℤ :=
  if q - ⌊q⌋ < 1 / 2 then ⌊q⌋
  else if 1 / 2 < q - ⌊q⌋ then ⌊q⌋ + 1
  else if ⌊q⌋ % 2 = 0 then ⌊q⌋ else ⌊q⌋ + 1

/-- Rounding to 53 significant bits (with gradual underflow), ties to even.
Models the type `f64`, e.g. crates/RustQuant_math/src/statistic.rs 87. -/
def rnd (x : ℚ) : ℚ := if x = 0 then 0 else roundEven (x / 2 ^ ulpExp x) * 2 ^ ulpExp x

/-! ## Nearest integer -/

theorem roundEven_near (q : ℚ) : |q - roundEven q| ≤ 1 / 2 := by
  have h0 : (⌊q⌋ : ℚ) ≤ q := Int.floor_le q
  have h1 : q < ⌊q⌋ + 1 := Int.lt_floor_add_one q
  unfold roundEven
  rw [abs_le]
  split_ifs <;> push_cast <;> constructor <;> linarith

theorem roundEven_nearest (q : ℚ) (n : ℤ) : |q - roundEven q| ≤ |q - n| := by
  by_cases h : n = roundEven q
  · rw [h]
  · have h1 := roundEven_near q
    have h2 : (1 : ℚ) ≤ |(n : ℚ) - roundEven q| := by
      have : (1 : ℤ) ≤ |n - roundEven q| := Int.one_le_abs (sub_ne_zero.2 h)
      have h3 : ((1 : ℤ) : ℚ) ≤ ((|n - roundEven q| : ℤ) : ℚ) := Int.cast_le.2 this
      push_cast at h3
      exact h3
    have h3 : |(n : ℚ) - roundEven q| ≤ |q - n| + |q - roundEven q| := by
      have := abs_sub_le (n : ℚ) q (roundEven q)
      rw [abs_sub_comm (n : ℚ) q] at this
      exact this
    linarith

theorem roundEven_int (n : ℤ) : roundEven (n : ℚ) = n := by
  unfold roundEven
  rw [Int.floor_intCast, sub_self, if_pos (by norm_num)]

theorem roundEven_neg (q : ℚ) : roundEven (-q) = -roundEven q := by
  by_cases hi : q = ⌊q⌋
  · rw [hi, show -((⌊q⌋ : ℤ) : ℚ) = ((-⌊q⌋ : ℤ) : ℚ) by push_cast; rfl, roundEven_int, roundEven_int]
  · have h0 : (⌊q⌋ : ℚ) < q := lt_of_le_of_ne (Int.floor_le q) (Ne.symm hi)
    have h1 : q < ⌊q⌋ + 1 := Int.lt_floor_add_one q
    have hf : ⌊-q⌋ = -⌊q⌋ - 1 := by
      rw [Int.floor_eq_iff]; push_cast; constructor <;> linarith
    unfold roundEven
    rw [hf]
    push_cast
    have e : -q - (-(⌊q⌋ : ℚ) - 1) = 1 - (q - ⌊q⌋) := by ring
    rw [e]
    rcases lt_trichotomy (q - (⌊q⌋ : ℚ)) (1 / 2) with h | h | h
    · rw [if_neg (by linarith), if_pos (by linarith), if_pos h]; ring
    · simp only [h, show ¬ ((1 : ℚ) - 1 / 2 < 1 / 2) by norm_num, show ¬ ((1 : ℚ) / 2 < 1 - 1 / 2) by norm_num, lt_irrefl, if_false]
      split_ifs <;> omega
    · rw [if_pos (by linarith), if_neg (by linarith), if_pos h]; ring

/-! ## Size -/

theorem ilog2_spec (q : ℚ) (hq : 0 < q) : (2 : ℚ) ^ ilog2 q ≤ q ∧ q < 2 ^ (ilog2 q + 1) := by
  have hn : 0 < q.num.natAbs := Int.natAbs_pos.2 (Rat.num_pos.2 hq).ne'
  have hd : 0 < q.den := q.den_pos
  have e : q = q.num.natAbs / q.den := by
    have h1 : ((q.num.natAbs : ℤ) : ℚ) = q.num := by
      rw [Int.natAbs_of_nonneg (Rat.num_nonneg.2 hq.le)]
    rw [← Int.cast_natCast q.num.natAbs, h1, Rat.num_div_den]
  set n := q.num.natAbs
  set d := q.den
  have n1 : (2 : ℚ) ^ (Nat.log2 n) ≤ n := by exact_mod_cast Nat.log2_self_le hn.ne'
  have n2 : (n : ℚ) < 2 ^ (Nat.log2 n + 1) := by exact_mod_cast Nat.lt_log2_self
  have d1 : (2 : ℚ) ^ (Nat.log2 d) ≤ d := by exact_mod_cast Nat.log2_self_le hd.ne'
  have d2 : (d : ℚ) < 2 ^ (Nat.log2 d + 1) := by exact_mod_cast Nat.lt_log2_self
  have hd' : (0 : ℚ) < d := by exact_mod_cast hd
  have up : q < 2 ^ ((Nat.log2 n : ℤ) - Nat.log2 d + 1) := by
    rw [e, div_lt_iff₀ hd', show (Nat.log2 n : ℤ) - Nat.log2 d + 1 = ((Nat.log2 n + 1 : ℕ) : ℤ) - (Nat.log2 d : ℕ) by
      push_cast; ring, zpow_sub₀ (by norm_num), zpow_natCast, zpow_natCast, div_mul_eq_mul_div, lt_div_iff₀ (by positivity)]
    calc (n : ℚ) * 2 ^ Nat.log2 d < 2 ^ (Nat.log2 n + 1) * 2 ^ Nat.log2 d := by
          apply mul_lt_mul_of_pos_right n2 (by positivity)
      _ ≤ 2 ^ (Nat.log2 n + 1) * d := by apply mul_le_mul_of_nonneg_left d1 (by positivity)
  have lo : (2 : ℚ) ^ ((Nat.log2 n : ℤ) - Nat.log2 d - 1) ≤ q := by
    rw [e, le_div_iff₀ hd', show (Nat.log2 n : ℤ) - Nat.log2 d - 1 = ((Nat.log2 n : ℕ) : ℤ) - ((Nat.log2 d + 1 : ℕ) : ℤ) by
      push_cast; ring, zpow_sub₀ (by norm_num), zpow_natCast, zpow_natCast, div_mul_eq_mul_div, div_le_iff₀ (by positivity)]
    calc (2 : ℚ) ^ Nat.log2 n * d ≤ n * d := by apply mul_le_mul_of_nonneg_right n1 hd'.le
      _ ≤ n * 2 ^ (Nat.log2 d + 1) := by apply mul_le_mul_of_nonneg_left d2.le (by positivity)
  unfold ilog2
  dsimp only
  split_ifs with h
  · exact ⟨h, up⟩
  · exact ⟨lo, by rw [sub_add_cancel]; exact not_le.1 h⟩

theorem zpow_lt_iff (a b : ℤ) : (2 : ℚ) ^ a < 2 ^ b ↔ a < b := zpow_lt_zpow_iff_right₀ (by norm_num)

theorem zpow_le_iff (a b : ℤ) : (2 : ℚ) ^ a ≤ 2 ^ b ↔ a ≤ b := zpow_le_zpow_iff_right₀ (by norm_num)

theorem zpos (a : ℤ) : (0 : ℚ) < 2 ^ a := zpow_pos (by norm_num) a

theorem ilog2_abs (x : ℚ) (h : x ≠ 0) : (2 : ℚ) ^ ilog2 |x| ≤ |x| ∧ |x| < 2 ^ (ilog2 |x| + 1) := ilog2_spec _ (abs_pos.2 h)

/-- A number is below `2^53` units in its last place. -/
theorem abs_lt_ulp (x : ℚ) (h : x ≠ 0) : |x| < 2 ^ (ulpExp x + 53) := by
  refine lt_of_lt_of_le (ilog2_abs x h).2 ?_
  rw [zpow_le_iff]
  have := le_max_left (ilog2 |x| - 52) (-1074)
  unfold ulpExp
  omega

theorem ulpExp_ge (x : ℚ) : -1074 ≤ ulpExp x := le_max_right _ _

/-- Above the least exponent a number is at least `2^52` units in its last place. -/
theorem abs_ge_ulp (x : ℚ) (h : x ≠ 0) (he : -1074 < ulpExp x) : (2 : ℚ) ^ (ulpExp x + 52) ≤ |x| := by
  have : ulpExp x = ilog2 |x| - 52 := by unfold ulpExp at he ⊢; omega
  rw [this, sub_add_cancel]
  exact (ilog2_abs x h).1

theorem ulpExp_neg (x : ℚ) : ulpExp (-x) = ulpExp x := by unfold ulpExp; rw [abs_neg]

/-! ## Rounding -/

theorem rnd_zero : rnd 0 = 0 := if_pos rfl

theorem rnd_neg (x : ℚ) : rnd (-x) = -rnd x := by
  unfold rnd
  by_cases h : x = 0
  · simp [h]
  · rw [if_neg h, if_neg (neg_ne_zero.2 h), ulpExp_neg, neg_div, roundEven_neg]
    push_cast
    ring

theorem rep_zero : Rep 0 := ⟨0, 0, by norm_num, by norm_num, by norm_num⟩

theorem rep_neg {x : ℚ} (h : Rep x) : Rep (-x) := by
  obtain ⟨m, e, h1, h2, h3⟩ := h
  exact ⟨-m, e, by rw [h1]; push_cast; ring, by rwa [abs_neg], h3⟩

/-- The result of rounding is a value of the format. -/
theorem rep_rnd (x : ℚ) : Rep (rnd x) := by
  unfold rnd
  split_ifs with h
  · exact rep_zero
  · set E := ulpExp x
    set q := x / 2 ^ E
    have hq : |q| < 2 ^ 53 := by
      rw [abs_div, abs_of_pos (zpos E), div_lt_iff₀ (zpos E)]
      calc |x| < 2 ^ (E + 53) := abs_lt_ulp x h
        _ = 2 ^ 53 * 2 ^ E := by rw [zpow_add₀ (by norm_num)]; norm_num; ring
    have h1 := roundEven_near q
    have h2 : |roundEven q| ≤ 2 ^ 53 := by
      have a := abs_sub_abs_le_abs_sub (roundEven q : ℚ) q
      rw [abs_sub_comm] at a
      have : |(roundEven q : ℚ)| < ((2 ^ 53 + 1 : ℤ) : ℚ) := by push_cast; linarith
      have h3 : ((|roundEven q| : ℤ) : ℚ) < ((2 ^ 53 + 1 : ℤ) : ℚ) := by push_cast; push_cast at this; exact this
      have := Int.cast_lt.1 h3
      omega
    rcases lt_or_eq_of_le h2 with h3 | h3
    · exact ⟨_, E, rfl, h3, ulpExp_ge x⟩
    · rcases abs_eq (by norm_num : (0 : ℤ) ≤ 2 ^ 53) |>.1 h3 with h4 | h4
      · refine ⟨2 ^ 52, E + 1, ?_, by norm_num, by have := ulpExp_ge x; omega⟩
        rw [h4, zpow_add₀ (by norm_num)]; push_cast; ring
      · refine ⟨-2 ^ 52, E + 1, ?_, by norm_num, by have := ulpExp_ge x; omega⟩
        rw [h4, zpow_add₀ (by norm_num)]; push_cast; ring

/-- A value of the format is a whole number of units in its last place. -/
theorem rep_multiple {x : ℚ} (h : Rep x) (hx : x ≠ 0) : ∃ n : ℤ, x = n * 2 ^ ulpExp x := by
  obtain ⟨m, e, h1, h2, h3⟩ := h
  have hle : ulpExp x ≤ e := by
    have : |x| < 2 ^ (e + 53) := by
      rw [h1, abs_mul, abs_of_pos (zpos e), zpow_add₀ (by norm_num), mul_comm]
      apply mul_lt_mul_of_pos_left _ (zpos e)
      have : ((|m| : ℤ) : ℚ) < ((2 ^ 53 : ℤ) : ℚ) := Int.cast_lt.2 h2
      push_cast at this
      exact this
    have h4 := lt_of_le_of_lt (ilog2_abs x hx).1 this
    rw [zpow_lt_iff] at h4
    unfold ulpExp
    omega
  obtain ⟨k, hk⟩ : ∃ k : ℕ, e - ulpExp x = k := ⟨(e - ulpExp x).toNat, by omega⟩
  refine ⟨m * 2 ^ k, ?_⟩
  conv_lhs => rw [h1, show e = (k : ℤ) + ulpExp x by omega, zpow_add₀ (by norm_num), zpow_natCast]
  push_cast
  ring

/-- Values of the format are not changed by rounding. -/
theorem rnd_rep {x : ℚ} (h : Rep x) : rnd x = x := by
  by_cases hx : x = 0
  · rw [hx, rnd_zero]
  · obtain ⟨n, hn⟩ := rep_multiple h hx
    have : x / 2 ^ ulpExp x = n := by rw [div_eq_iff (zpos _).ne']; exact hn
    unfold rnd
    rw [if_neg hx, this, roundEven_int, ← hn]

/-- Rounding gives a nearest value of the format. -/
theorem rnd_nearest (x : ℚ) {y : ℚ} (hy : Rep y) : |x - rnd x| ≤ |x - y| := by
  by_cases hx : x = 0
  · rw [hx, rnd_zero, sub_self, abs_zero]; exact abs_nonneg _
  set E := ulpExp x with hE
  have scale : ∀ n : ℤ, |x - rnd x| ≤ |x - n * 2 ^ E| := by
    intro n
    have e1 : x - rnd x = (x / 2 ^ E - roundEven (x / 2 ^ E)) * 2 ^ E := by
      unfold rnd; rw [if_neg hx, ← hE, sub_mul, div_mul_cancel₀ _ (zpos E).ne']
    have e2 : x - n * 2 ^ E = (x / 2 ^ E - n) * 2 ^ E := by rw [sub_mul, div_mul_cancel₀ _ (zpos E).ne']
    rw [e1, e2, abs_mul, abs_mul]
    exact mul_le_mul_of_nonneg_right (roundEven_nearest _ n) (abs_nonneg _)
  obtain ⟨m, e, h1, h2, h3⟩ := hy
  by_cases he : E ≤ e
  · obtain ⟨k, hk⟩ : ∃ k : ℕ, e - E = k := ⟨(e - E).toNat, by omega⟩
    have : y = ((m * 2 ^ k : ℤ) : ℚ) * 2 ^ E := by
      rw [h1, show e = (k : ℤ) + E by omega, zpow_add₀ (by norm_num), zpow_natCast]; push_cast; ring
    rw [this]
    exact scale _
  · have hy' : |y| < 2 ^ (E + 52) := by
      have h4 : |y| < 2 ^ (e + 53) := by
        rw [h1, abs_mul, abs_of_pos (zpos e), zpow_add₀ (by norm_num), mul_comm]
        apply mul_lt_mul_of_pos_left _ (zpos e)
        have : ((|m| : ℤ) : ℚ) < ((2 ^ 53 : ℤ) : ℚ) := Int.cast_lt.2 h2
        push_cast at this
        exact this
      refine lt_of_lt_of_le h4 ?_
      rw [zpow_le_iff]; omega
    have hx' := abs_ge_ulp x hx (by omega)
    rcases lt_or_gt_of_ne hx with hneg | hpos
    · refine (scale (-2 ^ 52)).trans ?_
      have e52 : ((-2 ^ 52 : ℤ) : ℚ) * 2 ^ E = -2 ^ (E + 52) := by rw [zpow_add₀ (by norm_num)]; push_cast; norm_num; ring
      rw [e52]
      rw [abs_of_neg hneg] at hx'
      rw [abs_lt] at hy'
      rw [abs_of_nonpos (by linarith), abs_of_nonpos (by linarith)]
      linarith
    · refine (scale (2 ^ 52)).trans ?_
      have e52 : ((2 ^ 52 : ℤ) : ℚ) * 2 ^ E = 2 ^ (E + 52) := by rw [zpow_add₀ (by norm_num)]; push_cast; norm_num; ring
      rw [e52]
      rw [abs_of_pos hpos] at hx'
      rw [abs_lt] at hy'
      rw [abs_of_nonneg (by linarith), abs_of_nonneg (by linarith)]
      linarith

/-- Rounding preserves order. -/
theorem rnd_mono {x y : ℚ} (h : x ≤ y) : rnd x ≤ rnd y := by
  rcases eq_or_lt_of_le h with rfl | h
  · exact le_rfl
  by_contra hc
  rw [not_le] at hc
  have a := rnd_nearest x (rep_rnd y)
  have b := rnd_nearest y (rep_rnd x)
  rw [abs_le] at a b
  rcases le_total x (rnd y) with h1 | h1
  · rw [abs_of_nonpos (by linarith)] at a; linarith [a.1]
  · rw [abs_of_nonneg (by linarith)] at a
    rcases le_total y (rnd x) with h2 | h2
    · rw [abs_of_nonpos (by linarith)] at b; linarith [a.1, b.2]
    · rw [abs_of_nonneg (by linarith)] at b; linarith [b.2]

/-- The error is at most half a unit in the last place. -/
theorem rnd_half_ulp (x : ℚ) : |x - rnd x| ≤ 1 / 2 * 2 ^ ulpExp x := by
  by_cases hx : x = 0
  · rw [hx, rnd_zero, sub_self, abs_zero]; have := zpos (ulpExp 0); positivity
  have e1 : x - rnd x = (x / 2 ^ ulpExp x - roundEven (x / 2 ^ ulpExp x)) * 2 ^ ulpExp x := by
    unfold rnd; rw [if_neg hx, sub_mul, div_mul_cancel₀ _ (zpos _).ne']
  rw [e1, abs_mul, abs_of_pos (zpos _)]
  exact mul_le_mul_of_nonneg_right (roundEven_near _) (zpos _).le

/-- The relative error is at most `2^-53` for numbers of normal size, the absolute error at most `2^-1075` below. -/
theorem rnd_error (x : ℚ) : |x - rnd x| ≤ 2 ^ (-53 : ℤ) * |x| ∨ (|x| < 2 ^ (-1022 : ℤ) ∧ |x - rnd x| ≤ 2 ^ (-1075 : ℤ)) := by
  by_cases hx : x = 0
  · left; rw [hx, rnd_zero]; simp
  have h := rnd_half_ulp x
  by_cases he : ulpExp x = ilog2 |x| - 52
  · left
    refine h.trans ?_
    have h1 := (ilog2_abs x hx).1
    calc (1 / 2 : ℚ) * 2 ^ ulpExp x = 2 ^ (-53 : ℤ) * 2 ^ ilog2 |x| := by
          rw [he, ← zpow_add₀ (by norm_num), show (1 / 2 : ℚ) = 2 ^ (-1 : ℤ) by norm_num, ← zpow_add₀ (by norm_num)]
          congr 1; ring
      _ ≤ _ := mul_le_mul_of_nonneg_left h1 (zpos _).le
  · right
    have e1 : ulpExp x = -1074 := by unfold ulpExp at he ⊢; omega
    have e2 : ilog2 |x| - 52 < -1074 := by unfold ulpExp at he; omega
    refine ⟨lt_of_lt_of_le (ilog2_abs x hx).2 ((zpow_le_iff _ _).2 (by omega)), ?_⟩
    rw [e1] at h
    refine h.trans (le_of_eq ?_)
    rw [show (1 / 2 : ℚ) = 2 ^ (-1 : ℤ) by norm_num, ← zpow_add₀ (by norm_num)]
    norm_num

end Verif.Float
