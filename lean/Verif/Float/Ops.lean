import Verif.Float.Binary64
import Mathlib.Algebra.Order.BigOperators.Group.List

/-!
# The type `f64` and its operations

See `Binary64` for the format. `none` is an infinite or NaN result.
-/

namespace Verif.Float

/-- A finite `f64`. The type of e.g. crates/RustQuant_math/src/statistic.rs 87. -/
structure F64 where
  val : ℚ
  rep : Rep val
  fin : |val| < 2 ^ 1024

theorem F64.ext {a b : F64} (h : a.val = b.val) : a = b := by
  cases a; cases b; simp only [F64.mk.injEq]; exact h

instance : DecidableEq F64 := fun a b => decidable_of_iff (a.val = b.val) ⟨F64.ext, fun h => h ▸ rfl⟩

/-- The `f64` nearest to a rational, unless that is out of range. The rounding of every operation on it. -/
def toF64 (x : ℚ) : Option F64 := if h : |rnd x| < 2 ^ 1024 then some ⟨rnd x, rep_rnd x, h⟩ else none

namespace F64

def zero : F64 := ⟨0, rep_zero, by norm_num⟩

/-- `a + b` on `f64`. Used e.g. at crates/RustQuant_math/src/statistic.rs 227. -/
def add (a b : F64) : Option F64 := toF64 (a.val + b.val)

/-- `a - b` on `f64`. Used e.g. at crates/RustQuant_math/src/statistic.rs 112. -/
def sub (a b : F64) : Option F64 := toF64 (a.val - b.val)

/-- `a * b` on `f64`. Used e.g. at crates/RustQuant_math/src/statistic.rs 243. -/
def mul (a b : F64) : Option F64 := toF64 (a.val * b.val)

/-- `a / b` on `f64`. Used e.g. at crates/RustQuant_math/src/statistic.rs 87. -/
def div (a b : F64) : Option F64 := if b.val = 0 then none else toF64 (a.val / b.val)

/-- `a.max(b)` on `f64`. Used e.g. at crates/RustQuant_instruments/src/options/power.rs 82. -/
def max (a b : F64) : F64 := if a.val ≤ b.val then b else a

end F64

theorem toF64_some {x : ℚ} {r : F64} (h : toF64 x = some r) : r.val = rnd x := by
  unfold toF64 at h
  split_ifs at h with h1
  cases h
  rfl

theorem toF64_isSome {x : ℚ} (h : |rnd x| < 2 ^ 1024) : ∃ r, toF64 x = some r ∧ r.val = rnd x :=
  ⟨⟨rnd x, rep_rnd x, h⟩, by unfold toF64; rw [dif_pos h], rfl⟩

theorem toF64_val (a : F64) : toF64 a.val = some a := by
  obtain ⟨r, h1, h2⟩ := toF64_isSome (x := a.val) (by rw [rnd_rep a.rep]; exact a.fin)
  rw [h1, F64.ext (h2.trans (rnd_rep a.rep))]

/-! ## Which numbers are values -/

/-- The unit roundoff `2^-53`. Specification, not in the .rs files. -/
def u : ℚ := 2 ^ (-53 : ℤ)

theorem u_pos : 0 < u := by unfold u; positivity

theorem u_lt : u < 1 / 2 := by unfold u; norm_num

/-- Small whole multiples of a power of two are values. -/
theorem rep_of_le (n e : ℤ) (hn : |n| ≤ 2 ^ 53) (he : -1074 ≤ e) : Rep (n * 2 ^ e) := by
  rcases lt_or_eq_of_le hn with h | h
  · exact ⟨n, e, rfl, h, he⟩
  · rcases abs_eq (by norm_num : (0 : ℤ) ≤ 2 ^ 53) |>.1 h with h4 | h4
    · refine ⟨2 ^ 52, e + 1, ?_, by norm_num, by omega⟩
      rw [h4, zpow_add₀ (by norm_num)]; push_cast; ring
    · refine ⟨-2 ^ 52, e + 1, ?_, by norm_num, by omega⟩
      rw [h4, zpow_add₀ (by norm_num)]; push_cast; ring

theorem rep_int (n : ℤ) (hn : |n| ≤ 2 ^ 53) : Rep n := by
  have := rep_of_le n 0 hn (by norm_num)
  simpa using this

theorem rep_nat (n : ℕ) (hn : n ≤ 2 ^ 53) : Rep n := by
  have := rep_int n (by rw [abs_of_nonneg (by omega)]; exact_mod_cast hn)
  simpa using this

theorem rep_one : Rep 1 := by simpa using rep_nat 1 (by norm_num)

theorem rep_double {x : ℚ} (h : Rep x) : Rep (2 * x) := by
  obtain ⟨m, e, h1, h2, h3⟩ := h
  exact ⟨m, e + 1, by rw [h1, zpow_add₀ (by norm_num)]; ring, h2, by omega⟩

/-- Every value is a whole multiple of the least positive one. -/
theorem rep_grid {x : ℚ} (h : Rep x) : ∃ n : ℤ, x = n * 2 ^ (-1074 : ℤ) := by
  obtain ⟨m, e, h1, h2, h3⟩ := h
  obtain ⟨k, hk⟩ : ∃ k : ℕ, e + 1074 = k := ⟨(e + 1074).toNat, by omega⟩
  refine ⟨m * 2 ^ k, ?_⟩
  rw [h1, show e = (k : ℤ) + -1074 by omega, zpow_add₀ (by norm_num), zpow_natCast]
  push_cast
  ring

theorem int_abs_lt {n : ℤ} {c : ℚ} (hc : 0 < c) (h : |(n : ℚ)| * c < 2 ^ (53 : ℤ) * c) : |n| < 2 ^ 53 := by
  have h1 := lt_of_mul_lt_mul_right h hc.le
  have h4 : ((|n| : ℤ) : ℚ) < ((2 ^ 53 : ℤ) : ℚ) := by
    rw [Int.cast_abs]
    refine lt_of_lt_of_eq h1 ?_
    norm_num
  exact Int.cast_lt.1 h4

/-! ## Sums and differences -/

/-- A sum of two values has relative error at most `u`, however small it is. -/
theorem rnd_add {a b : ℚ} (ha : Rep a) (hb : Rep b) : |a + b - rnd (a + b)| ≤ u * |a + b| := by
  rcases rnd_error (a + b) with h | ⟨h, _⟩
  · exact h
  · obtain ⟨n, hn⟩ := rep_grid ha
    obtain ⟨m, hm⟩ := rep_grid hb
    have e : a + b = ((n + m : ℤ) : ℚ) * 2 ^ (-1074 : ℤ) := by rw [hn, hm]; push_cast; ring
    have hr : Rep (a + b) := by
      rw [e]
      apply rep_of_le _ _ _ le_rfl
      have h3 : (2 : ℚ) ^ (-1022 : ℤ) ≤ 2 ^ (53 : ℤ) * 2 ^ (-1074 : ℤ) := by
        rw [← zpow_add₀ (by norm_num), zpow_le_iff]; norm_num
      rw [e, abs_mul, abs_of_pos (zpos (-1074))] at h
      exact (int_abs_lt (zpos (-1074)) (lt_of_lt_of_le h h3)).le
    rw [rnd_rep hr, sub_self, abs_zero]
    exact mul_nonneg u_pos.le (abs_nonneg _)

theorem rnd_sub {a b : ℚ} (ha : Rep a) (hb : Rep b) : |a - b - rnd (a - b)| ≤ u * |a - b| := by
  have h := rnd_add ha (rep_neg hb)
  rwa [← sub_eq_add_neg] at h

/-- A difference of two values rounds to zero only if they are equal. -/
theorem rnd_sub_pos {a b : ℚ} (ha : Rep a) (hb : Rep b) : 0 < rnd (a - b) ↔ b < a := by
  constructor
  · intro h
    by_contra hc
    have := rnd_mono (show a - b ≤ 0 by linarith [not_lt.1 hc])
    rw [rnd_zero] at this
    linarith
  · intro h
    have h1 := rnd_sub ha hb
    rw [abs_of_pos (show 0 < a - b by linarith)] at h1
    have h2 := (abs_le.1 h1).2
    have h3 : u * (a - b) < 1 / 2 * (a - b) := mul_lt_mul_of_pos_right u_lt (by linarith)
    linarith

theorem rnd_sub_neg {a b : ℚ} (ha : Rep a) (hb : Rep b) : rnd (a - b) < 0 ↔ a < b := by
  rw [← neg_sub, rnd_neg, neg_lt_zero]; exact rnd_sub_pos hb ha

theorem rnd_nonneg {x : ℚ} (h : 0 ≤ x) : 0 ≤ rnd x := by
  have := rnd_mono h; rwa [rnd_zero] at this

/-- Rounding cannot cross a value. -/
theorem rnd_le {x y : ℚ} (hy : Rep y) (h : x ≤ y) : rnd x ≤ y := by
  have := rnd_mono h; rwa [rnd_rep hy] at this

theorem le_rnd {x y : ℚ} (hy : Rep y) (h : y ≤ x) : y ≤ rnd x := by
  have := rnd_mono h; rwa [rnd_rep hy] at this

theorem rnd_abs_le {x y : ℚ} (hy : Rep y) (h : |x| ≤ y) : |rnd x| ≤ y := by
  rw [abs_le] at h ⊢
  exact ⟨le_rnd (rep_neg hy) h.1, rnd_le hy h.2⟩

/-- A unit in the last place above a value is again a value. -/
theorem rep_succ {x : ℚ} (h : Rep x) (hx : x ≠ 0) : Rep (x + 2 ^ ulpExp x) := by
  obtain ⟨n, hn⟩ := rep_multiple h hx
  have h1 : |n| < 2 ^ 53 := by
    have := abs_lt_ulp x hx
    rw [zpow_add₀ (by norm_num), mul_comm] at this
    nth_rewrite 1 [hn] at this
    rw [abs_mul, abs_of_pos (zpos (ulpExp x))] at this
    exact int_abs_lt (zpos (ulpExp x)) this
  have e : x + 2 ^ ulpExp x = ((n + 1 : ℤ) : ℚ) * 2 ^ ulpExp x := by
    push_cast; rw [add_mul, ← hn, one_mul]
  rw [e]
  apply rep_of_le _ _ _ (ulpExp_ge x)
  rw [abs_lt] at h1
  rw [abs_le]
  constructor <;> omega

/-- A value whose size is at most that of `2^1024` less half a unit stays finite; in particular any value bounded by a
finite one. -/
theorem fin_of_le {x : ℚ} (b : F64) (h : |x| ≤ |b.val|) : |rnd x| < 2 ^ 1024 := by
  have hb : Rep |b.val| := by
    rcases abs_choice b.val with h | h <;> rw [h]
    · exact b.rep
    · exact rep_neg b.rep
  exact lt_of_le_of_lt (rnd_abs_le hb h) b.fin

end Verif.Float
