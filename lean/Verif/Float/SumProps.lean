import Verif.Float.Model
import Mathlib.Algebra.BigOperators.Group.List.Basic
import Mathlib.Algebra.Order.BigOperators.Group.List

/-!
# C86: sums, means and present values in `f64`

How far the rounded results are from the exact ones, when they are exact, and which laws of exact arithmetic fail.
-/

namespace Verif.Float

/-- The exact sum. -/
def exactSum (xs : List F64) : ℚ := (xs.map F64.val).sum

/-- The sum of the sizes. -/
def absSum (xs : List F64) : ℚ := (xs.map fun x => |x.val|).sum

theorem absSum_nonneg (xs : List F64) : 0 ≤ absSum xs := by
  apply List.sum_nonneg
  intro x hx
  obtain ⟨y, _, rfl⟩ := List.mem_map.1 hx
  exact abs_nonneg _

theorem absSum_cons (x : F64) (xs : List F64) : absSum (x :: xs) = |x.val| + absSum xs := by simp [absSum]

theorem exactSum_cons (x : F64) (xs : List F64) : exactSum (x :: xs) = x.val + exactSum xs := by simp [exactSum]

theorem abs_exactSum (xs : List F64) : |exactSum xs| ≤ absSum xs := by
  induction xs with
  | nil => simp [exactSum, absSum]
  | cons x xs ih =>
    rw [exactSum_cons, absSum_cons]
    exact (abs_add_le _ _).trans (by linarith)

theorem add_some {a b s : F64} (h : a.add b = some s) : s.val = rnd (a.val + b.val) := toF64_some h

theorem rnd_add_abs {a b : ℚ} (ha : Rep a) (hb : Rep b) : |rnd (a + b)| ≤ (1 + u) * (|a| + |b|) := by
  have h1 := rnd_add ha hb
  have h2 := abs_add_le a b
  have h3 : |rnd (a + b)| ≤ |a + b| + |a + b - rnd (a + b)| := by
    have := abs_sub_abs_le_abs_sub (rnd (a + b)) (a + b)
    rw [abs_sub_comm] at this
    linarith
  have := u_pos
  nlinarith

/-- The running sum, with its error. -/
theorem sum_from (xs : List F64) (acc s : F64) (h : xs.foldlM F64.add acc = some s) :
    |s.val - (acc.val + exactSum xs)| ≤ ((1 + u) ^ xs.length - 1) * (|acc.val| + absSum xs) := by
  induction xs generalizing acc with
  | nil =>
    simp only [List.foldlM_nil] at h
    cases h
    simp [exactSum, absSum]
  | cons x xs ih =>
    rw [List.foldlM_cons] at h
    obtain ⟨a, ha, hs⟩ := Option.bind_eq_some_iff.1 h
    have h1 := ih a hs
    have h2 := rnd_add acc.rep x.rep
    have h3 := rnd_add_abs acc.rep x.rep
    rw [← add_some ha] at h2 h3
    rw [exactSum_cons, absSum_cons, List.length_cons]
    have h4 := abs_add_le acc.val x.val
    set A := |acc.val| + |x.val|
    have hA : 0 ≤ A := by positivity
    have hS := absSum_nonneg xs
    have hp : (1 : ℚ) ≤ (1 + u) ^ xs.length := one_le_pow₀ (by linarith [u_pos])
    have e : s.val - (acc.val + (x.val + exactSum xs)) =
        (s.val - (a.val + exactSum xs)) - (acc.val + x.val - a.val) := by ring
    rw [e]
    refine (abs_sub _ _).trans ?_
    have h5 : u * |acc.val + x.val| ≤ u * A := mul_le_mul_of_nonneg_left h4 u_pos.le
    have h6 : ((1 + u) ^ xs.length - 1) * (|a.val| + absSum xs) ≤ ((1 + u) ^ xs.length - 1) * ((1 + u) * A + absSum xs) :=
      mul_le_mul_of_nonneg_left (by linarith) (by linarith)
    have h7 : 0 ≤ u * (1 + u) ^ xs.length * absSum xs := mul_nonneg (mul_nonneg u_pos.le (by linarith)) hS
    rw [pow_succ]
    nlinarith

theorem add_zero (x : F64) : F64.zero.add x = some x := by
  unfold F64.add
  rw [show F64.zero.val = 0 from rfl, zero_add, toF64_val]

theorem sum_cons (x : F64) (xs : List F64) : sum (x :: xs) = xs.foldlM F64.add x := by
  unfold sum
  rw [List.foldlM_cons, add_zero]
  rfl

theorem pow_bound (k : ℕ) (h : k ≤ 2 ^ 52) : (1 + u) ^ k ≤ 1 + k * 2 ^ (-52 : ℤ) := by
  have e : (2 : ℚ) ^ (-52 : ℤ) = 2 * u := by unfold u; norm_num
  rw [e]
  induction k with
  | zero => simp
  | succ k ih =>
    have h1 := ih (by omega)
    have hu := u_pos
    have h2 : (k : ℚ) * (2 * u) ≤ 1 := by
      have : (k : ℚ) ≤ 2 ^ 52 := by exact_mod_cast (by omega : k ≤ 2 ^ 52)
      have h3 : (2 : ℚ) ^ 52 * (2 * u) = 1 := by unfold u; norm_num
      nlinarith
    rw [pow_succ]
    push_cast
    nlinarith

theorem sum_error (xs : List F64) (hn : xs.length ≤ 2 ^ 52) (s : F64) (h : sum xs = some s) :
    |s.val - exactSum xs| ≤ (xs.length - 1 : ℕ) * 2 ^ (-52 : ℤ) * absSum xs := by
  cases xs with
  | nil =>
    unfold sum at h
    simp only [List.foldlM_nil] at h
    cases h
    simp [exactSum, absSum, F64.zero]
  | cons x xs =>
    rw [sum_cons] at h
    have h1 := sum_from xs x s h
    rw [← exactSum_cons, ← absSum_cons] at h1
    refine h1.trans ?_
    simp only [List.length_cons] at hn ⊢
    have h2 := pow_bound xs.length (by omega)
    rw [Nat.add_sub_cancel]
    exact mul_le_mul_of_nonneg_right (by linarith) (absSum_nonneg _)

theorem sum_from_total (xs : List F64) (acc : F64)
    (h : (1 + u) ^ xs.length * (|acc.val| + absSum xs) < 2 ^ 1024) : ∃ s, xs.foldlM F64.add acc = some s := by
  induction xs generalizing acc with
  | nil => exact ⟨acc, rfl⟩
  | cons x xs ih =>
    rw [absSum_cons, List.length_cons] at h
    have h3 := rnd_add_abs acc.rep x.rep
    have hp : (1 : ℚ) ≤ (1 + u) ^ xs.length := one_le_pow₀ (by linarith [u_pos])
    have hS := absSum_nonneg xs
    have hA : 0 ≤ |acc.val| + |x.val| := by positivity
    have hu := u_pos
    have h1 : (1 + u) ^ xs.length * (|rnd (acc.val + x.val)| + absSum xs) ≤
        (1 + u) ^ (xs.length + 1) * (|acc.val| + (|x.val| + absSum xs)) := by
      rw [pow_succ, mul_assoc]
      refine mul_le_mul_of_nonneg_left ?_ (by linarith)
      nlinarith
    have h2 : |rnd (acc.val + x.val)| ≤ (1 + u) ^ xs.length * (|rnd (acc.val + x.val)| + absSum xs) := by
      have := abs_nonneg (rnd (acc.val + x.val))
      nlinarith
    obtain ⟨a, ha, hv⟩ := toF64_isSome (lt_of_le_of_lt (h2.trans h1) h)
    obtain ⟨s, hs⟩ := ih a (by rw [hv]; exact lt_of_le_of_lt h1 h)
    refine ⟨s, ?_⟩
    rw [List.foldlM_cons, show acc.add x = some a from ha]
    exact hs

theorem sum_from_exact (xs : List F64) (e : ℤ) (he : -1074 ≤ e) (acc : F64) (ha : ∃ n : ℤ, acc.val = n * 2 ^ e)
    (hx : ∀ x ∈ xs, ∃ n : ℤ, x.val = n * 2 ^ e) (hS : |acc.val| + absSum xs ≤ 2 ^ (53 + e))
    (hf : |acc.val| + absSum xs < 2 ^ 1024) :
    ∃ s, xs.foldlM F64.add acc = some s ∧ s.val = acc.val + exactSum xs := by
  induction xs generalizing acc with
  | nil => exact ⟨acc, rfl, by simp [exactSum]⟩
  | cons x xs ih =>
    rw [absSum_cons] at hS hf
    obtain ⟨n, hn⟩ := ha
    obtain ⟨m, hm⟩ := hx x List.mem_cons_self
    have hS' := absSum_nonneg xs
    have h4 := abs_add_le acc.val x.val
    have e1 : acc.val + x.val = ((n + m : ℤ) : ℚ) * 2 ^ e := by rw [hn, hm]; push_cast; ring
    have hr : Rep (acc.val + x.val) := by
      rw [e1]
      apply rep_of_le _ _ _ he
      have h5 : |((n + m : ℤ) : ℚ)| * 2 ^ e ≤ 2 ^ (53 : ℤ) * 2 ^ e := by
        rw [← abs_of_pos (zpos e), ← abs_mul, ← e1, abs_of_pos (zpos e), ← zpow_add₀ (by norm_num)]
        linarith
      have h6 := le_of_mul_le_mul_right h5 (zpos e)
      have h7 : ((|n + m| : ℤ) : ℚ) ≤ ((2 ^ 53 : ℤ) : ℚ) := by
        rw [Int.cast_abs]; refine h6.trans (le_of_eq ?_); norm_num
      exact Int.cast_le.1 h7
    obtain ⟨a, ha', hv⟩ := toF64_isSome (x := acc.val + x.val) (by rw [rnd_rep hr]; linarith)
    rw [rnd_rep hr] at hv
    obtain ⟨s, hs, hsv⟩ := ih a ⟨n + m, by rw [hv, e1]⟩ (fun y hy => hx y (List.mem_cons_of_mem _ hy))
      (by rw [hv]; linarith) (by rw [hv]; linarith)
    refine ⟨s, ?_, by rw [hsv, hv, exactSum_cons, add_assoc]⟩
    rw [List.foldlM_cons, show acc.add x = some a from ha']
    exact hs

theorem ofNat_small (n : ℕ) (hn : n ≤ 2 ^ 53) : ∃ r, ofNat n = some r ∧ r.val = n := by
  have h1 := rep_nat n hn
  obtain ⟨r, h, hv⟩ := toF64_isSome (x := n) (by
    rw [rnd_rep h1, abs_of_nonneg (by positivity)]
    calc (n : ℚ) ≤ 2 ^ 53 := by exact_mod_cast hn
      _ < 2 ^ 1024 := pow_lt_pow_right₀ (by norm_num) (by norm_num))
  exact ⟨r, h, by rw [hv, rnd_rep h1]⟩

theorem div_some {a b s : F64} (h : a.div b = some s) : b.val ≠ 0 ∧ s.val = rnd (a.val / b.val) := by
  unfold F64.div at h
  split_ifs at h with hb
  exact ⟨hb, toF64_some h⟩

/-- The error of one rounding, without cases. -/
theorem rnd_error' (x : ℚ) : |x - rnd x| ≤ u * |x| + 2 ^ (-1075 : ℤ) := by
  have := zpos (-1075)
  have h2 : 0 ≤ u * |x| := mul_nonneg u_pos.le (abs_nonneg _)
  rcases rnd_error x with h | ⟨_, h⟩
  · exact h.trans (le_add_of_nonneg_right this.le)
  · exact h.trans (le_add_of_nonneg_left h2)

/-- The `f64` nearest to a rational, for writing down examples (literals in range). -/
def lit (x : ℚ) : F64 := (toF64 x).getD F64.zero

/-! ## The claims -/

/-- C86: the error of a sum. Over `n` numbers, `n` up to `2^52`, the rounded sum is within `(n - 1) 2^-52` of the exact sum,
relative to the sum of the sizes; and it is finite whenever the sum of the sizes is below `2^1023`. -/
theorem C86_sum (xs : List F64) (hn : xs.length ≤ 2 ^ 52) :
    (∀ s, sum xs = some s → |s.val - (xs.map F64.val).sum| ≤
      (xs.length - 1 : ℕ) * 2 ^ (-52 : ℤ) * (xs.map fun x => |x.val|).sum) ∧
    ((xs.map fun x => |x.val|).sum < 2 ^ 1023 → ∃ s, sum xs = some s) := by
  refine ⟨sum_error xs hn, fun h => ?_⟩
  apply sum_from_total
  rw [show |F64.zero.val| = 0 from rfl, zero_add]
  have h2 := pow_bound xs.length hn
  have h3 : (xs.length : ℚ) * 2 ^ (-52 : ℤ) ≤ 1 := by
    have : (xs.length : ℚ) ≤ 2 ^ 52 := by exact_mod_cast hn
    have h3 : (2 : ℚ) ^ 52 * 2 ^ (-52 : ℤ) = 1 := by norm_num
    have h4 := zpos (-52)
    nlinarith
  have h0 := absSum_nonneg xs
  calc (1 + u) ^ xs.length * absSum xs ≤ 2 * absSum xs := mul_le_mul_of_nonneg_right (by linarith) h0
    _ < 2 * 2 ^ 1023 := mul_lt_mul_of_pos_left h (by norm_num)
    _ = 2 ^ 1024 := (pow_succ' 2 1023).symm

example := (C86_sum [lit 1, lit (1 / 10), lit (-7)] (by norm_num)).1

/-- C86: sums of whole multiples of one power of two (whole amounts, halves, quarters, ...) are exact as long as the sizes add up
to at most `2^53` of that unit. -/
theorem C86_sum_exact (xs : List F64) (e : ℤ) (h0 : -1074 ≤ e) (h1 : e ≤ 970)
    (hx : ∀ x ∈ xs, ∃ n : ℤ, x.val = n * 2 ^ e) (hS : (xs.map fun x => |x.val|).sum ≤ 2 ^ (53 + e)) :
    ∃ s, sum xs = some s ∧ s.val = (xs.map F64.val).sum := by
  have hf : absSum xs < 2 ^ 1024 := by
    refine lt_of_le_of_lt hS ?_
    rw [show (2 : ℚ) ^ 1024 = 2 ^ (1024 : ℤ) by norm_num, zpow_lt_iff]
    omega
  obtain ⟨s, h, hv⟩ := sum_from_exact xs e h0 F64.zero ⟨0, by simp [F64.zero]⟩ hx
    (by rw [show |F64.zero.val| = 0 from rfl, zero_add]; exact hS)
    (by rw [show |F64.zero.val| = 0 from rfl, zero_add]; exact hf)
  exact ⟨s, h, by rw [hv, show F64.zero.val = 0 from rfl, zero_add]; rfl⟩

example : ∃ s, sum [lit 100, lit (1 / 2), lit (-7)] = some s ∧ s.val = 187 / 2 := by
  obtain ⟨s, h, hv⟩ := C86_sum_exact [lit 100, lit (1 / 2), lit (-7)] (-1) (by norm_num) (by norm_num)
    (by
      have e1 : (lit 100).val = 100 := by decide +kernel
      have e2 : (lit (1 / 2)).val = 1 / 2 := by decide +kernel
      have e3 : (lit (-7)).val = -7 := by decide +kernel
      intro x hx
      simp only [List.mem_cons, List.not_mem_nil, or_false] at hx
      rcases hx with rfl | rfl | rfl
      · exact ⟨200, by rw [e1]; norm_num⟩
      · exact ⟨1, by rw [e2]; norm_num⟩
      · exact ⟨-14, by rw [e3]; norm_num⟩)
    (by decide +kernel)
  exact ⟨s, h, by rw [hv]; decide +kernel⟩

/-- C86 (defect): unlike the exact sum, and so unlike the exact mean, the rounded sum depends on the order of the data: the same
three numbers give 0 or 1. -/
theorem C86_sum_order : ∃ xs ys : List F64, xs.Perm ys ∧ (sum xs).map F64.val = some 0 ∧ (sum ys).map F64.val = some 1 := by
  refine ⟨[lit (2 ^ 53), lit 1, lit (-2 ^ 53)], [lit (2 ^ 53), lit (-2 ^ 53), lit 1], ?_, by decide +kernel, by decide +kernel⟩
  exact (List.Perm.swap _ _ _).cons _

/-- C86: the error of a mean: the rounded mean of up to `2^52` numbers is within `2^-52` of the exact one, relative to the sum of
the sizes, up to the least positive number. It panics exactly for no data. -/
theorem C86_mean (xs : List F64) (hn : xs.length ≤ 2 ^ 52) :
    (mean xs = .panic ↔ xs = []) ∧
    ∀ m, mean xs = .ok m → |m.val - (xs.map F64.val).sum / xs.length| ≤
      2 ^ (-52 : ℤ) * (xs.map fun x => |x.val|).sum + 2 ^ (-1075 : ℤ) := by
  have hres : ∀ o, Res.of o ≠ .panic := fun o => by cases o <;> simp [Res.of]
  constructor
  · unfold mean; split_ifs with h
    · simp [h]
    · simp [h, hres]
  · intro m hm
    unfold mean at hm
    split_ifs at hm with hne
    have hm' : meanVal xs = some m := by
      cases h : meanVal xs with
      | none => rw [h] at hm; simp [Res.of] at hm
      | some y => rw [h] at hm; simp only [Res.of, Res.ok.injEq] at hm; rw [hm]
    unfold meanVal at hm'
    obtain ⟨s, hs, h2⟩ := Option.bind_eq_some_iff.1 hm'
    obtain ⟨r, hr, hv⟩ := ofNat_small xs.length (by omega)
    rw [hr] at h2
    obtain ⟨_, h3⟩ := div_some h2
    rw [hv] at h3
    have h4 := sum_error xs hn s hs
    have h5 := rnd_error' (s.val / xs.length)
    rw [← h3] at h5
    have hl : 0 < xs.length := List.length_pos_iff.2 hne
    have hpos : (0 : ℚ) < xs.length := by exact_mod_cast hl
    change |m.val - exactSum xs / xs.length| ≤ 2 ^ (-52 : ℤ) * absSum xs + 2 ^ (-1075 : ℤ)
    have hA := absSum_nonneg xs
    have hE := abs_exactSum xs
    set N : ℚ := (xs.length : ℚ) with hN
    have eN : ((xs.length - 1 : ℕ) : ℚ) = N - 1 := by rw [Nat.cast_sub hl, Nat.cast_one]
    rw [eN] at h4
    have e52 : (2 : ℚ) ^ (-52 : ℤ) = 2 * u := by unfold u; norm_num
    rw [e52] at h4 ⊢
    have hNu : (N - 1) * (2 * u) ≤ 1 := by
      have : N ≤ 2 ^ 52 := by rw [hN]; exact_mod_cast hn
      have h3 : (2 : ℚ) ^ 52 * (2 * u) = 1 := by unfold u; norm_num
      have := u_pos
      nlinarith
    have hs1 : |s.val| ≤ 2 * absSum xs := by
      have a := abs_sub_abs_le_abs_sub s.val (exactSum xs)
      nlinarith
    have h6 : |s.val / N - exactSum xs / N| ≤ (N - 1) * (2 * u) * absSum xs / N := by
      rw [← sub_div, abs_div, abs_of_pos hpos]
      exact div_le_div_of_nonneg_right h4 hpos.le
    have h7 : u * |s.val / N| ≤ 2 * u * absSum xs / N := by
      rw [abs_div, abs_of_pos hpos, mul_div_assoc', div_le_div_iff_of_pos_right hpos]
      have := mul_le_mul_of_nonneg_left hs1 u_pos.le
      linarith
    have h8 : (N - 1) * (2 * u) * absSum xs / N + 2 * u * absSum xs / N = 2 * u * absSum xs := by
      field_simp; ring
    have h9 := abs_sub_le m.val (s.val / N) (exactSum xs / N)
    rw [abs_sub_comm m.val (s.val / N)] at h9
    linarith

example := (C86_mean [lit 1, lit (1 / 10), lit (-7)] (by norm_num)).2

/-- C86 (defect): the rounded mean can lie outside the range of the data: the mean of three times 0.1 is above 0.1. So the
variance of equal data need not be zero, and `correlation`, which refuses data of zero deviation, does not notice it. -/
theorem C86_mean_outside : ∃ x m v : F64, x = lit (1 / 10) ∧ mean [x, x, x] = .ok m ∧ x.val < m.val ∧
    variance [x, x, x] = .ok v ∧ 0 < v.val := by
  exact ⟨lit (1 / 10), lit (1 / 10 + 1 / 2 ^ 56), lit (3 / 2 ^ 113), rfl, by decide +kernel, by decide +kernel,
    by decide +kernel, by decide +kernel⟩

theorem sum_nonneg (xs : List F64) (acc : F64) (ha : 0 ≤ acc.val) (h : ∀ x ∈ xs, 0 ≤ x.val) (s : F64)
    (hs : xs.foldlM F64.add acc = some s) : 0 ≤ s.val := by
  induction xs generalizing acc with
  | nil => simp only [List.foldlM_nil] at hs; cases hs; exact ha
  | cons x xs ih =>
    rw [List.foldlM_cons] at hs
    obtain ⟨a, h1, h2⟩ := Option.bind_eq_some_iff.1 hs
    refine ih a ?_ (fun y hy => h y (List.mem_cons_of_mem _ hy)) h2
    rw [add_some h1]
    exact rnd_nonneg (by have := h x List.mem_cons_self; linarith)

theorem mul_some {a b s : F64} (h : a.mul b = some s) : s.val = rnd (a.val * b.val) := toF64_some h

theorem mapM_some {α : Type} (f : α → Option F64) (xs : List α) (ys : List F64) (h : xs.mapM f = some ys) :
    List.Forall₂ (fun x y => f x = some y) xs ys := by
  induction xs generalizing ys with
  | nil => simp only [List.mapM_nil] at h; cases h; exact .nil
  | cons x xs ih =>
    rw [List.mapM_cons] at h
    obtain ⟨y, h1, h2⟩ := Option.bind_eq_some_iff.1 h
    obtain ⟨zs, h3, h4⟩ := Option.bind_eq_some_iff.1 h2
    cases h4
    exact .cons h1 (ih zs h3)

theorem squares_nonneg (xs : List F64) (mu s : F64) (h : squares xs mu = some s) : 0 ≤ s.val := by
  unfold squares at h
  obtain ⟨ds, h1, h2⟩ := Option.bind_eq_some_iff.1 h
  refine sum_nonneg ds F64.zero le_rfl (fun d hd => ?_) s h2
  have h3 := mapM_some _ _ _ h1
  obtain ⟨i, hi, rfl⟩ := List.getElem_of_mem hd
  have h4 := List.Forall₂.get h3 (i := i) (by rw [h3.length_eq]; exact hi) hi
  obtain ⟨e, _, h5⟩ := Option.bind_eq_some_iff.1 h4
  have h6 := mul_some h5
  simp only [List.get_eq_getElem] at h6
  rw [h6]
  exact rnd_nonneg (mul_self_nonneg _)

theorem of_ok {o : Option F64} {v : F64} (h : Res.of o = .ok v) : o = some v := by
  cases o with
  | none => simp [Res.of] at h
  | some y => simp only [Res.of, Res.ok.injEq] at h; rw [h]

/-- C86: however the roundings fall, a variance is never negative, so that the standard deviation is never NaN for that reason;
both panic exactly for no data. -/
theorem C86_variance_nonneg (xs : List F64) :
    (∀ v, variance xs = .ok v → 0 ≤ v.val) ∧ (∀ v, populationVariance xs = .ok v → 0 ≤ v.val) ∧
    (variance xs = .panic ↔ xs = []) ∧ (populationVariance xs = .panic ↔ xs = []) := by
  have key : ∀ (n : ℕ) (v : F64), (do (← squares xs (← meanVal xs)).div (← ofNat n)) = some v → 0 ≤ v.val := by
    intro n v h
    obtain ⟨m, _, h1⟩ := Option.bind_eq_some_iff.1 h
    obtain ⟨s, h2, h3⟩ := Option.bind_eq_some_iff.1 h1
    obtain ⟨r, h4, h5⟩ := Option.bind_eq_some_iff.1 h3
    rw [(div_some h5).2]
    refine rnd_nonneg (div_nonneg (squares_nonneg xs m s h2) ?_)
    rw [toF64_some h4]
    exact rnd_nonneg (by positivity)
  have hres : ∀ o, Res.of o ≠ .panic := fun o => by cases o <;> simp [Res.of]
  unfold variance populationVariance
  split_ifs with h
  · simp [h]
  · exact ⟨fun v hv => key _ v (of_ok hv), fun v hv => key _ v (of_ok hv), by simp [h, hres], by simp [h, hres]⟩

example : ∃ v, variance [lit 1, lit 2, lit 4] = .ok v ∧ 2.3 < v.val :=
  ⟨lit (2627099782632789 / 1125899906842624), by decide +kernel, by decide +kernel⟩

theorem cumsumFrom_get (xs : List F64) (acc : F64) (l : List F64) (h : cumsumFrom acc xs = some l) :
    l.length = xs.length ∧ ∀ k < xs.length, l[k]? = (xs.take (k + 1)).foldlM F64.add acc := by
  induction xs generalizing acc l with
  | nil => unfold cumsumFrom at h; cases h; simp
  | cons x xs ih =>
    unfold cumsumFrom at h
    obtain ⟨a, h1, h2⟩ := Option.bind_eq_some_iff.1 h
    obtain ⟨t, h3, h4⟩ := Option.bind_eq_some_iff.1 h2
    cases h4
    obtain ⟨hl, hg⟩ := ih a t h3
    refine ⟨by simp [hl], fun k hk => ?_⟩
    cases k with
    | zero => rw [List.take_succ_cons, List.foldlM_cons, h1]; simp
    | succ k =>
      rw [List.take_succ_cons, List.foldlM_cons, h1, List.getElem?_cons_succ, hg k (by simpa using hk)]
      rfl

/-- C86: every entry of a cumulative sum is the rounded sum of the data up to there, so that the error bounds of sums apply to it;
the last entry is what `sum` returns for the data. -/
theorem C86_cumsum (xs l : List F64) (h : cumsum xs = some l) :
    l.length = xs.length ∧ (∀ k < xs.length, l[k]? = sum (xs.take (k + 1))) ∧ (xs ≠ [] → l.getLast? = sum xs) := by
  obtain ⟨h1, h2⟩ := cumsumFrom_get xs F64.zero l h
  refine ⟨h1, h2, fun hne => ?_⟩
  have hl : 0 < xs.length := List.length_pos_iff.2 hne
  have := h2 (xs.length - 1) (by omega)
  rw [Nat.sub_add_cancel hl, List.take_length] at this
  rw [List.getLast?_eq_getElem?, h1, this]
  rfl

example : (cumsum [lit (1 / 10), lit (2 / 10)]).isSome := by decide +kernel

theorem npv_terms (rate : F64) (as ps : List F64) (h : List.Forall₂ (fun a p => a.mul rate = some p) as ps)
    (hu : ∀ a ∈ as, a.val * rate.val = 0 ∨ 2 ^ (-1022 : ℤ) ≤ |a.val * rate.val|) :
    |exactSum ps - rate.val * exactSum as| ≤ u * (|rate.val| * absSum as) ∧ absSum ps ≤ (1 + u) * (|rate.val| * absSum as) := by
  induction h with
  | nil => simp [exactSum, absSum]
  | @cons a p as ps h1 _ ih =>
    obtain ⟨i1, i2⟩ := ih fun b hb => hu b (List.mem_cons_of_mem _ hb)
    have e := mul_some h1
    have h2 : |a.val * rate.val - p.val| ≤ u * |a.val * rate.val| := by
      rw [e]
      rcases hu a List.mem_cons_self with h0 | h0
      · rw [h0, rnd_zero]; simp
      · rcases rnd_error (a.val * rate.val) with h | ⟨h, _⟩
        · exact h
        · exact absurd h (not_lt.2 h0)
    rw [exactSum_cons, exactSum_cons, absSum_cons, absSum_cons]
    rw [abs_mul] at h2
    have h3 : |p.val| ≤ |a.val| * |rate.val| + |a.val * rate.val - p.val| := by
      have := abs_sub_abs_le_abs_sub p.val (a.val * rate.val)
      rw [abs_sub_comm, abs_mul] at this
      linarith
    constructor
    · have e2 : p.val + exactSum ps - rate.val * (a.val + exactSum as) =
          (exactSum ps - rate.val * exactSum as) - (a.val * rate.val - p.val) := by ring
      rw [e2]
      refine (abs_sub _ _).trans ?_
      nlinarith
    · nlinarith

/-- C86: the error of a present value. Over `n` cash flows, `n` up to `2^52`, the rounded result is within `n 2^-52` of
the discount factor times the exact total, relative to the factor times the sum of the sizes, when no product underflows. -/
theorem C86_npv (amounts : List F64) (rate v : F64) (hn : amounts.length ≤ 2 ^ 52)
    (hu : ∀ a ∈ amounts, a.val * rate.val = 0 ∨ 2 ^ (-1022 : ℤ) ≤ |a.val * rate.val|) (h : npv amounts rate = some v) :
    |v.val - rate.val * (amounts.map F64.val).sum| ≤
      amounts.length * 2 ^ (-52 : ℤ) * (|rate.val| * (amounts.map fun a => |a.val|).sum) := by
  unfold npv at h
  obtain ⟨ps, h1, h2⟩ := Option.bind_eq_some_iff.1 h
  have h3 := mapM_some _ _ _ h1
  obtain ⟨h4, h5⟩ := npv_terms rate amounts ps h3 hu
  have hlen := h3.length_eq
  have h6 := sum_error ps (by omega) v h2
  change |v.val - rate.val * exactSum amounts| ≤ amounts.length * 2 ^ (-52 : ℤ) * (|rate.val| * absSum amounts)
  rcases Nat.eq_zero_or_pos amounts.length with h0 | hpos
  · have ha : amounts = [] := List.length_eq_zero_iff.1 h0
    subst ha
    have hp : ps = [] := List.length_eq_zero_iff.1 (by simpa using hlen.symm)
    subst hp
    simpa [exactSum, absSum] using h6
  · set B := |rate.val| * absSum amounts
    have hB : 0 ≤ B := mul_nonneg (abs_nonneg _) (absSum_nonneg _)
    rw [← hlen] at h6
    have eN : ((amounts.length - 1 : ℕ) : ℚ) = (amounts.length : ℚ) - 1 := by rw [Nat.cast_sub hpos, Nat.cast_one]
    rw [eN] at h6
    set N : ℚ := (amounts.length : ℚ) with hN
    have h1N : 1 ≤ N := by rw [hN]; exact_mod_cast hpos
    have e52 : (2 : ℚ) ^ (-52 : ℤ) = 2 * u := by unfold u; norm_num
    rw [e52] at h6 ⊢
    have hNu : (N - 1) * (2 * u) ≤ 1 := by
      have : N ≤ 2 ^ 52 := by rw [hN]; exact_mod_cast hn
      have h3 : (2 : ℚ) ^ 52 * (2 * u) = 1 := by unfold u; norm_num
      have := u_pos
      nlinarith
    have h7 : (N - 1) * (2 * u) * absSum ps ≤ (N - 1) * (2 * u) * ((1 + u) * B) :=
      mul_le_mul_of_nonneg_left h5 (mul_nonneg (by linarith) (by linarith [u_pos]))
    have h8 := abs_sub_le v.val (exactSum ps) (rate.val * exactSum amounts)
    have h9 : (N - 1) * (2 * u) * (u * B) ≤ 1 * (u * B) := mul_le_mul_of_nonneg_right hNu (mul_nonneg u_pos.le hB)
    linarith

example : (npv [lit 100, lit 200, lit 300] (lit (9 / 10))).map F64.val = some 540 := by decide +kernel

end Verif.Float
