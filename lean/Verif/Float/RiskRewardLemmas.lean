import Verif.Float.RiskReward
import Verif.Float.SortingProps
import Verif.Float.FormulaProps

/-! Helper lemmas about risk-reward measures in `f64`. -/

namespace Verif.Float.Reward

open X64
open Nan (zero nan_div)
open Sorting (value)

theorem large_of_none {q : ℚ} (h : toF64 q = none) : 2 ^ 1024 ≤ |rnd q| := by
  unfold toF64 at h
  split_ifs at h with h1
  exact not_lt.1 h1

theorem value_fin (a : F64) : value (fin a) = ((a.val : ℝ) : EReal) := rfl

theorem fin_le {a b : F64} (h : a.val ≤ b.val) : value (fin a) ≤ value (fin b) := by
  rw [value_fin, value_fin, EReal.coe_le_coe_iff]
  exact_mod_cast h

theorem value_inf (s : Bool) : value (inf s) = if s then ⊥ else ⊤ := rfl

theorem ofQ_cases (q : ℚ) : (∃ a : F64, ofQ q = fin a ∧ a.val = rnd q) ∨ (ofQ q = inf false ∧ 2 ^ 1024 ≤ rnd q) ∨
    (ofQ q = inf true ∧ rnd q ≤ -2 ^ 1024) := by
  unfold ofQ
  cases h : toF64 q with
  | some a => exact Or.inl ⟨a, rfl, toF64_some h⟩
  | none =>
    have hl := large_of_none h
    by_cases hq : q < 0
    · refine Or.inr (Or.inr ⟨by simp [hq], ?_⟩)
      have : rnd q ≤ 0 := rnd_le rep_zero hq.le
      rw [abs_of_nonpos this] at hl
      linarith
    · refine Or.inr (Or.inl ⟨by simp [hq], ?_⟩)
      rwa [abs_of_nonneg (rnd_nonneg (not_lt.1 hq))] at hl

theorem ofQ_ne_nan (q : ℚ) : ofQ q ≠ nan := by
  rcases ofQ_cases q with ⟨a, h, _⟩ | ⟨h, _⟩ | ⟨h, _⟩ <;> rw [h] <;> simp

theorem big_pos : (0 : ℚ) < 2 ^ 1024 := by positivity

/-- Rounding keeps the order, beyond the largest finite number too. -/
theorem ofQ_mono {p q : ℚ} (h : p ≤ q) : value (ofQ p) ≤ value (ofQ q) := by
  have hr := rnd_mono h
  have hb := big_pos
  rcases ofQ_cases p with ⟨a, ha, va⟩ | ⟨ha, va⟩ | ⟨ha, va⟩ <;> rcases ofQ_cases q with ⟨b, hb', vb⟩ | ⟨hb', vb⟩ | ⟨hb', vb⟩ <;>
    rw [ha, hb']
  · exact fin_le (by rw [va, vb]; exact hr)
  · simp [value]
  · have := (abs_lt.1 a.fin).1
    rw [va] at this
    linarith
  · have := (abs_lt.1 b.fin).2
    rw [vb] at this
    linarith
  · generalize (2 : ℚ) ^ 1024 = T at *
    linarith
  all_goals simp [value]

theorem ofQ_zero' : ofQ 0 = zero := ofQ_val F64.zero

theorem value_zero : value zero = 0 := by
  show (((0 : ℚ) : ℝ) : EReal) = 0
  simp

/-- Division by a positive number keeps the order. -/
theorem div_mono {x y : X64} (hx : x ≠ nan) (hy : y ≠ nan) (h : value x ≤ value y) {c : F64} (hc : 0 < c.val) :
    value (x.div (fin c)) ≤ value (y.div (fin c)) := by
  have hc0 : c.val ≠ 0 := hc.ne'
  have hcl : ¬ c.val < 0 := not_lt.2 hc.le
  have hf : ∀ a : F64, (fin a).div (fin c) = ofQ (a.val / c.val) := fun a => if_neg hc0
  have hi : ∀ s : Bool, (inf s).div (fin c) = inf s := fun s => by
    show inf (s != decide (c.val < 0)) = inf s
    simp [hcl]
  cases x with
  | nan => exact absurd rfl hx
  | fin a => cases y with
    | nan => exact absurd rfl hy
    | fin b =>
      rw [hf, hf]
      rw [value_fin, value_fin, EReal.coe_le_coe_iff] at h
      exact ofQ_mono (div_le_div_of_nonneg_right (by exact_mod_cast h) hc.le)
    | inf t =>
      rw [hi]
      cases t
      · simp [value]
      · simp [value] at h
  | inf s => cases y with
    | nan => exact absurd rfl hy
    | fin b =>
      rw [hi]
      cases s
      · simp [value] at h
      · simp [value]
    | inf t => rw [hi, hi]; exact h

/-- Of a number that is not negative, the smaller divisor gives the larger quotient. -/
theorem div_anti {x : X64} (hx : x ≠ nan) (h0 : 0 ≤ value x) {c d : F64} (hd : 0 < d.val) (h : d.val ≤ c.val) :
    value (x.div (fin c)) ≤ value (x.div (fin d)) := by
  have hc := lt_of_lt_of_le hd h
  cases x with
  | nan => exact absurd rfl hx
  | fin a =>
    rw [show (fin a).div (fin c) = ofQ (a.val / c.val) from if_neg hc.ne', show (fin a).div (fin d) = ofQ (a.val / d.val) from if_neg hd.ne']
    have ha : (0 : ℚ) ≤ a.val := by
      rw [value_fin] at h0
      exact_mod_cast h0
    exact ofQ_mono (div_le_div_of_nonneg_left ha hd h)
  | inf s =>
    have hi : ∀ c : F64, 0 < c.val → (inf s).div (fin c) = inf s := fun c hc => by
      show inf (s != decide (c.val < 0)) = inf s
      simp [not_lt.2 hc.le]
    rw [hi c hc, hi d hd]

theorem div_ne_nan {x : X64} (hx : x ≠ nan) {c : F64} (hc : 0 < c.val) : x.div (fin c) ≠ nan := by
  cases x with
  | nan => exact absurd rfl hx
  | fin a =>
    rw [show (fin a).div (fin c) = ofQ (a.val / c.val) from if_neg hc.ne']
    exact ofQ_ne_nan _
  | inf s => show inf _ ≠ nan; simp

theorem zero_div {c : F64} (hc : 0 < c.val) : zero.div (fin c) = zero := by
  show (if c.val = 0 then _ else ofQ (F64.zero.val / c.val)) = zero
  rw [if_neg hc.ne', show F64.zero.val = 0 from rfl, _root_.zero_div, ofQ_zero']

/-- A quotient of two rounded numbers, rounded. -/
theorem quotient {D S x y κ : ℚ} (hS : S ≠ 0) (hx : |x - D| ≤ u * |D|) (h0 : 0 ≤ κ) (hκ : κ ≤ 1 / 10) (hy : |y - S| ≤ κ * |S|) :
    y ≠ 0 ∧ |x / y| ≤ 9 / 8 * |D / S| ∧ |rnd (x / y) - D / S| ≤ (9 / 8 * κ + 5 / 2 * u) * |D / S| + 2 ^ (-1075 : ℤ) := by
  have hu := u_pos
  have hu1 : u ≤ 1 / 1000 := by unfold u; norm_num
  have hSp : 0 < |S| := abs_pos.2 hS
  have hyl : 9 / 10 * |S| ≤ |y| := by
    have := abs_sub_abs_le_abs_sub S y
    rw [abs_sub_comm] at this
    nlinarith
  have hyp : 0 < |y| := by nlinarith
  have hy0 : y ≠ 0 := abs_pos.1 hyp
  have hD0 := abs_nonneg D
  have hQ : |D / S| * |S| = |D| := by rw [abs_div]; field_simp
  have hQ0 := abs_nonneg (D / S)
  have hxl : |x| ≤ (1 + u) * |D| := by
    have := abs_sub_abs_le_abs_sub x D
    linarith
  have h1 : |x / y| ≤ 9 / 8 * |D / S| := by
    rw [abs_div x y, div_le_iff₀ hyp]
    nlinarith [mul_le_mul_of_nonneg_left hyl hQ0]
  have h2 : |x / y - D / S| ≤ (9 / 8 * κ + 9 / 8 * u) * |D / S| := by
    have e : x / y - D / S = ((x - D) - (D / S) * (y - S)) / y := by field_simp; ring
    rw [e, abs_div, div_le_iff₀ hyp]
    have h3 : |x - D - D / S * (y - S)| ≤ u * |D| + |D / S| * (κ * |S|) := by
      refine (abs_sub _ _).trans (add_le_add hx ?_)
      rw [abs_mul]
      exact mul_le_mul_of_nonneg_left hy hQ0
    refine h3.trans ?_
    rw [← hQ]
    have h4 := mul_le_mul_of_nonneg_left hyl (mul_nonneg (add_nonneg h0 hu.le) hQ0)
    nlinarith [mul_nonneg (mul_nonneg (add_nonneg h0 hu.le) hQ0) hSp.le]
  refine ⟨hy0, h1, ?_⟩
  have h3 := rnd_error' (x / y)
  rw [abs_sub_comm] at h3
  have h4 := abs_sub_le (rnd (x / y)) (x / y) (D / S)
  have h5 := mul_le_mul_of_nonneg_left h1 hu.le
  nlinarith [mul_nonneg hu.le hQ0]

theorem ofQ_ok {q : ℚ} (h : |q| ≤ 2 ^ 1023) : ∃ a : F64, ofQ q = fin a ∧ a.val = rnd q := by
  apply ofQ_fin
  have hr : Rep ((2 : ℚ) ^ 1023) := ⟨1, 1023, by norm_num, by norm_num, by norm_num⟩
  exact lt_of_le_of_lt (rnd_abs_le hr h) (pow_lt_pow_right₀ (by norm_num) (by norm_num))

/-- The ratio of a rounded difference to a risk known up to a relative error. -/
theorem ratio {a b y : F64} {S κ : ℚ} (hS : S ≠ 0) (h1 : |a.val - b.val| ≤ 2 ^ 1023) (h0 : 0 ≤ κ) (hκ : κ ≤ 1 / 10) (hy : |y.val - S| ≤ κ * |S|)
    (h2 : |(a.val - b.val) / S| ≤ 2 ^ 1022) :
    ∃ v : F64, ((fin a).sub (fin b)).div (fin y) = fin v ∧
      |v.val - (a.val - b.val) / S| ≤ (9 / 8 * κ + 5 / 2 * u) * |(a.val - b.val) / S| + 2 ^ (-1075 : ℤ) := by
  obtain ⟨x, hx, vx⟩ := ofQ_ok h1
  have hd := rnd_sub a.rep b.rep
  rw [abs_sub_comm, ← vx] at hd
  obtain ⟨q1, q2, q3⟩ := quotient hS hd h0 hκ hy
  have h3 : |x.val / y.val| ≤ 2 ^ 1023 := by
    refine q2.trans ?_
    rw [show (2 : ℚ) ^ 1023 = 2 * 2 ^ 1022 by rw [show 1023 = 1 + 1022 by norm_num, pow_add, pow_one]]
    generalize (2 : ℚ) ^ 1022 = T at *
    have := abs_nonneg ((a.val - b.val) / S)
    linarith
  obtain ⟨v, hv, vv⟩ := ofQ_ok h3
  refine ⟨v, ?_, by rw [vv]; exact q3⟩
  rw [sub_fin, hx]
  show (if y.val = 0 then _ else ofQ (x.val / y.val)) = fin v
  rw [if_neg q1, hv]

theorem foldl_fin (xs : List F64) (a s : F64) (h : xs.foldlM F64.add a = some s) : (xs.map fin).foldl X64.add (fin a) = fin s := Nan.sum_of h

/-- The sum of squares. -/
theorem squares_error (ds : List F64) (hn : ds.length ≤ 2 ^ 40) (h1 : (2 : ℚ) ^ (-900 : ℤ) ≤ (ds.map fun x => x.val ^ 2).sum)
    (h2 : (ds.map fun x => x.val ^ 2).sum ≤ 2 ^ 1000) :
    ∃ s : F64, squares (ds.map fin) = fin s ∧ |s.val - (ds.map fun x => x.val ^ 2).sum| ≤
      (ds.length + 1) * 2 ^ (-52 : ℤ) * (ds.map fun x => x.val ^ 2).sum := by
  have hpos : ∀ l : List F64, 0 ≤ (l.map fun x => x.val ^ 2).sum := fun l => List.sum_nonneg (by
    intro y hy
    obtain ⟨x, _, rfl⟩ := List.mem_map.1 hy
    exact sq_nonneg _)
  have hu := u_pos
  have hη := zpos (-1075)
  have key : ∀ l : List F64, (l.map fun x => x.val ^ 2).sum ≤ 2 ^ 1000 → ∃ ys : List F64,
      (l.map fin).map (fun x => x.mul x) = ys.map fin ∧ ys.length = l.length ∧
      |exactSum ys - (l.map fun x => x.val ^ 2).sum| ≤ u * (l.map fun x => x.val ^ 2).sum + l.length * 2 ^ (-1075 : ℤ) ∧
      absSum ys ≤ (1 + u) * (l.map fun x => x.val ^ 2).sum + l.length * 2 ^ (-1075 : ℤ) := by
    intro l
    induction l with
    | nil => intro _; exact ⟨[], rfl, rfl, by simp [exactSum], by simp [absSum]⟩
    | cons d l ih =>
      intro hl
      rw [List.map_cons, List.sum_cons] at hl
      have hl0 := hpos l
      have hd0 := sq_nonneg d.val
      obtain ⟨ys, y1, y2, y3, y4⟩ := ih (by linarith)
      have hd : |d.val * d.val| ≤ 2 ^ 1023 := by
        rw [← pow_two, abs_of_nonneg hd0]
        exact le_trans (le_trans (le_add_of_nonneg_right hl0) hl) (pow_le_pow_right₀ (by norm_num) (by norm_num))
      obtain ⟨y, hy, vy⟩ := ofQ_ok hd
      have he := rnd_error' (d.val * d.val)
      rw [← vy, ← pow_two, abs_of_nonneg hd0, abs_sub_comm] at he
      refine ⟨y :: ys, ?_, by simp [y2], ?_, ?_⟩
      · rw [List.map_cons, List.map_cons, List.map_cons, y1]
        congr 1
      · rw [exactSum_cons, List.map_cons, List.sum_cons, List.length_cons]
        push_cast
        rw [show y.val + exactSum ys - (d.val ^ 2 + (l.map fun x => x.val ^ 2).sum) =
          (y.val - d.val ^ 2) + (exactSum ys - (l.map fun x => x.val ^ 2).sum) by ring]
        refine (abs_add_le _ _).trans ?_
        linarith
      · rw [absSum_cons, List.map_cons, List.sum_cons, List.length_cons]
        push_cast
        have := abs_sub_abs_le_abs_sub y.val (d.val ^ 2)
        rw [abs_of_nonneg hd0] at this
        linarith
  obtain ⟨ys, y1, y2, y3, y4⟩ := key ds h2
  generalize (ds.map fun x => x.val ^ 2).sum = S at *
  have hS0 : 0 < S := lt_of_lt_of_le (zpos _) h1
  have hnq : (ds.length : ℚ) ≤ 2 ^ 40 := by exact_mod_cast hn
  have hn0 : (0 : ℚ) ≤ ds.length := Nat.cast_nonneg _
  have hsmall : (ds.length : ℚ) * 2 ^ (-1075 : ℤ) ≤ u / 4 * S := by
    have e : (2 : ℚ) ^ 40 * 2 ^ (-1075 : ℤ) = 2 ^ (-135 : ℤ) * 2 ^ (-900 : ℤ) := by
      rw [← zpow_natCast, ← zpow_add₀ (by norm_num), ← zpow_add₀ (by norm_num)]
      norm_num
    have h3 : (2 : ℚ) ^ (-135 : ℤ) ≤ u / 4 := by unfold u; norm_num
    calc (ds.length : ℚ) * 2 ^ (-1075 : ℤ) ≤ 2 ^ 40 * 2 ^ (-1075 : ℤ) := mul_le_mul_of_nonneg_right hnq hη.le
      _ = 2 ^ (-135 : ℤ) * 2 ^ (-900 : ℤ) := e
      _ ≤ u / 4 * S := mul_le_mul h3 h1 (zpos _).le (by positivity)
  have hu1 : u ≤ 1 / 1000 := by unfold u; norm_num
  have hA : absSum ys ≤ (1 + 5 / 4 * u) * S := by linarith
  have hn52 : ys.length ≤ 2 ^ 52 := by rw [y2]; exact hn.trans (by norm_num)
  have hlt : absSum ys < 2 ^ 1023 := by
    have h3 : (1 + 5 / 4 * u) * S ≤ 2 * S := mul_le_mul_of_nonneg_right (by linarith) hS0.le
    have h4 : 2 * (2 : ℚ) ^ 1000 < 2 ^ 1023 := by
      rw [← pow_succ']
      exact pow_lt_pow_right₀ (by norm_num) (by norm_num)
    refine lt_of_le_of_lt (hA.trans h3) (lt_of_le_of_lt (mul_le_mul_of_nonneg_left h2 (by norm_num)) h4)
  obtain ⟨s, hs⟩ := (C86_sum ys hn52).2 hlt
  have he := sum_error ys hn52 s hs
  refine ⟨s, ?_, ?_⟩
  · unfold squares
    rw [y1]
    exact foldl_fin ys F64.zero s hs
  · rw [y2] at he
    have h5 : |s.val - S| ≤ |s.val - exactSum ys| + |exactSum ys - S| := abs_sub_le _ _ _
    have hm : ((ds.length - 1 : ℕ) : ℚ) ≤ ds.length := by exact_mod_cast Nat.sub_le _ _
    have hu2 : (2 : ℚ) ^ (-52 : ℤ) = 2 * u := by unfold u; norm_num
    rw [hu2] at he ⊢
    have hA0 := absSum_nonneg ys
    have h6 : ((ds.length - 1 : ℕ) : ℚ) * (2 * u) * absSum ys ≤ ds.length * (2 * u) * ((1 + 5 / 4 * u) * S) := by
      apply mul_le_mul (mul_le_mul_of_nonneg_right hm (by linarith only [hu])) hA hA0 (mul_nonneg hn0 (by linarith only [hu]))
    have h7 : (ds.length : ℚ) * u ≤ 1 / 1000 := by
      have : (ds.length : ℚ) * u ≤ 2 ^ 40 * u := mul_le_mul_of_nonneg_right hnq hu.le
      refine this.trans ?_
      unfold u
      norm_num
    have h8 : (ds.length : ℚ) * (2 * u) * ((1 + 5 / 4 * u) * S) ≤ (ds.length * (2 * u) + u / 2) * S := by
      rw [← mul_assoc]
      apply mul_le_mul_of_nonneg_right _ hS0.le
      nlinarith
    nlinarith [mul_nonneg hu.le hS0.le]

end Verif.Float.Reward
