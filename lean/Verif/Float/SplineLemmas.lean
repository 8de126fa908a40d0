import Verif.Float.SplineSpec
import Verif.Float.NelsonSiegelNan
import Mathlib.Algebra.Order.BigOperators.Group.Finset

/-!
# C111: lemmas on splines in double precision
-/

namespace Verif.Float.Spline

open X64 Nan Verif.Float.Sorting
open Verif.Math.BSpline (Spline N N_nonneg N_support N_zero N_sum knot_mono)
open Verif.Float.Curves (rep_pow)
open Verif.Float.Laws (one_fin le_fin)

/-- Underflow. -/
def eta : ℚ := 2 ^ (-1075 : ℤ)

theorem eta_pos : 0 < eta := by unfold eta; positivity

theorem u_small : u ≤ 1 / 10 ^ 12 := by unfold u; norm_num

theorem quot {p a b a' : F64} (hQ : 2 ^ (-500 : ℤ) ≤ b.val - a'.val) (hQ2 : |b.val - a'.val| ≤ 2 ^ (501 : ℤ))
    (hP : |p.val - a.val| ≤ 2 ^ (501 : ℤ)) :
    ∃ x : F64, ((fin p).sub (fin a)).div ((fin b).sub (fin a')) = fin x ∧ (p.val = a.val → x.val = 0) ∧
      (0 ≤ p.val - a.val → p.val - a.val ≤ b.val - a'.val → 0 ≤ x.val ∧ x.val ≤ 1 ∧
        |x.val - (p.val - a.val) / (b.val - a'.val)| ≤ 4 * u * ((p.val - a.val) / (b.val - a'.val)) + eta) := by
  have hu := u_pos
  have hus := u_small
  have hsP := rnd_sub p.rep a.rep
  have hsQ := rnd_sub b.rep a'.rep
  have hQ0 : (0 : ℚ) < b.val - a'.val := lt_of_lt_of_le (by positivity) hQ
  have hr1 : |rnd (p.val - a.val)| ≤ 2 ^ (501 : ℤ) := rnd_abs_le (rep_pow 501 (by norm_num)) hP
  have hcmp : ∀ k : ℤ, k < 1024 → (2 : ℚ) ^ k < 2 ^ 1024 := fun k hk => by
    rw [← zpow_natCast]; exact zpow_lt_zpow_right₀ (by norm_num) (by exact_mod_cast hk)
  obtain ⟨n, n1, n2⟩ := ofQ_fin (lt_of_le_of_lt hr1 (hcmp 501 (by norm_num)))
  have hr2 : 2 ^ (-500 : ℤ) ≤ rnd (b.val - a'.val) := le_rnd (rep_pow (-500) (by norm_num)) hQ
  have hz : (fin p).sub (fin a) = fin n := by rw [X64.sub_fin, n1]
  have hbsub : (fin b).sub (fin a') = ofQ (b.val - a'.val) := X64.sub_fin _ _
  set P := p.val - a.val with hPd
  set Q := b.val - a'.val with hQd
  by_cases hQf : |rnd Q| < 2 ^ 1024
  · obtain ⟨m, m1, m2⟩ := ofQ_fin hQf
    have hm0 : 0 < m.val := by rw [m2]; exact lt_of_lt_of_le (by positivity) hr2
    have hquot : |n.val / m.val| ≤ 2 ^ (1001 : ℤ) := by
      rw [abs_div, abs_of_pos hm0, n2, m2, div_le_iff₀ (by rw [← m2]; exact hm0)]
      refine hr1.trans ?_
      have h1 : (2 : ℚ) ^ (501 : ℤ) = 2 ^ (1001 : ℤ) * 2 ^ (-500 : ℤ) := by rw [← zpow_add₀ (by norm_num)]; norm_num
      rw [h1]
      exact mul_le_mul_of_nonneg_left hr2 (by positivity)
    have hq2 := rnd_abs_le (rep_pow 1001 (by norm_num)) hquot
    obtain ⟨x, x1, x2⟩ := ofQ_fin (lt_of_le_of_lt hq2 (hcmp 1001 (by norm_num)))
    refine ⟨x, ?_, ?_, ?_⟩
    · rw [hz, hbsub, m1]
      change (if m.val = 0 then _ else ofQ (n.val / m.val)) = _
      rw [if_neg hm0.ne', x1]
    · intro h
      rw [x2, n2, hPd, h, sub_self, rnd_zero, zero_div, rnd_zero]
    · intro h0 h1
      have hn0 : 0 ≤ n.val := by rw [n2]; exact rnd_nonneg h0
      have hnm : n.val ≤ m.val := by rw [n2, m2]; exact rnd_mono h1
      have hd0 : 0 ≤ n.val / m.val := div_nonneg hn0 hm0.le
      have hd1 : n.val / m.val ≤ 1 := (div_le_one hm0).2 hnm
      refine ⟨by rw [x2]; exact rnd_nonneg hd0, by rw [x2]; exact rnd_le rep_one hd1, ?_⟩
      have e1 := rnd_error' (n.val / m.val)
      rw [← x2, abs_of_nonneg hd0, abs_sub_comm] at e1
      change _ ≤ _ + eta at e1
      rw [← n2, abs_of_nonneg h0] at hsP
      rw [← m2, abs_of_pos hQ0] at hsQ
      have ⟨p1, p2⟩ := abs_le.1 hsP
      have ⟨q1, q2⟩ := abs_le.1 hsQ
      -- the quotient before its own rounding
      have k1 : n.val / m.val ≤ (1 + 5 / 2 * u) * (P / Q) := by
        rw [div_le_iff₀ hm0]
        have h2 : (1 - u) * Q ≤ m.val := by linarith
        have h3 : n.val ≤ (1 + u) * P := by linarith
        have h4 : (1 + 5 / 2 * u) * (P / Q) * ((1 - u) * Q) ≤ (1 + 5 / 2 * u) * (P / Q) * m.val :=
          mul_le_mul_of_nonneg_left h2 (by positivity)
        have h5 : (1 + 5 / 2 * u) * (P / Q) * ((1 - u) * Q) = (1 + 5 / 2 * u) * (1 - u) * P := by field_simp
        have h6 : (1 + u) * P ≤ (1 + 5 / 2 * u) * (1 - u) * P := mul_le_mul_of_nonneg_right (by nlinarith) h0
        linarith
      have k2 : (1 - 5 / 2 * u) * (P / Q) ≤ n.val / m.val := by
        rw [le_div_iff₀ hm0]
        have h2 : m.val ≤ (1 + u) * Q := by linarith
        have h3 : (1 - u) * P ≤ n.val := by linarith
        have h4 : (1 - 5 / 2 * u) * (P / Q) * m.val ≤ (1 - 5 / 2 * u) * (P / Q) * ((1 + u) * Q) :=
          mul_le_mul_of_nonneg_left h2 (mul_nonneg (by linarith) (by positivity))
        have h5 : (1 - 5 / 2 * u) * (P / Q) * ((1 + u) * Q) = (1 - 5 / 2 * u) * (1 + u) * P := by field_simp
        have h6 : (1 - 5 / 2 * u) * (1 + u) * P ≤ (1 - u) * P := mul_le_mul_of_nonneg_right (by nlinarith) h0
        linarith
      have hρ : 0 ≤ P / Q := by positivity
      generalize P / Q = ρ at *
      generalize n.val / m.val = q at *
      obtain ⟨g1, g2⟩ := abs_le.1 e1
      have h7 : u * q ≤ u * ((1 + 5 / 2 * u) * ρ) := mul_le_mul_of_nonneg_left k1 hu.le
      have h8 : u * ((1 + 5 / 2 * u) * ρ) ≤ 3 / 2 * u * ρ := by
        have : u * (1 + 5 / 2 * u) ≤ 3 / 2 * u := by nlinarith
        calc _ = u * (1 + 5 / 2 * u) * ρ := by ring
          _ ≤ _ := mul_le_mul_of_nonneg_right this hρ
      rw [abs_le]
      constructor <;> linarith
  · exact absurd (lt_of_le_of_lt (rnd_abs_le (rep_pow 501 (by norm_num)) hQ2) (hcmp 501 (by norm_num))) hQf

/-- A product of a fraction with a value of a basis function. -/
theorem term {x n : F64} {ρ B E A : ℚ} (hB0 : 0 ≤ B) (hB1 : B ≤ 2 ^ 50) (hE0 : 0 ≤ E) (hE1 : E ≤ 1) (hA0 : 0 ≤ A) (hA1 : A ≤ 1)
    (hn0 : 0 ≤ n.val) (hn : |n.val - B| ≤ E * B + A) (hz : B = 0 → n.val = 0)
    (hx : B ≠ 0 → 0 ≤ ρ ∧ (ρ = 0 → x.val = 0) ∧ 0 ≤ x.val ∧ x.val ≤ 1 ∧ |x.val - ρ| ≤ 4 * u * ρ + eta) :
    ∃ y : F64, (fin x).mul (fin n) = fin y ∧ 0 ≤ y.val ∧ (ρ * B = 0 → y.val = 0) ∧
      |y.val - ρ * B| ≤ ((1 + u) * (1 + 4 * u) * (1 + E) - 1) * (ρ * B) + ((1 + u) * (A + 2 ^ 51 * eta) + eta) := by
  have hu := u_pos
  have hus := u_small
  have he := eta_pos
  by_cases hB : B = 0
  · refine ⟨F64.zero, ?_, le_rfl, fun _ => rfl, ?_⟩
    · change ofQ (x.val * n.val) = _
      rw [hz hB, mul_zero]
      exact ofQ_of_eq _ rfl
    · have : F64.zero.val = 0 := rfl
      rw [this, hB, mul_zero, sub_zero, abs_zero, mul_zero]
      have h1 : 0 ≤ (1 + u) * (A + 2 ^ 51 * eta) := mul_nonneg (by linarith) (by linarith)
      linarith
  · obtain ⟨r0, rz, x0, x1, xe⟩ := hx hB
    have hprod0 : 0 ≤ x.val * n.val := mul_nonneg x0 hn0
    have hnB : n.val ≤ 2 ^ 52 := by
      have h1 := (abs_le.1 hn).2
      have h2 : E * B ≤ 1 * 2 ^ 50 := mul_le_mul hE1 hB1 hB0 (by norm_num)
      linarith
    have hle : x.val * n.val ≤ n.val := by nlinarith
    have hfin : |rnd (x.val * n.val)| < 2 ^ 1024 := by
      refine lt_of_le_of_lt (rnd_abs_le (rep_pow 52 (by norm_num)) ?_) ?_
      · rw [abs_of_nonneg hprod0]; exact hle.trans (hnB.trans (by norm_num))
      · rw [← zpow_natCast]; exact zpow_lt_zpow_right₀ (by norm_num) (by norm_num)
    obtain ⟨y, y1, y2⟩ := ofQ_fin hfin
    refine ⟨y, y1, by rw [y2]; exact rnd_nonneg hprod0, ?_, ?_⟩
    · intro h
      rcases mul_eq_zero.1 h with h | h
      · rw [y2, rz h, zero_mul, rnd_zero]
      · exact absurd h hB
    · have e1 := rnd_error' (x.val * n.val)
      rw [← y2, abs_of_nonneg hprod0, abs_sub_comm] at e1
      change _ ≤ _ + eta at e1
      -- `x n` against `ρ B`
      have d1 : |x.val * n.val - ρ * B| ≤ ((1 + 4 * u) * (1 + E) - 1) * (ρ * B) + (A + 2 ^ 51 * eta) := by
        have e : x.val * n.val - ρ * B = x.val * (n.val - B) + B * (x.val - ρ) := by ring
        rw [e]
        refine (abs_add_le _ _).trans ?_
        rw [abs_mul, abs_mul, abs_of_nonneg x0, abs_of_nonneg hB0]
        have xu : x.val ≤ (1 + 4 * u) * ρ + eta := by linarith [(abs_le.1 xe).2]
        have h1 : x.val * |n.val - B| ≤ x.val * (E * B + A) := mul_le_mul_of_nonneg_left hn x0
        have h2 : x.val * (E * B) ≤ ((1 + 4 * u) * ρ + eta) * (E * B) := mul_le_mul_of_nonneg_right xu (by positivity)
        have h3 : x.val * A ≤ 1 * A := mul_le_mul_of_nonneg_right x1 hA0
        have h4 : B * |x.val - ρ| ≤ B * (4 * u * ρ + eta) := mul_le_mul_of_nonneg_left xe hB0
        have h5 : eta * (E * B) ≤ eta * (1 * 2 ^ 50) := mul_le_mul_of_nonneg_left (mul_le_mul hE1 hB1 hB0 (by norm_num)) he.le
        have h6 : B * eta ≤ 2 ^ 50 * eta := mul_le_mul_of_nonneg_right hB1 he.le
        nlinarith
      have hρB : 0 ≤ ρ * B := by positivity
      have d2 : x.val * n.val ≤ ρ * B + |x.val * n.val - ρ * B| := by linarith [le_abs_self (x.val * n.val - ρ * B)]
      have d3 : |y.val - ρ * B| ≤ |y.val - x.val * n.val| + |x.val * n.val - ρ * B| := abs_sub_le _ _ _
      generalize |x.val * n.val - ρ * B| = D at *
      have d4 : u * (x.val * n.val) ≤ u * (ρ * B + D) := mul_le_mul_of_nonneg_left d2 hu.le
      have d5 : (1 + u) * D ≤ (1 + u) * (((1 + 4 * u) * (1 + E) - 1) * (ρ * B) + (A + 2 ^ 51 * eta)) :=
        mul_le_mul_of_nonneg_left d1 (by linarith)
      nlinarith

/-- The error of a basis function of degree `d`. -/
def rel (d : ℕ) : ℚ := (1 + 7 * u) ^ d - 1

/-- What underflow adds to it. -/
def absolute (d : ℕ) : ℚ := (4 ^ d - 1) * (2 ^ 52 * eta)

theorem rel_le (d : ℕ) (hd : d ≤ 50) : rel d ≤ 8 * d * u := by
  have hus := u_small
  have hu := u_pos
  unfold rel
  have : ∀ k : ℕ, k ≤ 50 → (1 + 7 * u) ^ k ≤ 1 + 8 * k * u := by
    intro k hk
    induction k with
    | zero => simp
    | succ k ih =>
      have h1 := ih (by omega)
      have hk' : (k : ℚ) ≤ 50 := by exact_mod_cast (by omega : k ≤ 50)
      rw [pow_succ]
      push_cast
      have h2 : (1 + 7 * u) ^ k * (1 + 7 * u) ≤ (1 + 8 * k * u) * (1 + 7 * u) := mul_le_mul_of_nonneg_right h1 (by linarith)
      have h3 : (k : ℚ) * u ≤ 50 * u := mul_le_mul_of_nonneg_right hk' hu.le
      nlinarith
  linarith [this d hd]

theorem rel_nonneg (d : ℕ) : 0 ≤ rel d := by
  have : (1 : ℚ) ≤ (1 + 7 * u) ^ d := one_le_pow₀ (by linarith [u_pos])
  unfold rel; linarith

theorem absolute_nonneg (d : ℕ) : 0 ≤ absolute d := by
  have : (1 : ℚ) ≤ 4 ^ d := one_le_pow₀ (by norm_num)
  have := eta_pos
  unfold absolute
  exact mul_nonneg (by linarith) (by positivity)

theorem absolute_le (d : ℕ) (hd : d ≤ 50) : absolute d ≤ 2 ^ (-923 : ℤ) := by
  unfold absolute
  have h1 : (4 : ℚ) ^ d ≤ 4 ^ 50 := pow_le_pow_right₀ (by norm_num) hd
  have h2 : (2 : ℚ) ^ 52 * eta = 2 ^ (-1023 : ℤ) := by
    unfold eta; rw [← zpow_natCast, ← zpow_add₀ (by norm_num)]; norm_num
  rw [h2]
  calc ((4 : ℚ) ^ d - 1) * 2 ^ (-1023 : ℤ) ≤ 4 ^ 50 * 2 ^ (-1023 : ℤ) := mul_le_mul_of_nonneg_right (by linarith) (by positivity)
    _ = 2 ^ (100 : ℤ) * 2 ^ (-1023 : ℤ) := by norm_num
    _ = _ := by rw [← zpow_add₀ (by norm_num)]; norm_num

/-- The sum of two such products. -/
theorem join {y z : F64} {Y Z E A : ℚ} (hE : 0 ≤ E) (hY0 : 0 ≤ Y) (hZ0 : 0 ≤ Z) (hA0 : 0 ≤ A) (hy0 : 0 ≤ y.val) (hz0 : 0 ≤ z.val)
    (hyB : y.val ≤ 2 ^ 60) (hzB : z.val ≤ 2 ^ 60)
    (hy : |y.val - Y| ≤ ((1 + u) * (1 + 4 * u) * (1 + E) - 1) * Y + ((1 + u) * (A + 2 ^ 51 * eta) + eta))
    (hz : |z.val - Z| ≤ ((1 + u) * (1 + 4 * u) * (1 + E) - 1) * Z + ((1 + u) * (A + 2 ^ 51 * eta) + eta)) :
    ∃ r : F64, (fin y).add (fin z) = fin r ∧ r.val = rnd (y.val + z.val) ∧ 0 ≤ r.val ∧
      |r.val - (Y + Z)| ≤ ((1 + 7 * u) * (1 + E) - 1) * (Y + Z) + 3 * (A + 2 ^ 52 * eta) := by
  have hu := u_pos
  have hus := u_small
  have he := eta_pos
  have hs0 : 0 ≤ y.val + z.val := by linarith
  have hfin : |rnd (y.val + z.val)| < 2 ^ 1024 := by
    refine lt_of_le_of_lt (rnd_abs_le (rep_pow 61 (by norm_num)) ?_) ?_
    · rw [abs_of_nonneg hs0, show (2 : ℚ) ^ (61 : ℤ) = 2 ^ 60 + 2 ^ 60 by norm_num]; linarith
    · rw [← zpow_natCast]; exact zpow_lt_zpow_right₀ (by norm_num) (by norm_num)
  obtain ⟨r, r1, r2⟩ := ofQ_fin hfin
  refine ⟨r, r1, r2, by rw [r2]; exact rnd_nonneg hs0, ?_⟩
  have e1 := rnd_add y.rep z.rep
  rw [← r2, abs_of_nonneg hs0, abs_sub_comm] at e1
  set F := (1 + u) * (1 + 4 * u) * (1 + E) - 1 with hF
  set W := (1 + u) * (A + 2 ^ 51 * eta) + eta with hW
  have hF0 : 0 ≤ F := by rw [hF]; nlinarith [mul_pos hu hu, mul_nonneg hu.le hE, mul_nonneg (mul_pos hu hu).le hE]
  have d1 : |y.val + z.val - (Y + Z)| ≤ F * (Y + Z) + 2 * W := by
    rw [show y.val + z.val - (Y + Z) = (y.val - Y) + (z.val - Z) by ring]
    refine (abs_add_le _ _).trans ?_
    linarith
  have d2 : y.val + z.val ≤ (Y + Z) + (F * (Y + Z) + 2 * W) := by linarith [le_abs_self (y.val + z.val - (Y + Z))]
  have d3 : |r.val - (Y + Z)| ≤ |r.val - (y.val + z.val)| + |y.val + z.val - (Y + Z)| := abs_sub_le _ _ _
  have d4 : u * (y.val + z.val) ≤ u * ((Y + Z) + (F * (Y + Z) + 2 * W)) := mul_le_mul_of_nonneg_left d2 hu.le
  have d5 : ((1 + u) * (1 + F) - 1) * (Y + Z) ≤ ((1 + 7 * u) * (1 + E) - 1) * (Y + Z) := by
    refine mul_le_mul_of_nonneg_right ?_ (by linarith)
    have : (1 + u) * ((1 + u) * (1 + 4 * u)) ≤ 1 + 7 * u := by nlinarith [mul_pos hu hu]
    have h2 := mul_le_mul_of_nonneg_right this (show 0 ≤ 1 + E by linarith)
    rw [hF]
    linarith
  have d6 : 2 * W * (1 + u) ≤ 3 * (A + 2 ^ 52 * eta) := by
    rw [hW]
    nlinarith [mul_nonneg hu.le hA0, mul_pos hu he, mul_nonneg (mul_pos hu hu).le hA0, mul_pos (mul_pos hu hu) he]
  linarith

end Verif.Float.Spline
