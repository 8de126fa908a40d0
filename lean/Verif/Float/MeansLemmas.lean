import Verif.Float.MeansSpec
import Verif.Float.BlackScholesLemmas
import Verif.Float.BlackScholesExpiry

/-! Helper lemmas: rounded products and their roots. -/

namespace Verif.Float.Mean

open X64 Real Verif.Float.Sim
open Verif.Float.Fft (ur mu top rnd_real toF64_total ur_pos mu_pos ur_le)

theorem real_pos {a : F64} : 0 < F64.real a ↔ 0 < a.val := by unfold F64.real; exact Rat.cast_pos

theorem real_le_iff {a : F64} {q : ℚ} : F64.real a ≤ q ↔ a.val ≤ q := by unfold F64.real; exact Rat.cast_le

theorem le_real_iff {a : F64} {q : ℚ} : (q : ℝ) ≤ F64.real a ↔ q ≤ a.val := by unfold F64.real; exact Rat.cast_le

/-- Results that are not subnormal have a relative error. -/
theorem rnd_rel {q : ℚ} (h : 2 ^ (-1022 : ℤ) ≤ |q|) : |((rnd q : ℚ) : ℝ) - q| ≤ ur * |(q : ℝ)| := by
  rcases rnd_error q with h1 | h1
  · rw [abs_sub_comm]
    have := (Rat.cast_le (K := ℝ)).2 h1
    push_cast at this
    unfold ur
    exact this
  · exact absurd h (not_le.2 h1.1)

theorem log_near {b q : ℝ} (hq : 0 < q) (h : |b - q| ≤ ur * q) : 0 < b ∧ |log b - log q| ≤ 2 * ur := by
  have h1 := ur_le
  have hu := ur_pos
  rw [abs_le] at h
  have hb : 0 < b := by nlinarith
  refine ⟨hb, ?_⟩
  rw [← log_div hb.ne' hq.ne', abs_le]
  have hr : 0 < b / q := by positivity
  constructor
  · have := one_sub_inv_le_log_of_pos hr
    have h2 : (b / q)⁻¹ ≤ 1 + 2 * ur := by
      rw [inv_div, div_le_iff₀ hb]
      nlinarith
    linarith
  · have := log_le_sub_one_of_pos hr
    have h2 : b / q ≤ 1 + ur := by rw [div_le_iff₀ hq]; linarith
    linarith

theorem mul_log {a x : F64} (ha : 0 < F64.real a) (hx : 0 < F64.real x) (h1 : 2 ^ (-1022 : ℤ) ≤ F64.real a * F64.real x)
    (h2 : F64.real a * F64.real x ≤ top) : ∃ b, (fin a).mul (fin x) = fin b ∧ 0 < F64.real b ∧
      |log (F64.real b) - (log (F64.real a) + log (F64.real x))| ≤ 2 * ur := by
  have e : ((a.val * x.val : ℚ) : ℝ) = F64.real a * F64.real x := by unfold F64.real; push_cast; rfl
  have hp : 0 < F64.real a * F64.real x := by positivity
  obtain ⟨b, hb, hv⟩ := toF64_total (x := a.val * x.val) (by rw [e, abs_of_pos hp]; exact h2)
  have h1' : 2 ^ (-1022 : ℤ) ≤ |a.val * x.val| := by
    rw [← Rat.cast_le (K := ℝ)]
    push_cast
    rw [show (a.val : ℝ) * x.val = F64.real a * F64.real x from rfl, abs_of_pos hp]
    exact h1
  have h3 := rnd_rel h1'
  rw [e, ← hv, abs_of_pos hp] at h3
  obtain ⟨h4, h5⟩ := log_near hp h3
  rw [← log_mul ha.ne' hx.ne']
  exact ⟨b, Bsm.mul_some hb, h4, h5⟩

theorem total_nil : total [] = 1 := rfl

theorem total_cons (x : F64) (xs : List F64) : total (x :: xs) = F64.real x * total xs := by simp [total]

theorem total_pos {xs : List F64} (h : ∀ x ∈ xs, 0 < F64.real x) : 0 < total xs := by
  induction xs with
  | nil => rw [total_nil]; norm_num
  | cons x xs ih =>
    rw [total_cons]
    exact mul_pos (h x (by simp)) (ih fun y hy => h y (by simp [hy]))

theorem log_bound {a A c : ℝ} (ha : 0 < a) (hA : 0 < A) (hc1 : c ≤ 1 / 8) (h : |log a - log A| ≤ c) :
    A / 2 ≤ a ∧ a ≤ 2 * A := by
  rw [abs_le] at h
  have h2 : (1 : ℝ) / 8 ≤ log 2 := by
    have := log_two_gt_d9
    linarith
  constructor
  · rw [← log_le_log_iff (by positivity) ha, log_div hA.ne' (by norm_num)]
    linarith [h.1]
  · rw [← log_le_log_iff ha (by positivity), log_mul (by norm_num) hA.ne']
    linarith [h.2]

/-- The logarithm of a rounded product is off by at most two units per factor. -/
theorem product_from (xs : List F64) (a : F64) (A : ℝ) (k : ℕ) (hA : 0 < A) (ha : 0 < F64.real a)
    (h : |log (F64.real a) - log A| ≤ k * (2 * ur)) (hk : k + xs.length ≤ 2 ^ 40) (hx : ∀ x ∈ xs, 0 < F64.real x)
    (hpre : ∀ j ≤ xs.length, 2 ^ (-1021 : ℤ) ≤ A * total (xs.take j) ∧ A * total (xs.take j) ≤ 2 ^ 1022) :
    ∃ b, xs.foldl (fun acc x => acc.mul (fin x)) (fin a) = fin b ∧ 0 < F64.real b ∧
      |log (F64.real b) - log (A * total xs)| ≤ (k + xs.length : ℕ) * (2 * ur) := by
  induction xs generalizing a A k with
  | nil => exact ⟨a, rfl, ha, by simpa [total_nil] using h⟩
  | cons x xs ih =>
    have hx0 := hx x (by simp)
    have hk1 : (k : ℝ) * (2 * ur) ≤ 1 / 8 := by
      have : (k : ℝ) ≤ 2 ^ 40 := by
        have : k ≤ 2 ^ 40 := by omega
        exact_mod_cast this
      calc (k : ℝ) * (2 * ur) ≤ 2 ^ 40 * (2 * ur) := by have := ur_pos; gcongr
        _ ≤ 1 / 8 := by unfold ur; norm_num
    obtain ⟨l1, l2⟩ := log_bound ha hA hk1 h
    have hp := hpre 1 (by simp)
    simp only [List.take_succ_cons, List.take_zero, total_cons, total_nil, mul_one] at hp
    have b1 : 2 ^ (-1022 : ℤ) ≤ F64.real a * F64.real x := by
      have e : (2 : ℝ) ^ (-1022 : ℤ) = 2 ^ (-1021 : ℤ) / 2 := by
        rw [show (-1022 : ℤ) = -1021 - 1 by norm_num, zpow_sub_one₀ (by norm_num)]; ring
      rw [e]
      have := mul_le_mul_of_nonneg_right l1 hx0.le
      refine le_trans (div_le_div_of_nonneg_right hp.1 (by norm_num)) (le_trans (le_of_eq ?_) this)
      ring
    have b2 : F64.real a * F64.real x ≤ top := by
      have := mul_le_mul_of_nonneg_right l2 hx0.le
      refine this.trans ?_
      have e : top = 2 * 2 ^ 1022 := by unfold top; rw [← pow_succ']
      rw [e, mul_assoc]
      exact mul_le_mul_of_nonneg_left hp.2 (by norm_num)
    obtain ⟨b, hb, hb0, hl⟩ := mul_log ha hx0 b1 b2
    have hl' : |log (F64.real b) - log (A * F64.real x)| ≤ ((k + 1 : ℕ) : ℝ) * (2 * ur) := by
      rw [log_mul hA.ne' hx0.ne']
      push_cast
      rw [show log (F64.real b) - (log A + log (F64.real x)) =
        (log (F64.real b) - (log (F64.real a) + log (F64.real x))) + (log (F64.real a) - log A) by ring]
      refine (abs_add_le _ _).trans ?_
      linarith
    obtain ⟨c, hc, hc0, hcl⟩ := ih b (A * F64.real x) (k + 1) (by positivity) hb0 hl' (by simp at hk; omega)
      (fun y hy => hx y (by simp [hy])) (fun j hj => by
        have := hpre (j + 1) (by simpa using hj)
        rwa [List.take_succ_cons, total_cons, ← mul_assoc] at this)
    refine ⟨c, by rw [List.foldl_cons, hb, hc], hc0, ?_⟩
    rw [total_cons, ← mul_assoc]
    convert hcl using 3
    rw [List.length_cons]; omega

/-- The rounded reciprocal of a number of data. -/
theorem recip {n : ℕ} (h0 : 0 < n) (hn : n ≤ 2 ^ 53) : ∃ p : F64, (ofQ 1).div (X64.ofNat n) = fin p ∧
    |F64.real p - 1 / n| ≤ ur * (1 / n) ∧ 0 < p.val ∧ p.val ≤ 1 ∧ (2 ≤ n → p.val ≤ 1 / 2) := by
  obtain ⟨one, h1, h1v⟩ := Bsm.one_val
  obtain ⟨m, hm, hmv⟩ := ofNat_small n hn
  have hm' : X64.ofNat n = fin m := Bsm.ofQ_some hm
  have hmne : m.val ≠ 0 := by rw [hmv]; positivity
  have hq : (2 : ℚ) ^ (-1022 : ℤ) ≤ 1 / n := by
    have hn' : (n : ℚ) ≤ 2 ^ (53 : ℤ) := by exact_mod_cast hn
    have : (1 : ℚ) / 2 ^ (53 : ℤ) ≤ 1 / n := by gcongr
    refine le_trans ?_ this
    rw [one_div, ← zpow_neg]
    exact zpow_le_zpow_right₀ (by norm_num) (by norm_num)
  have hq0 : (0 : ℚ) < 1 / n := by positivity
  have hq1 : (1 : ℚ) / n ≤ 1 := by rw [div_le_one (by positivity)]; exact_mod_cast h0
  have hr1 : rnd (1 / n) ≤ 1 := rnd_le rep_one hq1
  have hr0 : 0 < rnd (1 / n) := by
    refine lt_of_lt_of_le (zpos (-1022)) (le_rnd ?_ hq)
    simpa using rep_of_le 1 (-1022) (by norm_num) (by norm_num)
  obtain ⟨p, hp, hpv⟩ := toF64_isSome (x := 1 / n) (by rw [abs_of_pos hr0]; exact hr1.trans_lt (one_lt_pow₀ (by norm_num) (by norm_num)))
  refine ⟨p, ?_, ?_, by rw [hpv]; exact hr0, by rw [hpv]; exact hr1, fun h2 => ?_⟩
  · rw [h1, hm']
    show (if m.val = 0 then _ else ofQ (one.val / m.val)) = fin p
    rw [if_neg hmne, h1v, hmv, Bsm.ofQ_some hp]
  · have := rnd_rel (q := 1 / n) (by rw [abs_of_pos hq0]; exact hq)
    rw [← hpv] at this
    push_cast at this
    rw [abs_of_pos (show (0 : ℝ) < 1 / n by positivity)] at this
    exact this
  · rw [hpv]
    refine rnd_le (by simpa [zpow_neg] using rep_of_le 1 (-1) (by norm_num) (by norm_num)) ?_
    have : (2 : ℚ) ≤ n := by exact_mod_cast h2
    gcongr

/-- The root of a rounded product. -/
theorem root_close {a p : F64} {P : ℝ} {n : ℕ} (hn : 0 < n) (ha : 0 < F64.real a) (hP : 0 < P)
    (h : |log (F64.real a) - log P| ≤ n * (2 * ur)) (hp : |F64.real p - 1 / n| ≤ ur * (1 / n)) (hL : |log P| ≤ 2 ^ 10) :
    |F64.real a ^ F64.real p - P ^ (1 / (n : ℝ))| ≤
      3 / 2 * (ur * (3 + |log (P ^ (1 / (n : ℝ)))|)) * P ^ (1 / (n : ℝ)) := by
  have hu := ur_pos
  have hu1 : ur ≤ 2 ^ (-50 : ℤ) := by unfold ur; norm_num
  have hn' : (0 : ℝ) < n := by exact_mod_cast hn
  have hn1 : (1 : ℝ) ≤ n := by exact_mod_cast hn
  have hG : 0 < P ^ (1 / (n : ℝ)) := by positivity
  have hlG : log (P ^ (1 / (n : ℝ))) = 1 / n * log P := log_rpow hP _
  have hL1 : |log (P ^ (1 / (n : ℝ)))| ≤ 2 ^ 10 := by
    rw [hlG, abs_mul, abs_of_pos (by positivity)]
    have : 1 / (n : ℝ) ≤ 1 := by rw [div_le_one hn']; exact hn1
    calc 1 / (n : ℝ) * |log P| ≤ 1 * |log P| := by gcongr
      _ ≤ _ := by rw [one_mul]; exact hL
  have hpb : |F64.real p| ≤ (1 + ur) * (1 / n) := by
    have := abs_sub_abs_le_abs_sub (F64.real p) (1 / n)
    rw [abs_of_pos (show (0 : ℝ) < 1 / n by positivity)] at this
    linarith
  set L := log (P ^ (1 / (n : ℝ))) with hLdef
  have hd : |F64.real p * log (F64.real a) - L| ≤ ur * (3 + |L|) := by
    rw [show F64.real p * log (F64.real a) - L = F64.real p * (log (F64.real a) - log P) + (F64.real p - 1 / n) * log P by
      rw [hlG]; ring]
    refine (abs_add_le _ _).trans ?_
    rw [abs_mul, abs_mul]
    have e1 : |F64.real p| * |log (F64.real a) - log P| ≤ (1 + ur) * (1 / n) * (n * (2 * ur)) := by gcongr
    have e2 : |F64.real p - 1 / n| * |log P| ≤ ur * (1 / n) * |log P| := by gcongr
    have e3 : (1 + ur) * (1 / n) * (n * (2 * ur)) = (1 + ur) * (2 * ur) := by field_simp
    have e4 : ur * (1 / n) * |log P| = ur * |L| := by
      rw [hlG, abs_mul, abs_of_pos (show (0 : ℝ) < 1 / n by positivity)]; ring
    have : (1 + ur) * (2 * ur) ≤ 3 * ur := by nlinarith [ur_le]
    rw [e3] at e1; rw [e4] at e2
    linarith
  have hD : ur * (3 + |L|) ≤ 1 / 2 := by
    calc ur * (3 + |L|) ≤ 2 ^ (-50 : ℤ) * (3 + 2 ^ 10) := by gcongr
      _ ≤ _ := by norm_num
  rw [rpow_def_of_pos ha, mul_comm (log _)]
  have e : rexp (F64.real p * log (F64.real a)) = P ^ (1 / (n : ℝ)) * rexp (F64.real p * log (F64.real a) - L) := by
    rw [exp_sub, hLdef, exp_log hG]; field_simp
  rw [e, show P ^ (1 / (n : ℝ)) * rexp (F64.real p * log (F64.real a) - L) - P ^ (1 / (n : ℝ)) =
    (rexp (F64.real p * log (F64.real a) - L) - 1) * P ^ (1 / (n : ℝ)) by ring, abs_mul, abs_of_pos hG]
  refine mul_le_mul_of_nonneg_right ?_ hG.le
  generalize F64.real p * log (F64.real a) - L = d at *
  generalize ur * (3 + |L|) = D at *
  have h1 := abs_exp_sub_one_sub_id_le (x := d) (by linarith)
  have h2 : |rexp d - 1| ≤ |rexp d - 1 - d| + |d| := by
    calc |rexp d - 1| = |(rexp d - 1 - d) + d| := by congr 1; ring
      _ ≤ _ := abs_add_le _ _
  have h3 : d ^ 2 ≤ D * (1 / 2) := by
    rw [← sq_abs, sq]
    exact mul_le_mul hd (hd.trans hD) (abs_nonneg _) ((abs_nonneg _).trans hd)
  linarith

end Verif.Float.Mean
