import Verif.Float.LawsLemmas
import Verif.Float.SimulationSpec
import Mathlib.Analysis.SpecialFunctions.Exp
import Mathlib.Analysis.Complex.ExponentialBounds

/-!
# C106: exponential, Bernoulli and Gaussian distributions in double precision
-/

namespace Verif.Float.Laws

open X64 Nan Verif.Float.Sim

/-! ## Exponential -/

/-- What is asked of `exp` on numbers that are not positive: values between 0 and 1, in order, and the two exact ones. -/
structure ExpDown (e : X64 → X64) : Prop where
  unit : ∀ a, le a zero = true → Unit01 (e a)
  mono : ∀ a b, le a b = true → le b zero = true → le (e a) (e b) = true
  bottom : e (inf true) = zero

/-- `e` differs from the exponential function by at most `δ` on numbers that are not positive. -/
def ExpNear (e : X64 → X64) (δ : ℝ) : Prop :=
  ∀ a : F64, a.val ≤ 0 → ∃ c : F64, e (fin a) = fin c ∧ |F64.real c - Real.exp (F64.real a)| ≤ δ

theorem zero_le_fin (a : F64) : le zero (fin a) = true ↔ 0 ≤ a.val := le_fin _ _

theorem zero_lt_fin (a : F64) : zero.lt (fin a) = true ↔ 0 < a.val := decide_eq_true_iff

theorem mul_neg_anti (r : F64) (hr : 0 < r.val) {x y : X64} (hx : le zero x = true) (h : le x y = true) :
    le ((fin r).neg.mul y) ((fin r).neg.mul x) = true ∧ le ((fin r).neg.mul x) zero = true := by
  obtain ⟨m, m1, m2⟩ := X64.neg_fin r
  rw [m1]
  have h0 : m.val ≠ 0 := by rw [m2]; linarith
  have h1 : m.val < 0 := by rw [m2]; linarith
  have hz : zero = ofQ 0 := by
    have := ofQ_val F64.zero
    rw [zero_val] at this
    rw [this]; rfl
  cases x with
  | fin a =>
    have ha : 0 ≤ a.val := (zero_le_fin _).1 hx
    have hle : le (ofQ (m.val * a.val)) zero = true := by
      rw [hz]; exact ofQ_mono (by have := mul_nonneg hr.le ha; rw [m2]; linarith)
    refine ⟨?_, hle⟩
    cases y with
    | fin b =>
      have hab := (le_fin a b).1 h
      exact ofQ_mono (by rw [m2]; have := mul_le_mul_of_nonneg_left hab hr.le; linarith)
    | inf t =>
      have : t = false := by simpa [le] using h
      subst this
      simp only [X64.mul, h0, h1, if_false]
      cases hq : ofQ (m.val * a.val) with
      | fin c => simp [le]
      | inf s => simp [le]
      | nan => simp [hq, le] at hle
    | nan => rw [le_nan] at h; simp at h
  | inf s =>
    have : s = false := by simpa [le, zero] using hx
    subst this
    cases y with
    | fin b => simp [le] at h
    | inf t =>
      have : t = false := by simpa [le] using h
      subst this
      simp [X64.mul, h0, h1, le, zero]
    | nan => rw [le_nan] at h; simp at h
  | nan => rw [le_nan] at hx; simp at hx

theorem one_sub_unit {x : X64} (h : Unit01 x) : ∃ c e : F64, x = fin e ∧ 0 ≤ e.val ∧ e.val ≤ 1 ∧ (ofQ 1).sub x = fin c ∧ c.val = rnd (1 - e.val) ∧ 0 ≤ c.val ∧ c.val ≤ 1 := by
  obtain ⟨e, rfl, h0, h1⟩ := h
  obtain ⟨i, i1, i2⟩ := one_fin
  obtain ⟨c, c1, c2, c3, c4⟩ := unit_round (q := 1 - e.val) (by linarith) (by linarith)
  exact ⟨c, e, rfl, h0, h1, by rw [i1, X64.sub_fin, i2, c1], c2, c3, c4⟩

/-- Moving the argument of `e^(-t)` by a part of `2^-53`. -/
theorem exp_move {s t ε η : ℝ} (ht : 0 ≤ t) (hε : 0 ≤ ε) (hε1 : ε ≤ 1 / 2) (hη : 0 ≤ η) (h : |s - t| ≤ ε * t + η) (hs : 0 ≤ s) :
    |Real.exp (-s) - Real.exp (-t)| ≤ ε + 2 * η := by
  have key : ∀ x y : ℝ, 0 ≤ x → x ≤ y → |Real.exp (-x) - Real.exp (-y)| ≤ (y - x) * Real.exp (-x) := by
    intro x y h0 hxy
    have h1 : Real.exp (-y) = Real.exp (-x) * Real.exp (-(y - x)) := by rw [← Real.exp_add]; congr 1; ring
    have h2 : Real.exp (-(y - x)) ≤ 1 := Real.exp_le_one_iff.2 (by linarith)
    have h3 : 1 - (y - x) ≤ Real.exp (-(y - x)) := by have := Real.add_one_le_exp (-(y - x)); linarith
    have h4 := Real.exp_pos (-x)
    rw [h1, abs_of_nonneg (by nlinarith)]
    nlinarith
  have peak : ∀ x : ℝ, x * Real.exp (-x) ≤ 1 / 2 := by
    intro x
    have h1 : x ≤ Real.exp (x - 1) := by have := Real.add_one_le_exp (x - 1); linarith
    have h2 : Real.exp (x - 1) * Real.exp (-x) = Real.exp (-1) := by rw [← Real.exp_add]; congr 1; ring
    have h3 : Real.exp (-1) ≤ 1 / 2 := by
      rw [Real.exp_neg, one_div]
      exact inv_anti₀ (by norm_num) (by have := Real.add_one_le_exp (1 : ℝ); linarith)
    have := mul_le_mul_of_nonneg_right h1 (Real.exp_pos (-x)).le
    linarith
  have hk := abs_le.1 h
  have one : ∀ x : ℝ, 0 ≤ x → Real.exp (-x) ≤ 1 := fun x hx => Real.exp_le_one_iff.2 (by linarith)
  rcases le_total s t with hst | hst
  · have h1 := key s t hs hst
    have h2 : (t - s) * Real.exp (-s) ≤ (ε * t + η) * Real.exp (-s) := mul_le_mul_of_nonneg_right (by linarith [hk.1]) (Real.exp_pos _).le
    have h3 : t ≤ 2 * s + 2 * η := by
      have : ε * t ≤ 1 / 2 * t := mul_le_mul_of_nonneg_right hε1 ht
      linarith [hk.1]
    have h4 : t * Real.exp (-s) ≤ (2 * s + 2 * η) * Real.exp (-s) := mul_le_mul_of_nonneg_right h3 (Real.exp_pos _).le
    have h5 := peak s
    have h6 := one s hs
    have h7 : η * Real.exp (-s) ≤ η := mul_le_of_le_one_right hη h6
    have h8 : ε * (t * Real.exp (-s)) ≤ ε * (1 + 2 * η) := mul_le_mul_of_nonneg_left (by linarith) hε
    have h9 : ε * η ≤ 1 / 2 * η := mul_le_mul_of_nonneg_right hε1 hη
    linarith [show (ε * t + η) * Real.exp (-s) = ε * (t * Real.exp (-s)) + η * Real.exp (-s) by ring]
  · have h1 := key t s ht hst
    rw [abs_sub_comm] at h1
    have h2 : (s - t) * Real.exp (-t) ≤ (ε * t + η) * Real.exp (-t) := mul_le_mul_of_nonneg_right (by linarith [hk.2]) (Real.exp_pos _).le
    have h5 := peak t
    have h7 : η * Real.exp (-t) ≤ η := mul_le_of_le_one_right hη (one t ht)
    have h8 : ε * (t * Real.exp (-t)) ≤ ε * (1 / 2) := mul_le_mul_of_nonneg_left h5 hε
    linarith [show (ε * t + η) * Real.exp (-t) = ε * (t * Real.exp (-t)) + η * Real.exp (-t) by ring]

/-- C106: the distribution function of an exponential distribution, at every argument and for every positive rate. It panics exactly for
negative arguments and NaN. Otherwise it is between 0 and 1, does not decrease, is right up to `2^-51` and the error of `exp`, and is 1 at infinity. -/
theorem C106_exponential_cdf (l : Lib) (hl : ExpDown l.exp) (δ : ℝ) (hδ : ExpNear l.exp δ) (r : F64) (hr : 0 < r.val) :
    Exponential.new (fin r) = some (fin r) ∧
    (∀ x, Exponential.cdf l (fin r) x = none ↔ le zero x = false) ∧
    (∀ x c, Exponential.cdf l (fin r) x = some c → Unit01 c) ∧
    (∀ x y c d, le x y = true → Exponential.cdf l (fin r) x = some c → Exponential.cdf l (fin r) y = some d → le c d = true) ∧
    (∀ x : F64, ∀ c, Exponential.cdf l (fin r) (fin x) = some c →
      ∃ c' : F64, c = fin c' ∧ |F64.real c' - (1 - Real.exp (-(F64.real r * F64.real x)))| ≤ δ + 2 ^ (-51 : ℤ)) ∧
    Exponential.cdf l (fin r) (inf false) = some (ofQ 1) := by
  have main : ∀ x, le zero x = true → Exponential.cdf l (fin r) x = some ((ofQ 1).sub (l.exp ((fin r).neg.mul x))) := by
    intro x hx; unfold Exponential.cdf; simp [hx]
  have back : ∀ x c, Exponential.cdf l (fin r) x = some c → le zero x = true ∧ c = (ofQ 1).sub (l.exp ((fin r).neg.mul x)) := by
    intro x c h
    unfold Exponential.cdf at h
    split_ifs at h with hx
    exact ⟨hx, (Option.some.inj h).symm⟩
  have refl : ∀ x, le zero x = true → le x x = true := by
    intro x hx
    cases x with
    | fin a => simp [le]
    | inf s => have : s = false := by simpa [le, zero] using hx
               subst this; simp [le]
    | nan => rw [le_nan] at hx; simp at hx
  refine ⟨?_, ?_, ?_, ?_, ?_, ?_⟩
  · unfold Exponential.new
    have : zero.lt (fin r) = true := (zero_lt_fin _).2 hr
    simp [this]
  · intro x
    unfold Exponential.cdf
    cases le zero x <;> simp
  · intro x c h
    obtain ⟨hx, rfl⟩ := back x c h
    obtain ⟨c, e, -, -, -, c1, -, c2, c3⟩ := one_sub_unit (hl.unit _ (mul_neg_anti r hr hx (refl x hx)).2)
    exact ⟨c, c1, c2, c3⟩
  · intro x y c d hxy hc hd
    obtain ⟨hx, rfl⟩ := back x c hc
    obtain ⟨hy, rfl⟩ := back y d hd
    have h1 := mul_neg_anti r hr hx hxy
    have h2 := mul_neg_anti r hr hy (refl y hy)
    have h3 := hl.mono _ _ h1.1 h1.2
    obtain ⟨c, e, e1, -, -, c1, c2, -, -⟩ := one_sub_unit (hl.unit _ h1.2)
    obtain ⟨d, f, f1, -, -, d1, d2, -, -⟩ := one_sub_unit (hl.unit _ h2.2)
    rw [e1, f1] at h3
    have h4 := (le_fin _ _).1 h3
    rw [c1, d1]
    refine (le_fin _ _).2 ?_
    rw [c2, d2]
    exact rnd_mono (by linarith)
  · intro x c h
    obtain ⟨hx, rfl⟩ := back (fin x) c h
    have hx0 : 0 ≤ x.val := (zero_le_fin _).1 hx
    obtain ⟨c, e, e1, e2, e3, c1, c2, -, -⟩ := one_sub_unit (hl.unit _ (mul_neg_anti r hr hx (refl _ hx)).2)
    refine ⟨c, c1, ?_⟩
    obtain ⟨m, m1, m2⟩ := X64.neg_fin r
    have hprod : (fin r).neg.mul (fin x) = ofQ (-(r.val * x.val)) := by
      rw [m1]
      change ofQ (m.val * x.val) = _
      rw [m2, neg_mul]
    rw [hprod] at e1
    -- the last subtraction
    have f1 : |F64.real c - (1 - F64.real e)| ≤ 2 ^ (-53 : ℤ) := by
      obtain ⟨i, -, i2⟩ := one_fin
      have := rnd_sub (a := 1) (b := e.val) rep_one e.rep
      have h1 : u * |1 - e.val| ≤ u * 1 := mul_le_mul_of_nonneg_left (by rw [abs_of_nonneg] <;> linarith) u_pos.le
      rw [← c2, abs_sub_comm] at this
      have h2 : |c.val - (1 - e.val)| ≤ 2 ^ (-53 : ℤ) := this.trans (h1.trans (by rw [mul_one]; exact le_refl _))
      have h3 := (Rat.cast_le (K := ℝ)).2 h2
      push_cast at h3
      exact h3
    have hP : 0 ≤ r.val * x.val := mul_nonneg hr.le hx0
    have hP' : (0 : ℝ) ≤ F64.real r * F64.real x := by unfold F64.real; exact_mod_cast hP
    have f2 : |F64.real e - Real.exp (-(F64.real r * F64.real x))| ≤ δ + (2 ^ (-53 : ℤ) + 2 ^ (-60 : ℤ)) := by
      by_cases hfin : |rnd (-(r.val * x.val))| < 2 ^ 1024
      · obtain ⟨a, a1, a2⟩ := ofQ_fin hfin
        rw [a1] at e1
        have ha0 : a.val ≤ 0 := by rw [a2]; exact rnd_le rep_zero (by linarith)
        obtain ⟨e', g1, g2⟩ := hδ a ha0
        rw [e1] at g1
        cases g1
        have g3 : |-(F64.real a) - F64.real r * F64.real x| ≤ 2 ^ (-53 : ℤ) * (F64.real r * F64.real x) + 2 ^ (-62 : ℤ) := by
          have hb : |-(r.val * x.val) - a.val| ≤ 2 ^ (-53 : ℤ) * (r.val * x.val) + 2 ^ (-62 : ℤ) := by
            rw [a2]
            have hz : (0 : ℚ) < 2 ^ (-62 : ℤ) := zpos _
            rcases rnd_error (-(r.val * x.val)) with g | ⟨-, g⟩
            · rw [abs_neg (r.val * x.val), abs_of_nonneg hP] at g
              exact g.trans (by linarith)
            · have h1 : (0 : ℚ) ≤ 2 ^ (-53 : ℤ) * (r.val * x.val) := mul_nonneg (zpos _).le hP
              have h2 : (2 : ℚ) ^ (-1075 : ℤ) ≤ 2 ^ (-62 : ℤ) := (zpow_le_iff _ _).2 (by norm_num)
              exact g.trans (h2.trans (by linarith))
          have hb' : |-a.val - r.val * x.val| ≤ 2 ^ (-53 : ℤ) * (r.val * x.val) + 2 ^ (-62 : ℤ) := by
            rwa [show -a.val - r.val * x.val = -(r.val * x.val) - a.val by ring]
          have hc := (Rat.cast_le (K := ℝ)).2 hb'
          push_cast at hc
          exact hc
        have ha0' : 0 ≤ -(F64.real a) := by unfold F64.real; exact_mod_cast neg_nonneg.2 ha0
        have g4 := exp_move hP' (by positivity) (by norm_num) (by positivity) g3 ha0'
        rw [neg_neg] at g4
        have g5 : (2 : ℝ) * 2 ^ (-62 : ℤ) ≤ 2 ^ (-60 : ℤ) := by norm_num
        have g6 := abs_sub_le (F64.real e) (Real.exp (F64.real a)) (Real.exp (-(F64.real r * F64.real x)))
        linarith
      · rw [ofQ_inf hfin] at e1
        have hneg : -(r.val * x.val) < 0 := by
          rcases hP.lt_or_eq with h1 | h1
          · linarith
          · exfalso
            apply hfin
            rw [← h1, neg_zero, rnd_zero, abs_zero]; positivity
        rw [decide_eq_true hneg, hl.bottom] at e1
        have he : e = F64.zero := by
          unfold zero at e1
          cases e1; rfl
        have hbig : (1000 : ℝ) ≤ F64.real r * F64.real x := by
          have : (1000 : ℚ) ≤ r.val * x.val := by
            by_contra hlt
            apply hfin
            have h1 : |rnd (-(r.val * x.val))| ≤ 1000 := rnd_abs_le (rep_nat 1000 (by norm_num)) (by rw [abs_neg, abs_of_nonneg hP]; linarith)
            refine h1.trans_lt ?_
            calc (1000 : ℚ) < 2 ^ 10 := by norm_num
              _ ≤ 2 ^ 1024 := pow_le_pow_right₀ (by norm_num) (by norm_num)
          unfold F64.real
          exact_mod_cast this
        have hδ0 : 0 ≤ δ := by
          obtain ⟨c', -, h2⟩ := hδ F64.zero (le_refl _)
          exact (abs_nonneg _).trans h2
        have h3 : Real.exp (-(F64.real r * F64.real x)) ≤ 2 ^ (-53 : ℤ) := by
          have h4 : Real.exp (-(F64.real r * F64.real x)) ≤ Real.exp (-1000) := Real.exp_le_exp.2 (by linarith)
          have h5 : Real.exp (-1000) ≤ 2 ^ (-53 : ℤ) := by
            rw [Real.exp_neg, zpow_neg]
            refine inv_anti₀ (by positivity) ?_
            have h6 : (2 : ℝ) ≤ Real.exp 1 := by have := Real.add_one_le_exp (1 : ℝ); linarith
            have h7 : Real.exp 1000 = Real.exp 1 ^ 1000 := by rw [← Real.exp_nat_mul]; norm_num
            rw [h7]
            calc (2 : ℝ) ^ (53 : ℤ) = 2 ^ 53 := by norm_cast
              _ ≤ Real.exp 1 ^ 53 := pow_le_pow_left₀ (by norm_num) h6 _
              _ ≤ Real.exp 1 ^ 1000 := pow_le_pow_right₀ (by linarith) (by norm_num)
          exact h4.trans h5
        have h4 := Real.exp_pos (-(F64.real r * F64.real x))
        have h5 : (0 : ℝ) < 2 ^ (-60 : ℤ) := by positivity
        have h6 : F64.real F64.zero = 0 := by unfold F64.real; rw [zero_val]; norm_num
        rw [he, h6, abs_le]
        constructor <;> linarith
    have h5 : (2 : ℝ) ^ (-53 : ℤ) + (2 ^ (-53 : ℤ) + 2 ^ (-60 : ℤ)) ≤ 2 ^ (-51 : ℤ) := by norm_num
    have k1 := abs_le.1 f1
    have k2 := abs_le.1 f2
    rw [abs_le]
    constructor <;> linarith [k1.1, k1.2, k2.1, k2.2]
  · rw [main _ (by simp [le, zero])]
    obtain ⟨m, m1, m2⟩ := X64.neg_fin r
    have h0 : m.val ≠ 0 := by rw [m2]; linarith
    have h1 : m.val < 0 := by rw [m2]; linarith
    have : (fin r).neg.mul (inf false) = inf true := by rw [m1]; simp [X64.mul, h0, h1]
    rw [this, hl.bottom]
    obtain ⟨i, i1, i2⟩ := one_fin
    rw [i1]
    unfold zero
    rw [X64.sub_fin, zero_val, sub_zero, ofQ_val]

/-- An exponential function rounded up to multiples of `2^-53`. -/
noncomputable def ceilExp : X64 → X64
  | fin a => if a.val ≤ 0 then ofQ (⌈Real.exp (F64.real a) * 2 ^ 53⌉ * 2 ^ (-53 : ℤ)) else inf false
  | inf s => if s then zero else inf false
  | nan => nan

theorem ceilExp_val (a : F64) (ha : a.val ≤ 0) : ∃ c : F64, ceilExp (fin a) = fin c ∧ c.val = ⌈Real.exp (F64.real a) * 2 ^ 53⌉ * 2 ^ (-53 : ℤ) ∧
    0 ≤ c.val ∧ c.val ≤ 1 ∧ F64.real c - Real.exp (F64.real a) ≤ 2 ^ (-53 : ℤ) ∧ Real.exp (F64.real a) ≤ F64.real c := by
  have hx : F64.real a ≤ 0 := by unfold F64.real; exact_mod_cast ha
  have h1 : Real.exp (F64.real a) ≤ 1 := Real.exp_le_one_iff.2 hx
  have h0 := Real.exp_pos (F64.real a)
  set n := ⌈Real.exp (F64.real a) * 2 ^ 53⌉ with hn
  have n1 : n ≤ 2 ^ 53 := Int.ceil_le.2 (by push_cast; have := mul_le_mul_of_nonneg_right h1 (by norm_num : (0 : ℝ) ≤ 2 ^ 53); linarith)
  have n0 : 0 ≤ n := Int.ceil_nonneg (by positivity)
  have hr : Rep (n * 2 ^ (-53 : ℤ)) := rep_of_le n (-53) (by rw [abs_of_nonneg n0]; exact n1) (by norm_num)
  have q0 : (0 : ℚ) ≤ n * 2 ^ (-53 : ℤ) := mul_nonneg (by exact_mod_cast n0) (zpos _).le
  have q1 : (n : ℚ) * 2 ^ (-53 : ℤ) ≤ 1 := by
    have : (n : ℚ) ≤ 2 ^ 53 := by exact_mod_cast n1
    calc (n : ℚ) * 2 ^ (-53 : ℤ) ≤ 2 ^ 53 * 2 ^ (-53 : ℤ) := mul_le_mul_of_nonneg_right this (zpos _).le
      _ = 1 := by norm_num
  obtain ⟨c, c1, c2, c3, c4⟩ := unit_round q0 q1
  rw [rnd_rep hr] at c2
  refine ⟨c, ?_, c2, c3, c4, ?_, ?_⟩
  · unfold ceilExp
    simp only [ha, if_true]
    exact c1
  · have h2 := Int.ceil_lt_add_one (Real.exp (F64.real a) * 2 ^ 53)
    rw [← hn] at h2
    have : F64.real c = n * 2 ^ (-53 : ℤ) := by unfold F64.real; rw [c2]; push_cast; rfl
    rw [this]
    have h3 : (n : ℝ) * 2 ^ (-53 : ℤ) ≤ (Real.exp (F64.real a) * 2 ^ 53 + 1) * 2 ^ (-53 : ℤ) := mul_le_mul_of_nonneg_right h2.le (by positivity)
    have h4 : (Real.exp (F64.real a) * 2 ^ 53 + 1) * (2 : ℝ) ^ (-53 : ℤ) = Real.exp (F64.real a) + 2 ^ (-53 : ℤ) := by
      have : (2 : ℝ) ^ 53 * 2 ^ (-53 : ℤ) = 1 := by norm_num
      linear_combination (Real.exp (F64.real a)) * this
    linarith
  · have h2 := Int.le_ceil (Real.exp (F64.real a) * 2 ^ 53)
    rw [← hn] at h2
    have : F64.real c = n * 2 ^ (-53 : ℤ) := by unfold F64.real; rw [c2]; push_cast; rfl
    rw [this]
    have h3 : (Real.exp (F64.real a) * 2 ^ 53) * (2 : ℝ) ^ (-53 : ℤ) ≤ (n : ℝ) * 2 ^ (-53 : ℤ) := mul_le_mul_of_nonneg_right h2 (by positivity)
    have h4 : (Real.exp (F64.real a) * 2 ^ 53) * (2 : ℝ) ^ (-53 : ℤ) = Real.exp (F64.real a) := by
      have : (2 : ℝ) ^ 53 * 2 ^ (-53 : ℤ) = 1 := by norm_num
      linear_combination (Real.exp (F64.real a)) * this
    linarith

theorem ceilExp_down : ExpDown ceilExp := by
  refine ⟨?_, ?_, rfl⟩
  · intro a ha
    cases a with
    | fin a =>
      obtain ⟨c, c1, -, c2, c3, -⟩ := ceilExp_val a ((le_fin a F64.zero).1 ha)
      exact ⟨c, c1, c2, c3⟩
    | inf s =>
      have : s = true := by simpa [le, zero] using ha
      subst this
      exact ⟨F64.zero, rfl, le_refl _, zero_le_one⟩
    | nan => simp [le] at ha
  · intro a b hab hb
    cases b with
    | fin b =>
      have hb0 := (le_fin b F64.zero).1 hb
      obtain ⟨d, d1, d2, d3, -⟩ := ceilExp_val b hb0
      cases a with
      | fin a =>
        have h := (le_fin a b).1 hab
        obtain ⟨c, c1, c2, -⟩ := ceilExp_val a (h.trans hb0)
        rw [c1, d1]
        refine (le_fin _ _).2 ?_
        rw [c2, d2]
        have hr : F64.real a ≤ F64.real b := by unfold F64.real; exact_mod_cast h
        have : ⌈Real.exp (F64.real a) * 2 ^ 53⌉ ≤ ⌈Real.exp (F64.real b) * 2 ^ 53⌉ :=
          Int.ceil_mono (mul_le_mul_of_nonneg_right (Real.exp_le_exp.2 hr) (by positivity))
        exact mul_le_mul_of_nonneg_right (by exact_mod_cast this) (zpos _).le
      | inf s =>
        have : s = true := by simpa [le] using hab
        subst this
        rw [d1]
        exact (zero_le_fin _).2 d3
      | nan => simp [le] at hab
    | inf t =>
      have : t = true := by simpa [le, zero] using hb
      subst this
      cases a with
      | fin a => simp [le] at hab
      | inf s =>
        have : s = true := by simpa [le] using hab
        subst this
        exact (le_fin _ _).2 (le_refl _)
      | nan => simp [le] at hab
    | nan => simp [le] at hb

theorem ceilExp_near : ExpNear ceilExp (2 ^ (-53 : ℤ)) := by
  intro a ha
  obtain ⟨c, c1, -, -, -, h1, h2⟩ := ceilExp_val a ha
  refine ⟨c, c1, ?_⟩
  rw [abs_of_nonneg (by linarith)]
  exact h1

/-- A library with this exponential function. -/
noncomputable def ceilLib : Lib :=
  ⟨ceilExp, fun _ => zero, fun _ => ofQ 2, fun _ _ => ofQ 2, fun x => if le x zero then ofQ 2 else zero, id, id, fun _ _ => none⟩

/-- With rate 2 the distribution function at 1 is right to `2^-50`. -/
example : ∃ c : F64, Exponential.cdf ceilLib (ofQ 2) (ofQ 1) = some (fin c) ∧ |F64.real c - (1 - Real.exp (-2))| ≤ 2 ^ (-50 : ℤ) := by
  obtain ⟨i, i1, i2⟩ := one_fin
  obtain ⟨w, w1, w2⟩ := two_fin
  obtain ⟨-, h1, -, -, h2, -⟩ := C106_exponential_cdf ceilLib ceilExp_down _ ceilExp_near w (by rw [w2]; norm_num)
  have hi : le zero (fin i) = true := (zero_le_fin _).2 (by rw [i2]; norm_num)
  rw [w1, i1]
  cases hc : Exponential.cdf ceilLib (fin w) (fin i) with
  | none => rw [h1, hi] at hc; simp at hc
  | some c =>
    obtain ⟨c', rfl, h3⟩ := h2 i c hc
    refine ⟨c', rfl, ?_⟩
    have e1 : F64.real i = 1 := by unfold F64.real; rw [i2]; norm_num
    have e2 : F64.real w = 2 := by unfold F64.real; rw [w2]; norm_num
    rw [e1, e2, mul_one] at h3
    exact h3.trans (by norm_num)

/-- C106 (defect): an exponential distribution gives probability exactly zero to `[0, x]` for every `x` with `rate * x ≤ 2^-54`, and its
quantiles of all probabilities up to `2^-54` are zero; the correctly rounded values are not zero. (`exp` is taken to be right when the nearest
number is one, and `ln 1 = 0`.) -/
theorem C106_exponential_small (l : Lib) (hexp : ∀ a : F64, -(2 ^ (-54 : ℤ)) ≤ a.val → a.val ≤ 0 → l.exp (fin a) = ofQ 1)
    (hln : l.ln (ofQ 1) = zero) (r : F64) (hr : 0 < r.val) :
    (∀ x : F64, 0 ≤ x.val → r.val * x.val ≤ 2 ^ (-54 : ℤ) → Exponential.cdf l (fin r) (fin x) = some zero) ∧
    ∀ p : F64, 0 ≤ p.val → p.val ≤ 2 ^ (-54 : ℤ) → Exponential.invCdf l (fin r) (fin p) = zero := by
  obtain ⟨i, i1, i2⟩ := one_fin
  have hz : ofQ 0 = zero := ofQ_val F64.zero
  have h54 : Rep (2 ^ (-54 : ℤ)) := by have := rep_of_le 1 (-54) (by norm_num) (by norm_num); rwa [Int.cast_one, one_mul] at this
  constructor
  · intro x hx h
    have hP : 0 ≤ r.val * x.val := mul_nonneg hr.le hx
    have h1 : |rnd (-(r.val * x.val))| ≤ 2 ^ (-54 : ℤ) := rnd_abs_le h54 (by rw [abs_neg, abs_of_nonneg hP]; exact h)
    have h2 : |rnd (-(r.val * x.val))| < 2 ^ 1024 := by
      refine h1.trans_lt ?_
      calc (2 : ℚ) ^ (-54 : ℤ) < 1 := by norm_num
        _ ≤ 2 ^ 1024 := one_le_pow₀ (by norm_num)
    obtain ⟨a, a1, a2⟩ := ofQ_fin h2
    obtain ⟨m, m1, m2⟩ := X64.neg_fin r
    have hprod : (fin r).neg.mul (fin x) = fin a := by
      rw [m1]
      change ofQ (m.val * x.val) = _
      rw [m2, neg_mul, a1]
    unfold Exponential.cdf
    have : le zero (fin x) = true := (zero_le_fin _).2 hx
    simp only [this, if_true]
    rw [hprod, hexp a (by rw [a2]; exact (abs_le.1 h1).1) (by rw [a2]; exact rnd_le rep_zero (by linarith)), i1, X64.sub_fin, sub_self, hz]
  · intro p h0 h1
    have e1 : rnd (1 - 2 ^ (-54 : ℤ)) = 1 := by decide +kernel
    have h2 : rnd (1 - p.val) = 1 := le_antisymm (rnd_le rep_one (by linarith)) (by rw [← e1]; exact rnd_mono (by linarith))
    have h3 : (ofQ 1).sub (fin p) = ofQ 1 := by
      have h4 : (2 : ℚ) ^ (-54 : ℤ) ≤ 1 := by norm_num
      obtain ⟨c, c1, c2, -, -⟩ := unit_round (q := 1 - p.val) (by linarith) (by linarith)
      have h5 : c = i := F64.ext (by rw [c2, h2, i2])
      rw [i1, X64.sub_fin, i2, c1, h5]
    unfold Exponential.invCdf
    rw [h3, hln]
    have : zero.neg = zero := by
      change ofQ (-F64.zero.val) = _
      rw [zero_val, neg_zero]; exact hz
    rw [this]
    change (if r.val = 0 then _ else ofQ (F64.zero.val / r.val)) = _
    rw [if_neg hr.ne', zero_val, zero_div]
    exact hz

theorem ceilLib_one (a : F64) (h : -(2 ^ (-54 : ℤ)) ≤ a.val) (h' : a.val ≤ 0) : ceilLib.exp (fin a) = ofQ 1 := by
  obtain ⟨i, i1, i2⟩ := one_fin
  obtain ⟨c, c1, c2, -, c4, -, c6⟩ := ceilExp_val a h'
  have hn : ⌈Real.exp (F64.real a) * 2 ^ 53⌉ = 2 ^ 53 := by
    rw [Int.ceil_eq_iff]
    have hx : F64.real a ≤ 0 := by unfold F64.real; exact_mod_cast h'
    have hx' : -(2 ^ (-54 : ℤ)) ≤ F64.real a := by
      have := (Rat.cast_le (K := ℝ)).2 h
      push_cast at this
      exact this
    have h1 := Real.add_one_le_exp (F64.real a)
    have h2 : Real.exp (F64.real a) ≤ 1 := Real.exp_le_one_iff.2 hx
    norm_num at hx' ⊢
    constructor <;> linarith
  have : c = i := F64.ext (by rw [c2, hn, i2]; norm_num)
  change ceilExp (fin a) = _
  rw [c1, this, i1]

example : Exponential.cdf ceilLib (ofQ 1) (ofQ (2 ^ (-60 : ℤ))) = some zero ∧ Exponential.invCdf ceilLib (ofQ 1) (ofQ (2 ^ (-60 : ℤ))) = zero := by
  have e : (toF64 (2 ^ (-60 : ℤ))).map F64.val = some (2 ^ (-60 : ℤ)) := by decide +kernel
  obtain ⟨x, x1, x2⟩ := Option.map_eq_some_iff.1 e
  obtain ⟨i, i1, i2⟩ := one_fin
  have h := C106_exponential_small ceilLib ceilLib_one rfl i (by rw [i2]; norm_num)
  rw [Nan.fin_of x1, i1]
  exact ⟨h.1 x (by rw [x2]; norm_num) (by rw [x2, i2]; norm_num), h.2 x (by rw [x2]; norm_num) (by rw [x2]; norm_num)⟩

/-! ## Bernoulli -/

/-- C106: the two probabilities of a Bernoulli distribution are numbers between 0 and 1 whose rounded sum is exactly one, for every `p` the
constructor accepts, and it accepts exactly the numbers between 0 and 1. -/
theorem C106_bernoulli_total (p : X64) :
    (Bernoulli.new p = none ↔ ¬Unit01 p) ∧
    ∀ p', Bernoulli.new p = some p' → ∃ q0 q1, Bernoulli.pmf p' false = some q0 ∧ Bernoulli.pmf p' true = some q1 ∧ Unit01 q0 ∧ q1 = p ∧
      q0.add q1 = ofQ 1 := by
  obtain ⟨i, i1, i2⟩ := one_fin
  constructor
  · rw [← isProbability_iff]
    unfold Bernoulli.new
    split_ifs with h <;> simp [h]
  · intro p' h
    unfold Bernoulli.new at h
    split_ifs at h with hp
    cases h
    have hp' := hp
    obtain ⟨a, rfl, h0, h1⟩ := (isProbability_iff p).1 hp
    obtain ⟨c, c1, c2, c3, c4⟩ := unit_round (q := 1 - a.val) (by linarith) (by linarith)
    have hc1 : (ofQ 1).mul ((ofQ 1).sub (fin a)) = fin c := by
      rw [i1, X64.sub_fin, i2, c1]
      change ofQ (i.val * c.val) = _
      rw [i2, one_mul, ofQ_val]
    have ha1 : (fin a).mul (ofQ 1) = fin a := by
      rw [i1]
      change ofQ (a.val * i.val) = _
      rw [i2, mul_one, ofQ_val]
    refine ⟨fin c, fin a, ?_, ?_, ⟨c, rfl, c3, c4⟩, rfl, ?_⟩
    · unfold Bernoulli.pmf; simp [hp', hc1]
    · unfold Bernoulli.pmf; simp [hp', ha1]
    · change ofQ (c.val + a.val) = _
      have hr : rnd (c.val + a.val) = 1 := by
        have hd : |1 - a.val - c.val| ≤ 2 ^ (-54 : ℤ) := by
          have hn := roundEven_near ((1 - a.val) * 2 ^ 53)
          set n := roundEven ((1 - a.val) * 2 ^ 53)
          have hnb : |n| ≤ 2 ^ 53 := by
            have k := abs_le.1 hn
            have b1 : (n : ℚ) < 2 ^ 53 + 1 := by
              have : (1 - a.val) * 2 ^ 53 ≤ 2 ^ 53 := mul_le_of_le_one_left (by norm_num) (by linarith)
              linarith [k.1]
            have b2 : (-1 : ℚ) < n := by
              have : 0 ≤ (1 - a.val) * 2 ^ 53 := mul_nonneg (by linarith) (by norm_num)
              linarith [k.2]
            have b3 : n < 2 ^ 53 + 1 := by exact_mod_cast b1
            have b4 : -1 < n := by exact_mod_cast b2
            rw [abs_le]; constructor <;> omega
          have := rnd_nearest (1 - a.val) (rep_of_le n (-53) hnb (by norm_num))
          rw [← c2] at this
          refine this.trans ?_
          have e : 1 - a.val - n * 2 ^ (-53 : ℤ) = ((1 - a.val) * 2 ^ 53 - n) * 2 ^ (-53 : ℤ) := by
            have : (2 : ℚ) ^ 53 * 2 ^ (-53 : ℤ) = 1 := by norm_num
            linear_combination (-(1 - a.val)) * this
          rw [e, abs_mul, abs_of_pos (zpos (-53))]
          calc _ ≤ 1 / 2 * (2 : ℚ) ^ (-53 : ℤ) := mul_le_mul_of_nonneg_right hn (zpos _).le
            _ = 2 ^ (-54 : ℤ) := by norm_num
        have k := abs_le.1 hd
        have e1 : rnd (1 - 2 ^ (-54 : ℤ)) = 1 := by decide +kernel
        have e2 : rnd (1 + 2 ^ (-54 : ℤ)) = 1 := by decide +kernel
        refine le_antisymm ?_ ?_
        · rw [← e2]; exact rnd_mono (by linarith [k.1])
        · rw [← e1]; exact rnd_mono (by linarith [k.2])
      obtain ⟨j, j1, j2⟩ := ofQ_fin (q := c.val + a.val) (by rw [hr, abs_one]; exact one_lt_pow₀ (by norm_num) (by norm_num))
      rw [j1, i1]
      congr 1
      exact F64.ext (by rw [j2, hr, i2])

/-- One tenth: the two rounded probabilities still add up to exactly one. -/
example : ∃ q0 q1, Bernoulli.pmf (ofQ (1 / 10)) false = some q0 ∧ Bernoulli.pmf (ofQ (1 / 10)) true = some q1 ∧ q0.add q1 = ofQ 1 := by
  obtain ⟨t, t1, -, t2, t3⟩ := unit_round (q := 1 / 10) (by norm_num) (by norm_num)
  have hu : Unit01 (ofQ (1 / 10)) := ⟨t, t1, t2, t3⟩
  obtain ⟨h1, h2⟩ := C106_bernoulli_total (ofQ (1 / 10))
  cases hc : Bernoulli.new (ofQ (1 / 10)) with
  | none => exact absurd hu (h1.1 hc)
  | some p' =>
    have hp : p' = ofQ (1 / 10) := by
      unfold Bernoulli.new at hc
      split_ifs at hc
      exact (Option.some.inj hc).symm
    obtain ⟨q0, q1, a, b, -, -, c⟩ := h2 p' hc
    rw [hp] at a b
    exact ⟨q0, q1, a, b, c⟩

/-! ## Gaussian -/

/-- What is asked of `erfc` at everything but NaN: values between 0 and 2, in reverse order. -/
structure ErfcDown (e : X64 → X64) : Prop where
  unit : ∀ a, a ≠ nan → ∃ c : F64, e a = fin c ∧ 0 ≤ c.val ∧ c.val ≤ 2
  anti : ∀ a b, le a b = true → le (e b) (e a) = true

/-- C106: the distribution function of a Gaussian distribution with finite mean and positive finite variance is, at every argument but NaN,
a number between 0 and 1, and does not decrease. -/
theorem C106_gaussian_cdf (l : Lib) (hl : ErfcDown l.erfc) (m v s : F64) (hv : 0 < v.val) (hs : l.sqrt (fin v) = fin s) (hs0 : 0 < s.val)
    (hs1 : s.val ≤ 2 ^ 1000) :
    Gaussian.new (fin m) (fin v) = some ⟨fin m, fin v⟩ ∧
    (∀ x, x ≠ nan → ∃ c, Gaussian.cdf l ⟨fin m, fin v⟩ x = some c ∧ Unit01 c) ∧
    ∀ x y c d, le x y = true → Gaussian.cdf l ⟨fin m, fin v⟩ x = some c → Gaussian.cdf l ⟨fin m, fin v⟩ y = some d → le c d = true := by
  obtain ⟨hf, hf1, hf2⟩ := half_fin
  have hvt : zero.lt (fin v) = true := (zero_lt_fin _).2 hv
  obtain ⟨q, q1, q2⟩ : ∃ q : F64, ofQ 1.41421356237309504880168872420969808 = fin q ∧ 1 ≤ q.val ∧ q.val ≤ 2 := by
    have e : (toF64 1.41421356237309504880168872420969808).map (fun x => decide (1 ≤ x.val ∧ x.val ≤ 2)) = some true := by decide +kernel
    obtain ⟨q, h1, h2⟩ := Option.map_eq_some_iff.1 e
    exact ⟨q, Nan.fin_of h1, of_decide_eq_true h2⟩
  obtain ⟨d, d1, d2⟩ : ∃ d : F64, (ofQ 1.41421356237309504880168872420969808).mul (fin s) = fin d ∧ 0 < d.val := by
    have hlo : s.val ≤ q.val * s.val := le_mul_of_one_le_left hs0.le q2.1
    have hhi : q.val * s.val ≤ 2 ^ 1001 := by
      rw [pow_succ', ]
      exact mul_le_mul q2.2 hs1 hs0.le (by norm_num)
    have hr : Rep (2 ^ 1001) := by
      have := rep_of_le 1 1001 (by norm_num) (by norm_num)
      rw [Int.cast_one, one_mul] at this
      exact_mod_cast this
    have h1 := le_rnd s.rep hlo
    have h2 := rnd_le hr hhi
    obtain ⟨d, d1, d2⟩ := ofQ_fin (q := q.val * s.val) (by
      rw [abs_of_nonneg (hs0.le.trans h1)]
      exact h2.trans_lt (pow_lt_pow_right₀ (by norm_num) (by norm_num)))
    refine ⟨d, ?_, by rw [d2]; linarith⟩
    rw [q1]; exact d1
  have main : ∀ x, Gaussian.cdf l ⟨fin m, fin v⟩ x = some ((ofQ (1 / 2)).mul (l.erfc ((x.sub (fin m)).neg.div (fin d)))) := by
    intro x
    unfold Gaussian.cdf
    simp only [hvt, if_true]
    rw [hs, d1]
  have hself : ∀ x, x ≠ nan → le x x = true := by
    intro x hx
    cases x with
    | fin a => simp [le]
    | inf s => cases s <;> simp [le]
    | nan => exact absurd rfl hx
  have hnn : ∀ x y, le x y = true → x ≠ nan ∧ y ≠ nan := by
    intro x y h
    constructor
    · rintro rfl; simp [le] at h
    · rintro rfl; rw [le_nan] at h; simp at h
  have chain : ∀ x y, le x y = true → le ((y.sub (fin m)).neg.div (fin d)) ((x.sub (fin m)).neg.div (fin d)) = true := fun x y h =>
    div_mono d2 (neg_anti (sub_mono m h))
  have halved : ∀ e : F64, 0 ≤ e.val → e.val ≤ 2 → ∃ c : F64, (ofQ (1 / 2)).mul (fin e) = fin c ∧ c.val = rnd (1 / 2 * e.val) ∧ 0 ≤ c.val ∧ c.val ≤ 1 := by
    intro e h0 h1
    obtain ⟨c, c1, c2, c3, c4⟩ := unit_round (q := 1 / 2 * e.val) (by linarith) (by linarith)
    refine ⟨c, ?_, c2, c3, c4⟩
    rw [hf1]
    change ofQ (hf.val * e.val) = _
    rw [hf2, c1]
  refine ⟨by unfold Gaussian.new; simp [hvt], ?_, ?_⟩
  · intro x hx
    have h1 := (hnn _ _ (chain x x (hself x hx))).1
    obtain ⟨e, e1, e2, e3⟩ := hl.unit _ h1
    obtain ⟨c, c1, -, c3, c4⟩ := halved e e2 e3
    exact ⟨fin c, by rw [main, e1, c1], c, rfl, c3, c4⟩
  · intro x y c c' hxy hc hc'
    rw [main] at hc hc'
    cases hc
    cases hc'
    have h1 := chain x y hxy
    have h2 := hl.anti _ _ h1
    obtain ⟨e, e1, e2, e3⟩ := hl.unit _ (hnn _ _ h1).1
    obtain ⟨f, f1, f2, f3⟩ := hl.unit _ (hnn _ _ h1).2
    obtain ⟨c, c1, c2, -, -⟩ := halved e e2 e3
    obtain ⟨c', c1', c2', -, -⟩ := halved f f2 f3
    rw [e1, f1] at h2
    have h3 := (le_fin _ _).1 h2
    rw [e1, f1, c1, c1']
    refine (le_fin _ _).2 ?_
    rw [c2, c2']
    exact rnd_mono (by linarith)

theorem ceilLib_erfc : ErfcDown ceilLib.erfc := by
  obtain ⟨w, w1, w2⟩ := two_fin
  have hz : le zero zero = true := (le_fin _ _).2 (le_refl _)
  have hw : le (ofQ 2) (ofQ 2) = true := by rw [w1]; exact (le_fin _ _).2 (le_refl _)
  have hzw : le zero (ofQ 2) = true := by rw [w1]; exact (zero_le_fin _).2 (by rw [w2]; norm_num)
  constructor
  · intro a _
    change ∃ c : F64, (if le a zero then ofQ 2 else zero) = fin c ∧ _
    split_ifs
    · exact ⟨w, w1, by rw [w2]; norm_num, by rw [w2]⟩
    · exact ⟨F64.zero, rfl, le_refl _, zero_le_two⟩
  · intro a b h
    change le (if le b zero then ofQ 2 else zero) (if le a zero then ofQ 2 else zero) = true
    split_ifs with h1 h2 h2
    · exact hw
    · exfalso
      apply h2
      cases a with
      | fin a =>
        cases b with
        | fin b => exact (le_fin _ _).2 (((le_fin _ _).1 h).trans ((le_fin b F64.zero).1 h1))
        | inf t => have : t = true := by simpa [le, zero] using h1
                   subst this; simp [le] at h
        | nan => simp [le] at h1
      | inf s =>
        cases b with
        | fin b => have : s = true := by simpa [le] using h
                   subst this; simp [le, zero]
        | inf t => have : t = true := by simpa [le, zero] using h1
                   subst this
                   have : s = true := by simpa [le] using h
                   subst this; simp [le, zero]
        | nan => simp [le] at h1
      | nan => simp [le] at h
    · exact hzw
    · exact hz

/-- Mean 1 and variance 4, also at infinite arguments. -/
example (x : X64) (hx : x ≠ nan) : ∃ m v : F64, ofQ 1 = fin m ∧ ofQ 4 = fin v ∧ ∃ c, Gaussian.cdf ceilLib ⟨fin m, fin v⟩ x = some c ∧ Unit01 c := by
  have e : (toF64 4).map F64.val = some 4 := by decide +kernel
  obtain ⟨v, v1, v2⟩ := Option.map_eq_some_iff.1 e
  obtain ⟨i, i1, -⟩ := one_fin
  obtain ⟨w, w1, w2⟩ := two_fin
  exact ⟨i, v, i1, Nan.fin_of v1, (C106_gaussian_cdf ceilLib ceilLib_erfc i v w (by rw [v2]; norm_num) w1 (by rw [w2]; norm_num)
    (by rw [w2]; exact le_self_pow₀ (by norm_num) (by norm_num))).2.1 x hx⟩

end Verif.Float.Laws
