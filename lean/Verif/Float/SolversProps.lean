import Verif.Float.SolversLemmas

/-!
# C104: the root finders and gradient descent when values are infinite or NaN

A value counts as zero when it is finite and below `(42 ε)²` in absolute value (`Bisect.closeZero`, `close_iff`).
-/

namespace Verif.Float.Solve

open X64
open Nan (zero le nan_lt lt_nan nan_le le_nan nan_div)

theorem lt_asymm {x : X64} (h : zero.lt x = true) : x.lt zero = false := by
  cases x with
  | fin a => exact decide_eq_false (not_lt.2 (le_of_lt (of_decide_eq_true h)))
  | inf s => cases s <;> simp_all [X64.lt, zero]
  | nan => rfl

theorem le_of_lt_zero {x : X64} (h : x.lt zero = true) : le x zero = true := by
  cases x with
  | fin a => exact decide_eq_true (le_of_lt (of_decide_eq_true h))
  | inf s => exact h
  | nan => simp [X64.lt] at h

theorem ne_nan_of_le {x y : X64} (h : le x y = true) : x ≠ nan := by
  intro hx; rw [hx, nan_le] at h; simp at h

/-! ## Bisection -/

theorem bisectLoop_value {f : X64 → X64} {acc : X64} {r : X64} :
    ∀ n root dx, le (f root) zero = true → bisectLoop f acc n root dx = .found r → le (f r) zero = true := by
  intro n
  induction n with
  | zero => intro root dx _ h; cases h
  | succ n ih =>
    intro root dx hr h
    unfold bisectLoop at h
    dsimp only at h
    have hnew : le (f (if le (f (root.add (dx.div (X64.ofNat 2)))) zero = true then root.add (dx.div (X64.ofNat 2)) else root)) zero = true := by
      split_ifs with h1
      · exact h1
      · exact hr
    split_ifs at h with h1 h2 h2
    · cases h; exact h2
    · cases h; exact hr
    · rw [if_pos h2] at hnew; exact ih _ _ hnew h
    · exact ih _ _ hr h

/-- C104: whatever the objective does, infinities and NaN included, a point that bisection returns has a value that counts as
zero or is at most zero, and is not NaN; in the second case the objective was positive at another point. -/
theorem C104_bisection (f : X64 → X64) (c : Config) (guess r : X64) (h : bisection f c guess = .found r) :
    f r ≠ nan ∧ (close (f r) zero = true ∨ (le (f r) zero = true ∧ ∃ s, zero.lt (f s) = true)) := by
  rcases solve_cases h with h1 | ⟨b, k, hb, h1, _, h2⟩
  · refine ⟨?_, Or.inl h1⟩
    obtain ⟨a, ha, _⟩ := (close_iff _).1 h1
    rw [ha]; simp
  · have key : le (f r) zero = true ∧ ∃ s, zero.lt (f s) = true := by
      unfold bisectImpl at h1
      rcases h2 with ⟨h2, h3⟩ | ⟨h2, h3⟩
      · rw [if_pos h2] at h1
        exact ⟨bisectLoop_value _ _ _ (hb.lo ▸ le_of_lt_zero h2) h1, _, hb.hi ▸ h3⟩
      · rw [lt_asymm h2, if_neg (by simp)] at h1
        exact ⟨bisectLoop_value _ _ _ (hb.hi ▸ le_of_lt_zero h3) h1, _, hb.lo ▸ h2⟩
    exact ⟨ne_nan_of_le key.1, Or.inr key⟩

/-! ## Newton-Raphson -/

/-- What a point returned by Newton-Raphson is: the middle of a narrow enough bracket, or a Newton step shorter than the accuracy. -/
def NewtonAnswer (f f' : X64 → X64) (acc r : X64) : Prop :=
  (∃ xl xh, (f xl).lt zero = true ∧ (f xh).lt zero = false ∧ (abs ((xh.sub xl).div (X64.ofNat 2))).lt acc = true ∧
    r = xl.add ((xh.sub xl).div (X64.ofNat 2))) ∨
  ∃ p, (abs ((f p).div (f' p))).lt acc = true ∧ r = p.sub ((f p).div (f' p))

theorem newtonLoop_answer {f f' : X64 → X64} {acc r : X64} :
    ∀ n root xl xh dx dxold, (f xl).lt zero = true → (f xh).lt zero = false →
      newtonLoop f f' acc n root xl xh dx dxold = .found r → NewtonAnswer f f' acc r := by
  intro n
  induction n with
  | zero => intro root xl xh dx dxold _ _ h; cases h
  | succ n ih =>
    intro root xl xh dx dxold hl hh h
    unfold newtonLoop at h
    dsimp only at h
    generalize (zero.lt ((((root.sub xh).mul (f' root)).sub (f root)).mul (((root.sub xl).mul (f' root)).sub (f root))) ||
      (abs (dxold.mul (f' root))).lt (abs ((X64.ofNat 2).mul (f root)))) = bisect at h
    cases bisect with
    | true =>
      simp only [if_true] at h
      by_cases h1 : (abs ((xh.sub xl).div (X64.ofNat 2))).lt acc = true
      · rw [if_pos h1] at h
        cases h
        exact Or.inl ⟨xl, xh, hl, hh, h1, rfl⟩
      · rw [if_neg h1] at h
        split_ifs at h with h2
        · exact ih _ _ _ _ _ h2 hh h
        · exact ih _ _ _ _ _ hl (by simpa using h2) h
    | false =>
      simp only [Bool.false_eq_true, if_false] at h
      by_cases h1 : (abs ((f root).div (f' root))).lt acc = true
      · rw [if_pos h1] at h
        cases h
        exact Or.inr ⟨root, h1, rfl⟩
      · rw [if_neg h1] at h
        split_ifs at h with h2
        · exact ih _ _ _ _ _ h2 hh h
        · exact ih _ _ _ _ _ hl (by simpa using h2) h

/-- C104: a point that Newton-Raphson returns has a value that counts as zero, or is the middle of a bracket narrower than twice
the accuracy, or was reached by a Newton step shorter than the accuracy. -/
theorem C104_newton (f f' : X64 → X64) (c : Config) (guess r : X64) (h : newton f f' c guess = .found r) :
    close (f r) zero = true ∨ NewtonAnswer f f' (c.accuracy.max epsilon) r := by
  rcases solve_cases h with h1 | ⟨b, k, hb, h1, _, h2⟩
  · exact Or.inl h1
  · right
    unfold newtonImpl at h1
    rcases h2 with ⟨h2, h3⟩ | ⟨h2, h3⟩
    · rw [if_pos h2] at h1
      exact newtonLoop_answer _ _ _ _ _ _ (hb.lo ▸ h2) (hb.hi ▸ lt_asymm h3) h1
    · rw [lt_asymm h2, if_neg (by simp)] at h1
      exact newtonLoop_answer _ _ _ _ _ _ (hb.hi ▸ h3) (hb.lo ▸ lt_asymm h2) h1

/-! ## Brent -/

/-- One value is negative and the other positive. -/
def Opposite (x y : X64) : Prop := (x.lt zero = true ∧ zero.lt y = true) ∨ (zero.lt x = true ∧ y.lt zero = true)

theorem Opposite.symm {x y : X64} (h : Opposite x y) : Opposite y x := by
  rcases h with ⟨h1, h2⟩ | ⟨h1, h2⟩
  · exact Or.inr ⟨h2, h1⟩
  · exact Or.inl ⟨h2, h1⟩

/-- The state before a pass: the values belong to the points and the two ends have opposite signs. -/
structure Ready (f : X64 → X64) (s : Brent) : Prop where
  lo : s.yMin = f s.xMin
  hi : s.yMax = f s.xMax
  at_root : s.froot = f s.root
  ends : Opposite s.yMin s.yMax

/-- The state after the first two steps of a pass: the iterate and the far end have opposite signs, unless the value there is zero. -/
structure Bracketed (f : X64 → X64) (s : Brent) : Prop where
  hi : s.yMax = f s.xMax
  at_root : s.froot = f s.root
  ends : Opposite s.froot s.yMax ∨ eq s.froot zero = true

theorem sign_cases (x : X64) (h : x ≠ nan) : x.lt zero = true ∨ zero.lt x = true ∨ eq x zero = true := by
  cases x with
  | nan => exact absurd rfl h
  | inf s => cases s <;> simp [X64.lt, zero]
  | fin a =>
    rcases lt_trichotomy a.val 0 with h | h | h
    · exact Or.inl (decide_eq_true h)
    · exact Or.inr (Or.inr (decide_eq_true h))
    · exact Or.inr (Or.inl (decide_eq_true h))

theorem rebracket_bracketed {f : X64 → X64} {s : Brent} (h : Ready f s) (hn : s.froot ≠ nan) : Bracketed f s.rebracket := by
  unfold Brent.rebracket
  by_cases hc : ((zero.lt s.froot && zero.lt s.yMax) || (s.froot.lt zero && s.yMax.lt zero)) = true
  · rw [if_pos hc]
    refine ⟨h.lo, h.at_root, Or.inl ?_⟩
    simp only [Bool.or_eq_true, Bool.and_eq_true] at hc
    rcases hc with ⟨h1, h2⟩ | ⟨h1, h2⟩
    · rcases h.ends with ⟨h3, h4⟩ | ⟨h3, h4⟩
      · exact Or.inr ⟨h1, h3⟩
      · rw [lt_asymm h2] at h4; simp at h4
    · rcases h.ends with ⟨h3, h4⟩ | ⟨h3, h4⟩
      · rw [lt_asymm h4] at h2; simp at h2
      · exact Or.inl ⟨h1, h3⟩
  · rw [if_neg hc]
    refine ⟨h.hi, h.at_root, ?_⟩
    simp only [Bool.or_eq_true, Bool.and_eq_true, not_or, not_and] at hc
    rcases sign_cases s.froot hn with h1 | h1 | h1
    · rcases h.ends with ⟨h3, h4⟩ | ⟨h3, h4⟩
      · exact Or.inl (Or.inl ⟨h1, h4⟩)
      · exact absurd h4 (hc.2 h1)
    · rcases h.ends with ⟨h3, h4⟩ | ⟨h3, h4⟩
      · exact absurd h4 (hc.1 h1)
      · exact Or.inl (Or.inr ⟨h1, h4⟩)
    · exact Or.inr h1

theorem swap_bracketed {f : X64 → X64} {s : Brent} (h : Bracketed f s) : Bracketed f s.swap := by
  unfold Brent.swap
  split_ifs with hc
  · refine ⟨h.at_root, h.hi, ?_⟩
    rcases h.ends with h1 | h1
    · exact Or.inl h1.symm
    · exfalso
      cases hf : s.froot with
      | nan => rw [hf] at h1; simp [eq] at h1
      | inf t => rw [hf] at h1; cases t <;> simp [eq, zero] at h1
      | fin a =>
        rw [hf] at h1 hc
        have ha : a.val = 0 := of_decide_eq_true h1
        obtain ⟨b, hb, hv⟩ := abs_fin a
        rw [hb] at hc
        cases hy : s.yMax with
        | nan => rw [hy] at hc; simp [abs, nan_lt] at hc
        | inf t => rw [hy] at hc; simp [abs, X64.lt] at hc
        | fin d =>
          obtain ⟨e, he, hw⟩ := abs_fin d
          rw [hy, he] at hc
          have := of_decide_eq_true hc
          rw [hw, hv, ha, abs_zero] at this
          exact absurd this (not_lt.2 (abs_nonneg _))
  · exact h

theorem close_of_eq {x : X64} (h : eq x zero = true) : close x zero = true := by
  unfold close; rw [h]; rfl

/-- The loop is lost: the iterate and its value are NaN. -/
theorem brentLoop_nan {f : X64 → X64} (hf : f nan = nan) {acc : X64} :
    ∀ n s, s.root = nan → s.froot = nan → brentLoop f acc n s = .gaveUp := by
  intro n
  induction n with
  | zero => intro s _ _; rfl
  | succ n ih =>
    intro s hr hfr
    have h1 : s.rebracket = s := by
      unfold Brent.rebracket
      rw [hfr, nan_lt, lt_nan]; simp
    have h2 : s.swap = s := by
      unfold Brent.swap
      rw [hfr]; show (if X64.lt (abs s.yMax) nan = true then _ else s) = s
      rw [lt_nan]; simp
    have h3 : half s.xMax s.root = nan := by unfold half; rw [hr, sub_nan, mul_nan]
    have h4 : near acc s.root = nan := by
      unfold near; rw [hr]; show (((X64.ofNat 2).mul epsilon).mul nan).add _ = nan
      rw [mul_nan, nan_add]
    unfold brentLoop
    dsimp only
    rw [h1, h2, h3, h4, hfr, close_nan]
    have h5 : le (abs nan) nan = false := rfl
    rw [h5, hr]
    simp only [Bool.or_false, Bool.false_eq_true, if_false, nan_add, ite_self]
    exact ih _ rfl hf

/-- The loop returns a point whose value counts as zero, or one that is near a point with a value of the other sign. -/
theorem brentLoop_answer {f : X64 → X64} (hf : f nan = nan) (hn : ∀ x, x ≠ nan → f x ≠ nan) {acc r : X64} :
    ∀ n s, Ready f s → brentLoop f acc n s = .found r →
      close (f r) zero = true ∨ ∃ t, Opposite (f r) (f t) ∧ le (abs (half t r)) (near acc r) = true := by
  intro n
  induction n with
  | zero => intro s _ h; cases h
  | succ n ih =>
    intro s hs h
    by_cases hroot : s.root = nan
    · rw [brentLoop_nan hf _ _ hroot (by rw [hs.at_root, hroot, hf])] at h; cases h
    · have hfr : s.froot ≠ nan := by rw [hs.at_root]; exact hn _ hroot
      have hb := swap_bracketed (rebracket_bracketed hs hfr)
      unfold brentLoop at h
      dsimp only at h
      generalize s.rebracket.swap = t at *
      by_cases h1 : (le (abs (half t.xMax t.root)) (near acc t.root) || close t.froot zero) = true
      · rw [if_pos h1] at h
        cases h
        rw [Bool.or_eq_true] at h1
        rcases hb.ends with h2 | h2
        · rcases h1 with h1 | h1
          · exact Or.inr ⟨t.xMax, by rw [← hb.at_root, ← hb.hi]; exact h2, h1⟩
          · exact Or.inl (by rw [← hb.at_root]; exact h1)
        · exact Or.inl (by rw [← hb.at_root]; exact close_of_eq h2)
      · rw [if_neg h1] at h
        rw [Bool.or_eq_true, not_or] at h1
        refine ih _ ?_ h
        refine ⟨hb.at_root, hb.hi, rfl, ?_⟩
        rcases hb.ends with h2 | h2
        · exact h2
        · exact absurd (close_of_eq h2) h1.2

theorem rep_half' {x : ℚ} (h : Rep x) (hx : 2 ^ (-52 : ℤ) ≤ |x|) : rnd (1 / 2 * x) = 1 / 2 * x := by
  rw [show 1 / 2 * x = x / 2 by ring]
  exact rnd_rep (Bisect.rep_half h hx)

theorem half_lit : ∃ a, ofQ (1 / 2) = fin a ∧ a.val = 1 / 2 :=
  small_fin ⟨1, -1, by norm_num, by norm_num, by norm_num⟩ (by rw [abs_of_pos (by norm_num)]; norm_num)

theorem arith1 {A T : ℚ} (h0 : 0 < A) (h : A < T) : |1 / 2 * A| < T := by rw [abs_of_pos (by linarith)]; linarith

theorem arith2 {p A s z T : ℚ} (hT : T = 2 * z) (h1 : p ≤ s) (h2 : A < T) (h3 : s ≤ 1 / 2 * z) : p + 1 / 2 * A ≤ 3 / 2 * z := by linarith

theorem arith3 {r z : ℚ} (hz : 0 < z) (h : r ≤ 3 / 2 * z) : r < 2 * z := by linarith

theorem arith4 {p m A v e : ℚ} (h : |p - m| ≤ v * p + e) : m + 1 / 2 * A ≤ (1 + v) * p + e + A / 2 := by
  have := (abs_le.1 h).1
  linarith

theorem arith5 {z : ℚ} (h : 0 < z) : z ≤ 1 / 2 * (z * 2 ^ 23) := by linarith

theorem arith6 {p A : ℚ} (hp : 0 ≤ p) (hA : 0 < A) : 0 ≤ p + 1 / 2 * A := by linarith

theorem arith7 {n q v : ℚ} (h : |q - n| ≤ v * q) : n ≤ (1 + v) * q := by
  have := (abs_le.1 h).1
  linarith

/-- The tolerance at a point, as a number. -/
theorem near_value {a A : F64} (hA : 2 ^ (-52 : ℤ) ≤ A.val) :
    ∃ n, near (fin A) (fin a) = fin n ∧ n.val ≤ (1 + u) * ((1 + u) * (2 ^ (-51 : ℤ) * |a.val|) + 2 ^ (-1075 : ℤ) + A.val / 2) := by
  have hApos : 0 < A.val := lt_of_lt_of_le (zpos _) hA
  obtain ⟨t, ht, htv⟩ := small_fin (q := 2) ⟨2, 0, by norm_num, by norm_num, by norm_num⟩ (by rw [abs_of_pos (by norm_num)]; norm_num)
  obtain ⟨e, he, hev⟩ := small_fin (q := 2 ^ (-51 : ℤ)) ⟨1, -51, by norm_num, by norm_num, by norm_num⟩ (by
    rw [abs_of_pos (zpos _)]; norm_num)
  obtain ⟨b, hb, hbv⟩ := abs_fin a
  obtain ⟨h, hh, hhv⟩ := half_lit
  have h1 : (X64.ofNat 2).mul epsilon = fin e := by
    unfold X64.ofNat
    rw [epsilon_fin, show ((2 : ℕ) : ℚ) = 2 by norm_num, ht]
    show ofQ (t.val * Bisect.epsilon.val) = _
    rw [htv, Bisect.epsilon_val, show (2 : ℚ) * 2 ^ (-52 : ℤ) = 2 ^ (-51 : ℤ) by norm_num, he]
  have hbfin : |a.val| < 2 ^ 1024 := a.fin
  have hsmall : rnd (2 ^ (-51 : ℤ) * |a.val|) ≤ 2 ^ 1000 := by
    refine rnd_le ⟨1, 1000, by norm_num [zpow_natCast], by norm_num, by norm_num⟩ ?_
    have h2 : (2 : ℚ) ^ (-51 : ℤ) * |a.val| ≤ 2 ^ (-51 : ℤ) * 2 ^ 1024 := mul_le_mul_of_nonneg_left hbfin.le (zpos _).le
    refine h2.trans ?_
    have : (2 : ℚ) ^ (-51 : ℤ) * 2 ^ 1024 = 2 ^ 973 := by
      rw [← zpow_natCast, ← zpow_natCast, ← zpow_add₀ (by norm_num)]; norm_num
    rw [this]
    exact pow_le_pow_right₀ (by norm_num) (by norm_num)
  have hnn : 0 ≤ rnd (2 ^ (-51 : ℤ) * |a.val|) := rnd_nonneg (mul_nonneg (zpos _).le (abs_nonneg _))
  obtain ⟨m, hm, hmv⟩ := ofQ_fin (q := 2 ^ (-51 : ℤ) * |a.val|) (by
    rw [abs_of_nonneg hnn]
    exact lt_of_le_of_lt hsmall (pow_lt_pow_right₀ (by norm_num) (by norm_num)))
  have hhalf : rnd (1 / 2 * A.val) = 1 / 2 * A.val := rep_half' A.rep (by rw [abs_of_pos hApos]; exact hA)
  have hAfin : A.val < 2 ^ 1024 := lt_of_abs_lt A.fin
  have h1023 : (2 : ℚ) ^ 1024 = 2 * 2 ^ 1023 := by exact pow_succ' 2 1023
  obtain ⟨g, hg, hgv⟩ := ofQ_fin (q := 1 / 2 * A.val) (by
    rw [hhalf]; exact arith1 hApos hAfin)
  rw [hhalf] at hgv
  have hsum : 0 ≤ m.val + g.val := by rw [hmv, hgv]; exact arith6 hnn hApos
  have hlim : m.val + g.val ≤ 3 / 2 * 2 ^ 1023 := by
    have : (2 : ℚ) ^ 1000 ≤ 1 / 2 * 2 ^ 1023 := by
      have h3 : (2 : ℚ) ^ 1023 = 2 ^ 1000 * 2 ^ 23 := by rw [← pow_add]
      rw [h3]
      exact arith5 (pow_pos (by norm_num) _)
    rw [hmv, hgv]
    exact arith2 h1023 hsmall hAfin this
  have hrnd : rnd (m.val + g.val) ≤ 3 / 2 * 2 ^ 1023 := by
    refine rnd_le ⟨3, 1022, ?_, by norm_num, by norm_num⟩ hlim
    rw [show (2 : ℚ) ^ (1022 : ℤ) = 2 ^ 1022 from zpow_natCast 2 1022, pow_succ]; push_cast; ring
  obtain ⟨n, hn, hnv⟩ := ofQ_fin (q := m.val + g.val) (by
    rw [abs_of_nonneg (rnd_nonneg hsum), h1023]
    exact arith3 (pow_pos (by norm_num) _) hrnd)
  refine ⟨n, ?_, ?_⟩
  · unfold near
    rw [h1, hb, hh]
    show (ofQ (e.val * b.val)).add (ofQ (h.val * A.val)) = _
    rw [hev, hbv, hhv, hm, hg]
    exact hn
  · have e1 := rnd_error' (2 ^ (-51 : ℤ) * |a.val|)
    have e2 := rnd_add m.rep g.rep
    rw [← hmv, abs_of_nonneg (mul_nonneg (zpos _).le (abs_nonneg a.val))] at e1
    rw [← hnv, abs_of_nonneg hsum] at e2
    have e5 := arith7 e2
    rw [hgv] at e5
    exact e5.trans (mul_le_mul_of_nonneg_left (arith4 e1) (_root_.add_pos one_pos u_pos).le)

/-- Half the way to the other point, compared with a finite number. -/
theorem half_value {t : X64} {a n : F64} (h : le (abs (half t (fin a))) (fin n) = true) :
    ∃ b, t = fin b ∧ (1 - u) * ((1 - u) * |b.val - a.val|) ≤ 2 * (n.val + 2 ^ (-1075 : ℤ)) := by
  obtain ⟨c, hc, hcv⟩ := half_lit
  obtain ⟨a', ha', _⟩ := neg_fin a
  cases t with
  | nan => unfold half at h; rw [nan_sub, mul_nan] at h; simp [abs, nan_le] at h
  | inf s =>
    have h1 : (inf s).sub (fin a) = inf s := by unfold X64.sub; rw [ha']; rfl
    unfold half at h
    rw [h1, hc] at h
    have h2 : (fin c).mul (inf s) = inf s := by
      show (if c.val = 0 then nan else inf (s != decide (c.val < 0))) = _
      rw [hcv, if_neg (by norm_num), decide_eq_false (by norm_num)]
      cases s <;> rfl
    rw [h2] at h
    simp [abs, le] at h
  | fin b =>
    refine ⟨b, rfl, ?_⟩
    unfold half at h
    rw [sub_fin, hc] at h
    by_cases hd : |rnd (b.val - a.val)| < 2 ^ 1024
    · obtain ⟨d, hd1, hd2⟩ := ofQ_fin hd
      rw [hd1] at h
      have h2 : (fin c).mul (fin d) = ofQ (1 / 2 * d.val) := by show ofQ (c.val * d.val) = _; rw [hcv]
      rw [h2] at h
      by_cases hk : |rnd (1 / 2 * d.val)| < 2 ^ 1024
      · obtain ⟨k, hk1, hk2⟩ := ofQ_fin hk
        obtain ⟨j, hj1, hj2⟩ := abs_fin k
        rw [hk1, hj1] at h
        have h3 : j.val ≤ n.val := of_decide_eq_true h
        rw [hj2, hk2] at h3
        have e1 := rnd_error' (1 / 2 * d.val)
        have e2 := rnd_sub b.rep a.rep
        rw [← hd2] at e2
        have h4 := abs_sub_abs_le_abs_sub (1 / 2 * d.val) (rnd (1 / 2 * d.val))
        have h5 := abs_sub_abs_le_abs_sub (b.val - a.val) d.val
        have h6 : |1 / 2 * d.val| = 1 / 2 * |d.val| := by rw [abs_mul, abs_of_pos (by norm_num)]
        rw [h6] at h4 e1
        have hu := u_pos
        have hu2 := u_lt
        have h7 : (1 - u) * |b.val - a.val| ≤ |d.val| := by linarith
        have h8 : (1 - u) * |d.val| ≤ 2 * (n.val + 2 ^ (-1075 : ℤ)) := by linarith
        exact (mul_le_mul_of_nonneg_left h7 (by linarith)).trans h8
      · rw [ofQ_inf hk] at h; simp [abs, le] at h
    · rw [ofQ_inf hd] at h
      have h2 : ∀ s, (fin c).mul (inf s) = inf s := by
        intro s
        show (if c.val = 0 then nan else inf (s != decide (c.val < 0))) = _
        rw [hcv, if_neg (by norm_num), decide_eq_false (by norm_num)]
        cases s <;> rfl
      rw [h2] at h; simp [abs, le] at h

/-- C104: if the objective is NaN only where its argument is, a point that Brent's method returns has a value that counts as zero,
or lies within the accuracy of a point where the objective has the other sign, or is infinite. -/
theorem C104_brent (f : X64 → X64) (hf : f nan = nan) (hn : ∀ x, x ≠ nan → f x ≠ nan) (c : Config) (A : F64) (hA : c.accuracy = fin A)
    (guess r : X64) (h : brent f c guess = .found r) :
    close (f r) zero = true ∨
    (∃ a b : F64, r = fin a ∧ Opposite (f (fin a)) (f (fin b)) ∧
      |b.val - a.val| ≤ (1 + 2 ^ (-49 : ℤ)) * (2 ^ (-50 : ℤ) * |a.val| + max A.val (2 ^ (-52 : ℤ)))) ∨
    ∃ s, r = inf s := by
  rcases solve_cases h with h1 | ⟨b, k, hb, h1, _, h2⟩
  · exact Or.inl h1
  · unfold brentImpl at h1
    rcases brentLoop_answer hf hn _ ⟨b.xMin, b.yMin, b.xMax, b.yMax, b.xMax, b.yMax, zero, zero⟩ ⟨hb.lo, hb.hi, hb.hi, h2⟩ h1 with h3 | ⟨t, h3, h4⟩
    · exact Or.inl h3
    · right
      rw [hA, epsilon_fin, Nan.max_of] at h4
      cases r with
      | nan => unfold half at h4; rw [sub_nan, mul_nan] at h4; simp [abs, nan_le] at h4
      | inf s => exact Or.inr ⟨s, rfl⟩
      | fin a =>
        left
        have hM : (A.max Bisect.epsilon).val = max A.val (2 ^ (-52 : ℤ)) := Bisect.max_val A Bisect.epsilon
        have hM2 : 2 ^ (-52 : ℤ) ≤ (A.max Bisect.epsilon).val := by rw [hM]; exact le_max_right _ _
        obtain ⟨n, h5, h6⟩ := near_value (a := a) hM2
        rw [h5] at h4
        obtain ⟨b, h7, h8⟩ := half_value h4
        refine ⟨a, b, rfl, h7 ▸ h3, ?_⟩
        rw [← hM]
        have h9 : (2 : ℚ) ^ (-1075 : ℤ) ≤ 2 ^ (-54 : ℤ) * (A.max Bisect.epsilon).val := by
          refine le_trans ?_ (mul_le_mul_of_nonneg_left hM2 (zpos _).le)
          rw [← zpow_add₀ (by norm_num)]
          exact zpow_le_zpow_right₀ (by norm_num) (by norm_num)
        have h10 := abs_nonneg a.val
        have h11 := abs_nonneg (b.val - a.val)
        have h12 : 0 < (A.max Bisect.epsilon).val := lt_of_lt_of_le (zpos _) hM2
        clear hM2 hM h5
        generalize (2 : ℚ) ^ (-1075 : ℤ) = eta at *
        generalize (A.max Bisect.epsilon).val = M at *
        generalize |a.val| = x at *
        generalize |b.val - a.val| = y at *
        unfold u at h6 h8
        norm_num at h6 h8 h9 ⊢
        linarith

end Verif.Float.Solve
