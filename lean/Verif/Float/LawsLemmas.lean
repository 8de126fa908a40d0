import Verif.Float.Laws
import Verif.Float.FdLemmas
import Verif.Float.OrderProps
import Verif.Float.NanLemmas

/-! Helper lemmas: the order of `f64` values, and that the operations respect it. -/

namespace Verif.Float.Laws

open X64 Nan

theorem zero_val : F64.zero.val = 0 := rfl

/-- Rounding respects the order, also beyond the finite range. -/
theorem ofQ_mono {p q : ℚ} (h : p ≤ q) : le (ofQ p) (ofQ q) = true := by
  have hr := rnd_mono h
  by_cases hp : |rnd p| < 2 ^ 1024
  · obtain ⟨a, ha, ha'⟩ := ofQ_fin hp
    by_cases hq : |rnd q| < 2 ^ 1024
    · obtain ⟨b, hb, hb'⟩ := ofQ_fin hq
      rw [ha, hb]
      simp only [le, decide_eq_true_eq]
      rw [ha', hb']
      exact hr
    · rw [ha, ofQ_inf hq]
      have : ¬q < 0 := by
        intro h0
        have h1 : rnd q ≤ 0 := rnd_le rep_zero h0.le
        rw [abs_of_nonpos h1, not_lt] at hq
        have := neg_lt_of_abs_lt hp
        linarith
      simp [le, this]
  · rw [ofQ_inf hp]
    by_cases hq : |rnd q| < 2 ^ 1024
    · obtain ⟨b, hb, hb'⟩ := ofQ_fin hq
      rw [hb]
      have : p < 0 := by
        by_contra h0
        have h1 : 0 ≤ rnd p := rnd_nonneg (not_lt.1 h0)
        rw [abs_of_nonneg h1, not_lt] at hp
        have := lt_of_abs_lt hq
        linarith
      simp [le, this]
    · rw [ofQ_inf hq]
      by_cases h0 : q < 0
      · have : p < 0 := lt_of_le_of_lt h h0
        simp [le, this]
      · simp [le, h0]

theorem le_fin (a b : F64) : le (fin a) (fin b) = true ↔ a.val ≤ b.val := by simp [le]

theorem sub_mono {x y : X64} (m : F64) (h : le x y = true) : le (x.sub (fin m)) (y.sub (fin m)) = true := by
  obtain ⟨m', h1, h2⟩ := X64.neg_fin m
  unfold X64.sub
  rw [h1]
  cases x with
  | fin a =>
    cases y with
    | fin b => exact ofQ_mono (by have := (le_fin a b).1 h; linarith)
    | inf t =>
      have : t = false := by simpa [le] using h
      subst this
      change le (ofQ _) (inf false) = true
      unfold ofQ
      cases toF64 (a.val + m'.val) <;> simp [le]
    | nan => simp [le] at h
  | inf s =>
    cases y with
    | fin b =>
      have : s = true := by simpa [le] using h
      subst this
      change le (inf true) (ofQ _) = true
      unfold ofQ
      cases toF64 (b.val + m'.val) <;> simp [le]
    | inf t => exact h
    | nan => simp [le] at h
  | nan => simp [le] at h

theorem neg_anti {x y : X64} (h : le x y = true) : le y.neg x.neg = true := by
  cases x with
  | fin a =>
    cases y with
    | fin b => exact ofQ_mono (by have := (le_fin a b).1 h; linarith)
    | inf t =>
      have : t = false := by simpa [le] using h
      subst this
      obtain ⟨a', h1, -⟩ := X64.neg_fin a
      rw [h1]; rfl
    | nan => simp [le] at h
  | inf s =>
    cases y with
    | fin b =>
      have : s = true := by simpa [le] using h
      subst this
      obtain ⟨b', h1, -⟩ := X64.neg_fin b
      rw [h1]; rfl
    | inf t => cases s <;> cases t <;> simp_all [le, X64.neg]
    | nan => simp [le] at h
  | nan => simp [le] at h

theorem div_mono {x y : X64} {s : F64} (hs : 0 < s.val) (h : le x y = true) : le (x.div (fin s)) (y.div (fin s)) = true := by
  have h0 : s.val ≠ 0 := hs.ne'
  have h1 : ¬s.val < 0 := not_lt.2 hs.le
  cases x with
  | fin a =>
    cases y with
    | fin b =>
      simp only [X64.div, h0, if_false]
      exact ofQ_mono (div_le_div_of_nonneg_right ((le_fin a b).1 h) hs.le)
    | inf t =>
      have : t = false := by simpa [le] using h
      subst this
      simp only [X64.div, h0, h1, if_false]
      unfold ofQ
      cases toF64 (a.val / s.val) <;> simp [le]
    | nan => simp [le] at h
  | inf u =>
    cases y with
    | fin b =>
      have : u = true := by simpa [le] using h
      subst this
      simp only [X64.div, h0, h1, if_false]
      unfold ofQ
      cases toF64 (b.val / s.val) <;> simp [le]
    | inf t => simpa [X64.div, h1, le] using h
    | nan => simp [le] at h
  | nan => simp [le] at h

/-- A value between zero and one. -/
def Unit01 (x : X64) : Prop := ∃ c : F64, x = fin c ∧ 0 ≤ c.val ∧ c.val ≤ 1

theorem fin_of_bounds {q lo hi : ℚ} (a b : F64) (ha : a.val = lo) (hb : b.val = hi) (h1 : lo ≤ rnd q) (h2 : rnd q ≤ hi) : |rnd q| < 2 ^ 1024 := by
  have h3 := a.fin
  have h4 := b.fin
  rw [abs_lt] at h3 h4 ⊢
  subst ha hb
  exact ⟨by linarith [h3.1], by linarith [h4.2]⟩

theorem one_fin : ∃ i : F64, ofQ 1 = fin i ∧ i.val = 1 := by
  obtain ⟨i, h1, h2⟩ := ofQ_fin (q := 1) (by rw [rnd_rep rep_one, abs_one]; exact one_lt_pow₀ (by norm_num) (by norm_num))
  exact ⟨i, h1, by rw [h2, rnd_rep rep_one]⟩

theorem two_fin : ∃ i : F64, ofQ 2 = fin i ∧ i.val = 2 := by
  have e : (toF64 2).map F64.val = some 2 := by decide +kernel
  obtain ⟨i, h1, h2⟩ := Option.map_eq_some_iff.1 e
  exact ⟨i, Nan.fin_of h1, h2⟩

theorem half_fin : ∃ i : F64, ofQ (1 / 2) = fin i ∧ i.val = 1 / 2 := by
  have e : (toF64 (1 / 2)).map F64.val = some (1 / 2) := by decide +kernel
  obtain ⟨i, h1, h2⟩ := Option.map_eq_some_iff.1 e
  exact ⟨i, Nan.fin_of h1, h2⟩

/-- Rounding a number between zero and one. -/
theorem unit_round {q : ℚ} (h0 : 0 ≤ q) (h1 : q ≤ 1) : ∃ c : F64, ofQ q = fin c ∧ c.val = rnd q ∧ 0 ≤ c.val ∧ c.val ≤ 1 := by
  obtain ⟨i, -, i2⟩ := one_fin
  have h2 := rnd_nonneg h0
  have h3 := rnd_le rep_one h1
  obtain ⟨c, e1, e2⟩ := ofQ_fin (fin_of_bounds F64.zero i zero_val i2 h2 h3)
  exact ⟨c, e1, e2, by rw [e2]; exact h2, by rw [e2]; exact h3⟩

theorem isProbability_iff (p : X64) : isProbability p = true ↔ Unit01 p := by
  obtain ⟨i, h1, h2⟩ := one_fin
  unfold isProbability Unit01 zero
  rw [h1]
  cases p with
  | fin c =>
    simp only [le, h2, zero_val, Bool.and_eq_true, decide_eq_true_eq]
    exact ⟨fun h => ⟨c, rfl, of_decide_eq_true h.1, h.2⟩, fun ⟨c', h, h'⟩ => by cases h; exact ⟨decide_eq_true h'.1, h'.2⟩⟩
  | inf s => cases s <;> simp [le]
  | nan => simp [le]

/-! ## Uniform -/

/-- `b - a` is finite and positive. -/
structure Span (a b : F64) : Prop where
  lt : a.val < b.val
  fits : |rnd (b.val - a.val)| < 2 ^ 1024

theorem Span.width {a b : F64} (h : Span a b) : ∃ w : F64, (fin b).sub (fin a) = fin w ∧ w.val = rnd (b.val - a.val) ∧ 0 < w.val := by
  obtain ⟨w, h1, h2⟩ := ofQ_fin h.fits
  refine ⟨w, by rw [X64.sub_fin]; exact h1, h2, ?_⟩
  rw [h2]
  exact (rnd_sub_pos b.rep a.rep).2 h.lt

/-- The distribution function between the ends. -/
theorem cdf_inside {a b : F64} (h : Span a b) (x : F64) (h1 : a.val ≤ x.val) (h2 : x.val ≤ b.val) :
    ∃ c : F64, Uniform.cdf ⟨fin a, fin b⟩ (fin x) = fin c ∧ c.val = rnd (rnd (x.val - a.val) / rnd (b.val - a.val)) ∧ 0 ≤ c.val ∧ c.val ≤ 1 := by
  obtain ⟨w, w1, w2, w3⟩ := h.width
  have hr0 : 0 ≤ rnd (x.val - a.val) := rnd_nonneg (by linarith)
  have hr1 : rnd (x.val - a.val) ≤ rnd (b.val - a.val) := rnd_mono (by linarith)
  obtain ⟨r, r1, r2⟩ := ofQ_fin (q := x.val - a.val) (fin_of_bounds F64.zero w zero_val w2 hr0 hr1)
  have hw : rnd (b.val - a.val) = w.val := w2.symm
  rw [hw] at hr1 ⊢
  obtain ⟨c, c1, c2, c3, c4⟩ := unit_round (q := rnd (x.val - a.val) / w.val) (by positivity) (by rw [div_le_one w3]; exact hr1)
  refine ⟨c, ?_, c2, c3, c4⟩
  have e1 : (fin x).lt (fin a) = false := by simp [X64.lt, h1]
  have e2 : (le (fin a) (fin x) && le (fin x) (fin b)) = true := by simp [le, h1, h2]
  unfold Uniform.cdf
  simp only [e1, e2, if_true, Bool.false_eq_true, if_false]
  rw [w1, X64.sub_fin, r1]
  simp only [X64.div, w3.ne', if_false]
  rw [r2, c1]

theorem cdf_below {a b : F64} {x : X64} (h : x.lt (fin a) = true) : Uniform.cdf ⟨fin a, fin b⟩ x = zero := by
  unfold Uniform.cdf; simp [h]

theorem lt_of_lt_le {x : X64} {a b : F64} (h : (fin b).lt x = true) (hab : a.val ≤ b.val) : x.lt (fin a) = false := by
  cases x with
  | fin c => simp only [X64.lt, decide_eq_true_eq, decide_eq_false_iff_not, not_lt] at h ⊢; linarith
  | inf s => simpa [X64.lt] using h
  | nan => rfl

theorem cdf_above {a b : F64} {x : X64} (hab : a.val ≤ b.val) (h : (fin b).lt x = true) : Uniform.cdf ⟨fin a, fin b⟩ x = ofQ 1 := by
  have h1 := lt_of_lt_le h hab
  have h2 : le x (fin b) = false := by
    cases x with
    | fin c => simpa [X64.lt, le] using h
    | inf s => simpa [X64.lt, le] using h
    | nan => rfl
  unfold Uniform.cdf
  simp [h1, h2]

/-- Where a value lies. -/
theorem place (a b : F64) (x : X64) : x = nan ∨ x.lt (fin a) = true ∨ (fin b).lt x = true ∨ ∃ c : F64, x = fin c ∧ a.val ≤ c.val ∧ c.val ≤ b.val := by
  cases x with
  | fin c =>
    by_cases h1 : c.val < a.val
    · exact Or.inr (Or.inl (by simp [X64.lt, h1]))
    · by_cases h2 : b.val < c.val
      · exact Or.inr (Or.inr (Or.inl (by simp [X64.lt, h2])))
      · exact Or.inr (Or.inr (Or.inr ⟨c, rfl, not_lt.1 h1, not_lt.1 h2⟩))
  | inf s => cases s
             · exact Or.inr (Or.inr (Or.inl rfl))
             · exact Or.inr (Or.inl rfl)
  | nan => exact Or.inl rfl

/-! ## Relative errors -/

/-- A rounded quotient of rounded numbers between zero and one is right to `2^-51`. -/
theorem quotient_error {p q : ℚ} (a b x : F64) (hp : p = x.val - a.val) (hq : q = b.val - a.val) (h0 : 0 ≤ p) (h1 : p ≤ q) (h2 : 0 < q) :
    |rnd (rnd p / rnd q) - p / q| ≤ 2 ^ (-51 : ℤ) := by
  have e1 : |p - rnd p| ≤ u * p := by
    have := rnd_sub x.rep a.rep
    rwa [← hp, abs_of_nonneg h0] at this
  have e2 : |q - rnd q| ≤ u * q := by
    have := rnd_sub b.rep a.rep
    rwa [← hq, abs_of_pos h2] at this
  have hq0 : 0 < rnd q := by rw [hq]; exact (rnd_sub_pos b.rep a.rep).2 (by linarith)
  have hp0 : 0 ≤ rnd p := rnd_nonneg h0
  have hpq : rnd p ≤ rnd q := rnd_mono h1
  set r := rnd p
  set w := rnd q
  have hu : u = 2 ^ (-53 : ℤ) := rfl
  have ht0 : 0 ≤ r / w := by positivity
  have ht1 : r / w ≤ 1 := (div_le_one hq0).2 hpq
  have f1 : |r / w - p / q| ≤ 2 * u := by
    have e : r / w - p / q = ((r - p) + r / w * (q - w)) / q := by
      field_simp
      ring
    rw [e, abs_div, abs_of_pos h2, div_le_iff₀ h2]
    refine (abs_add_le _ _).trans ?_
    rw [abs_mul, abs_of_nonneg ht0, abs_sub_comm r p]
    have g1 : u * p ≤ u * q := mul_le_mul_of_nonneg_left h1 u_pos.le
    have g2 : r / w * |q - w| ≤ 1 * (u * q) := mul_le_mul ht1 e2 (abs_nonneg _) (by norm_num)
    linarith
  have f2 : |r / w - rnd (r / w)| ≤ u := by
    rcases rnd_error (r / w) with h | ⟨-, h⟩
    · rw [abs_of_nonneg ht0] at h
      refine h.trans ?_
      rw [hu]
      exact mul_le_of_le_one_right (by positivity) ht1
    · exact h.trans ((zpow_le_iff _ _).2 (by norm_num))
  have := u_pos
  calc |rnd (r / w) - p / q| ≤ |rnd (r / w) - r / w| + |r / w - p / q| := abs_sub_le _ _ _
    _ ≤ u + 2 * u := by rw [abs_sub_comm]; exact add_le_add f2 f1
    _ ≤ 2 ^ (-51 : ℤ) := by rw [show (2 : ℚ) ^ (-51 : ℤ) = 4 * u by rw [hu]; norm_num]; linarith

end Verif.Float.Laws
