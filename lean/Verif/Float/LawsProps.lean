import Verif.Float.LawsLemmas

/-!
# C106: uniform distributions in double precision
-/

namespace Verif.Float.Laws

open X64 Nan

/-- A positive number or infinity. -/
def Positive (x : X64) : Prop := x = inf false ∨ ∃ a : F64, x = fin a ∧ 0 < a.val

theorem positive_iff (x : X64) : zero.lt x = true ↔ Positive x := by
  unfold Positive
  cases x with
  | fin a =>
    constructor
    · intro h; exact Or.inr ⟨a, rfl, of_decide_eq_true h⟩
    · rintro (h | ⟨b, h, h'⟩)
      · cases h
      · cases h; exact decide_eq_true h'
  | inf s => cases s <;> simp [X64.lt, zero]
  | nan => simp [X64.lt, zero]

/-- C106: the constructors accept exactly what they say, and store it: the exponential, gamma and Gaussian distributions positive rates,
shapes and variances (infinity included, NaN not), the chi-squared distribution positive degrees of freedom, the uniform distribution ends in order. -/
theorem C106_constructors (x y : X64) (k : ℕ) :
    (∀ d, Exponential.new x = some d ↔ Positive x ∧ d = x) ∧
    (∀ d, Gamma.new x y = some d ↔ Positive x ∧ Positive y ∧ d = ⟨x, y⟩) ∧
    (∀ d, Gaussian.new x y = some d ↔ Positive y ∧ d = ⟨x, y⟩) ∧
    (∀ d, ChiSquared.new k = some d ↔ 1 ≤ k ∧ d = k) ∧
    (∀ d, Uniform.new x y = some d ↔ ((∃ a b : F64, x = fin a ∧ y = fin b ∧ a.val ≤ b.val) ∨ (x = inf true ∧ y ≠ nan) ∨ (y = inf false ∧ x ≠ nan)) ∧
      d = ⟨x, y⟩) := by
  refine ⟨?_, ?_, ?_, ?_, ?_⟩
  · intro d
    rw [← positive_iff]
    unfold Exponential.new
    cases zero.lt x <;> simp [eq_comm]
  · intro d
    rw [← positive_iff, ← positive_iff]
    unfold Gamma.new
    cases zero.lt x <;> cases zero.lt y <;> simp [eq_comm]
  · intro d
    rw [← positive_iff]
    unfold Gaussian.new
    cases zero.lt y <;> simp [eq_comm]
  · intro d
    unfold ChiSquared.new
    split_ifs with h
    · simp only [Option.some.injEq]
      exact ⟨fun e => ⟨h, e.symm⟩, fun e => e.2.symm⟩
    · simp only [false_iff, not_and]
      intro h'; exact absurd h' h
  · intro d
    have hle : le x y = true ↔ ((∃ a b : F64, x = fin a ∧ y = fin b ∧ a.val ≤ b.val) ∨ (x = inf true ∧ y ≠ nan) ∨ (y = inf false ∧ x ≠ nan)) := by
      cases x with
      | fin a =>
        cases y with
        | fin b => simp [le]
        | inf t => cases t <;> simp [le]
        | nan => simp [le]
      | inf s =>
        cases y with
        | fin b => cases s <;> simp [le]
        | inf t => cases s <;> cases t <;> simp [le]
        | nan => cases s <;> simp [le]
      | nan => simp [le]
    rw [← hle]
    unfold Uniform.new
    cases le x y <;> simp [eq_comm]

/-- An infinite rate is accepted, NaN is not. -/
example : Exponential.new (inf false) = some (inf false) ∧ Exponential.new nan = none := by
  constructor
  · exact ((C106_constructors (inf false) nan 0).1 _).2 ⟨Or.inl rfl, rfl⟩
  · cases h : Exponential.new nan with
    | none => rfl
    | some d =>
      rcases ((C106_constructors nan nan 0).1 d).1 h with ⟨h1 | ⟨a, h1, -⟩, -⟩ <;> cases h1

/-- C106: the distribution function of a continuous uniform distribution whose width does not overflow. At every argument but NaN it is a
number between 0 and 1, it does not decrease, it is 0 up to `a` and 1 from `b` on, and between them it is right to `2^-51`. -/
theorem C106_uniform_cdf (a b : F64) (h : Span a b) :
    (∀ x, x ≠ nan → Unit01 (Uniform.cdf ⟨fin a, fin b⟩ x)) ∧
    (∀ x y, le x y = true → le (Uniform.cdf ⟨fin a, fin b⟩ x) (Uniform.cdf ⟨fin a, fin b⟩ y) = true) ∧
    (∀ x, le x (fin a) = true → Uniform.cdf ⟨fin a, fin b⟩ x = zero) ∧
    (∀ x, le (fin b) x = true → Uniform.cdf ⟨fin a, fin b⟩ x = ofQ 1) ∧
    ∀ x : F64, a.val ≤ x.val → x.val ≤ b.val →
      ∃ c : F64, Uniform.cdf ⟨fin a, fin b⟩ (fin x) = fin c ∧ |c.val - (x.val - a.val) / (b.val - a.val)| ≤ 2 ^ (-51 : ℤ) := by
  obtain ⟨i, i1, i2⟩ := one_fin
  have hz : Unit01 zero := ⟨F64.zero, rfl, le_refl _, zero_le_one⟩
  have ho : Unit01 (ofQ 1) := ⟨i, i1, by rw [i2]; norm_num, by rw [i2]⟩
  have hu : ∀ x, x ≠ nan → Unit01 (Uniform.cdf ⟨fin a, fin b⟩ x) := by
    intro x hx
    rcases place a b x with h1 | h1 | h1 | ⟨c, rfl, h1, h2⟩
    · exact absurd h1 hx
    · rw [cdf_below h1]; exact hz
    · rw [cdf_above h.lt.le h1]; exact ho
    · obtain ⟨r, r1, -, r2, r3⟩ := cdf_inside h c h1 h2
      rw [r1]; exact ⟨r, rfl, r2, r3⟩
  refine ⟨hu, ?_, ?_, ?_, ?_⟩
  · intro x y hxy
    have hx : x ≠ nan := by rintro rfl; simp [le] at hxy
    have hy : y ≠ nan := by rintro rfl; rw [le_nan] at hxy; simp at hxy
    rcases place a b x with h1 | h1 | h1 | ⟨c, rfl, h1, h2⟩
    · exact absurd h1 hx
    · rw [cdf_below h1]
      obtain ⟨r, r1, r2, r3⟩ := hu y hy
      rw [r1]; exact (le_fin _ _).2 r2
    · have h2 : (fin b).lt y = true := by
        cases x with
        | fin c =>
          cases y with
          | fin d => simp only [X64.lt, le, decide_eq_true_eq] at h1 hxy ⊢; linarith
          | inf t => simpa [X64.lt, le] using hxy
          | nan => exact absurd rfl hy
        | inf s =>
          have : s = false := by simpa [X64.lt] using h1
          subst this
          cases y with
          | fin d => simp [le] at hxy
          | inf t => simpa [X64.lt, le] using hxy
          | nan => exact absurd rfl hy
        | nan => exact absurd rfl hx
      rw [cdf_above h.lt.le h1, cdf_above h.lt.le h2, i1]
      exact (le_fin _ _).2 (le_refl _)
    · rcases place a b y with k1 | k1 | k1 | ⟨d, rfl, k1, k2⟩
      · exact absurd k1 hy
      · exfalso
        cases y with
        | fin d => simp only [X64.lt, le, decide_eq_true_eq] at k1 hxy; linarith
        | inf t => simp [X64.lt, le] at k1 hxy; simp_all
        | nan => exact absurd rfl hy
      · rw [cdf_above h.lt.le k1, i1]
        obtain ⟨r, r1, -, r2, r3⟩ := cdf_inside h c h1 h2
        rw [r1]; exact (le_fin _ _).2 (by rw [i2]; exact r3)
      · obtain ⟨r, r1, r4, r2, r3⟩ := cdf_inside h c h1 h2
        obtain ⟨q, q1, q4, q2, q3⟩ := cdf_inside h d k1 k2
        rw [r1, q1]
        refine (le_fin _ _).2 ?_
        rw [r4, q4]
        have hcd := (le_fin c d).1 hxy
        have hw : 0 < rnd (b.val - a.val) := (rnd_sub_pos b.rep a.rep).2 h.lt
        exact rnd_mono (div_le_div_of_nonneg_right (rnd_mono (by linarith)) hw.le)
  · intro x hx
    rcases place a b x with h1 | h1 | h1 | ⟨c, rfl, h1, h2⟩
    · subst h1; simp [le] at hx
    · exact cdf_below h1
    · exfalso
      have hab := h.lt
      cases x with
      | fin d => simp only [X64.lt, le, decide_eq_true_eq] at h1 hx; linarith
      | inf t => simp [X64.lt, le] at h1 hx; simp_all
      | nan => simp [le] at hx
    · obtain ⟨r, r1, r4, -, -⟩ := cdf_inside h c h1 h2
      have : c.val = a.val := le_antisymm ((le_fin c a).1 hx) h1
      rw [r1]
      unfold zero
      congr 1
      apply F64.ext
      rw [r4, this, sub_self, rnd_zero, zero_div, rnd_zero, zero_val]
  · intro x hx
    rcases place a b x with h1 | h1 | h1 | ⟨c, rfl, h1, h2⟩
    · subst h1; rw [le_nan] at hx; simp at hx
    · exfalso
      have hab := h.lt
      cases x with
      | fin d => simp only [X64.lt, le, decide_eq_true_eq] at h1 hx; linarith
      | inf t => simp [X64.lt, le] at h1 hx; simp_all
      | nan => rw [le_nan] at hx; simp at hx
    · exact cdf_above h.lt.le h1
    · obtain ⟨r, r1, r4, -, -⟩ := cdf_inside h c h1 h2
      have : c.val = b.val := le_antisymm h2 ((le_fin b c).1 hx)
      have hw : 0 < rnd (b.val - a.val) := (rnd_sub_pos b.rep a.rep).2 h.lt
      rw [r1, i1]
      congr 1
      apply F64.ext
      rw [r4, this, div_self hw.ne', rnd_rep rep_one, i2]
  · intro x h1 h2
    obtain ⟨r, r1, r4, -, -⟩ := cdf_inside h x h1 h2
    refine ⟨r, r1, ?_⟩
    rw [r4]
    exact quotient_error a b x rfl rfl (by linarith) (by linarith) (by linarith [h.lt])

theorem span_unit : ∃ a b : F64, a.val = 0 ∧ b.val = 1 ∧ Span a b := by
  obtain ⟨i, i1, i2⟩ := one_fin
  exact ⟨F64.zero, i, rfl, i2, by rw [i2]; exact zero_lt_one, by
    rw [i2, zero_val, sub_zero, rnd_rep rep_one, abs_one]; exact one_lt_pow₀ (by norm_num) (by norm_num)⟩

/-- On the unit interval, at every number. -/
example : ∃ d : Uniform, Uniform.new zero (ofQ 1) = some d ∧ ∀ x : F64, 0 ≤ x.val → x.val ≤ 1 →
    ∃ c : F64, d.cdf (fin x) = fin c ∧ |c.val - x.val| ≤ 2 ^ (-51 : ℤ) := by
  obtain ⟨a, b, ha, hb, h⟩ := span_unit
  obtain ⟨i, i1, i2⟩ := one_fin
  have e1 : a = F64.zero := F64.ext (by rw [ha, zero_val])
  have e2 : b = i := F64.ext (by rw [hb, i2])
  subst e1 e2
  refine ⟨⟨fin F64.zero, fin b⟩, ?_, ?_⟩
  · unfold Uniform.new
    rw [i1]
    have : le zero (fin b) = true := (le_fin _ _).2 (by rw [zero_val, i2]; exact zero_le_one)
    simp only [this, if_true]
    rfl
  · intro x h0 h1
    obtain ⟨c, c1, c2⟩ := (C106_uniform_cdf F64.zero b h).2.2.2.2 x h0 (by rw [hb]; exact h1)
    rw [hb, zero_val, sub_zero, sub_zero, div_one] at c2
    exact ⟨c, c1, c2⟩

theorem recip_error {p W w : ℚ} (hw : |p - w| ≤ u * p) (hp : 0 < p) (hW : W = 1 / w) :
    |rnd W - 1 / p| ≤ 2 ^ (-51 : ℤ) * (1 / p) + 2 ^ (-1075 : ℤ) := by
  have hu0 := u_pos
  have hu : u = 2 ^ (-53 : ℤ) := rfl
  have hu1 : u ≤ 1 / 100 := by rw [hu]; norm_num
  have hu' : (2 : ℚ) ^ (-51 : ℤ) = 4 * u := by rw [hu]; norm_num
  have k := abs_le.1 hw
  have hup : u * p ≤ 1 / 100 * p := mul_le_mul_of_nonneg_right hu1 hp.le
  have hw0 : 0 < w := by linarith [k.2]
  have hq : 0 < 1 / p := by positivity
  have e1 : |W - 1 / p| ≤ 102 / 100 * u * (1 / p) := by
    rw [hW, show 1 / w - 1 / p = (p - w) / w * (1 / p) by field_simp, abs_mul, abs_of_pos hq, abs_div, abs_of_pos hw0]
    refine mul_le_mul_of_nonneg_right ?_ hq.le
    rw [div_le_iff₀ hw0]
    have h1 : p ≤ 102 / 100 * w := by linarith [k.2]
    have h2 : u * p ≤ u * (102 / 100 * w) := mul_le_mul_of_nonneg_left h1 hu0.le
    linarith
  have e2 : |W - rnd W| ≤ 102 / 100 * u * (1 / p) + 2 ^ (-1075 : ℤ) := by
    have hz : (0 : ℚ) < 2 ^ (-1075 : ℤ) := zpos _
    rcases rnd_error W with g | ⟨-, g⟩
    · have h1 : |W| ≤ 102 / 100 * (1 / p) := by
        have h2 : |W| ≤ |W - 1 / p| + |1 / p| := by
          rw [show W = (W - 1 / p) + 1 / p by ring]
          refine (abs_add_le _ _).trans (le_of_eq ?_)
          congr 2
          ring
        rw [abs_of_pos hq] at h2
        have h3 : u * (1 / p) ≤ 1 / 100 * (1 / p) := mul_le_mul_of_nonneg_right hu1 hq.le
        linarith
      have h2 : u * |W| ≤ u * (102 / 100 * (1 / p)) := mul_le_mul_of_nonneg_left h1 hu0.le
      exact g.trans (h2.trans (by linarith))
    · have : 0 ≤ 102 / 100 * u * (1 / p) := by positivity
      linarith
  rw [hu']
  have h1 := abs_sub_le (rnd W) W (1 / p)
  rw [abs_sub_comm (rnd W) W] at h1
  have : 0 ≤ u * (1 / p) := by positivity
  linarith

/-- C106: the density of a continuous uniform distribution is 0 outside the interval, NaN included, and inside is right to `2^-51` of itself
(plus an underflow term) if the width is at least `2^-1000`. -/
theorem C106_uniform_pdf (a b : F64) (h : Span a b) :
    (∀ x, x.lt (fin a) = true ∨ (fin b).lt x = true ∨ x = nan → Uniform.pdf ⟨fin a, fin b⟩ x = zero) ∧
    (2 ^ (-1000 : ℤ) ≤ b.val - a.val → ∀ x : F64, a.val ≤ x.val → x.val ≤ b.val →
      ∃ p : F64, Uniform.pdf ⟨fin a, fin b⟩ (fin x) = fin p ∧ |p.val - 1 / (b.val - a.val)| ≤ 2 ^ (-51 : ℤ) * (1 / (b.val - a.val)) + 2 ^ (-1075 : ℤ)) := by
  constructor
  · intro x hx
    unfold Uniform.pdf
    have : (le (fin a) x && le x (fin b)) = false := by
      rcases hx with hx | hx | rfl
      · cases x with
        | fin c => simp only [X64.lt, decide_eq_true_eq] at hx; simp [le, not_le.2 hx]
        | inf s => have : s = true := by simpa [X64.lt] using hx
                   subst this; simp [le]
        | nan => simp [le]
      · cases x with
        | fin c => simp only [X64.lt, decide_eq_true_eq] at hx; simp [le, not_le.2 hx]
        | inf s => have : s = false := by simpa [X64.lt] using hx
                   subst this; simp [le]
        | nan => simp [le]
      · simp [le]
    simp [this]
  · intro hwide x h1 h2
    obtain ⟨w, w1, w2, w3⟩ := h.width
    obtain ⟨i, i1, i2⟩ := one_fin
    have hr : Rep (2 ^ (-1000 : ℤ)) := by have := rep_of_le 1 (-1000) (by norm_num) (by norm_num); rwa [Int.cast_one, one_mul] at this
    have hr' : Rep (2 ^ (1000 : ℤ)) := by have := rep_of_le 1 1000 (by norm_num) (by norm_num); rwa [Int.cast_one, one_mul] at this
    have hw : 2 ^ (-1000 : ℤ) ≤ w.val := by rw [w2]; exact le_rnd hr hwide
    have hinv : 1 / w.val ≤ 2 ^ (1000 : ℤ) := by
      rw [one_div, show (2 : ℚ) ^ (1000 : ℤ) = (2 ^ (-1000 : ℤ))⁻¹ by rw [← zpow_neg]; rfl]
      exact inv_anti₀ (zpos _) hw
    have h0 : 0 ≤ 1 / w.val := by positivity
    obtain ⟨p, p1, p2⟩ := ofQ_fin (q := 1 / w.val) (by
      rw [abs_of_nonneg (rnd_nonneg h0)]
      refine (rnd_le hr' hinv).trans_lt ?_
      rw [← zpow_natCast]
      exact (zpow_lt_iff _ _).2 (by norm_num))
    refine ⟨p, ?_, ?_⟩
    · unfold Uniform.pdf
      have : (le (fin a) (fin x) && le (fin x) (fin b)) = true := by simp [le, h1, h2]
      simp only [this, if_true]
      rw [w1, i1]
      change (if w.val = 0 then _ else ofQ (i.val / w.val)) = _
      rw [if_neg w3.ne', i2, p1]
    · rw [p2]
      have hlt := h.lt
      refine recip_error (w := w.val) ?_ (by linarith) rfl
      have := rnd_sub b.rep a.rep
      rwa [abs_of_pos (by linarith : 0 < b.val - a.val), ← w2] at this

example : ∃ a b : F64, a.val = 0 ∧ b.val = 1 ∧ ∀ x : F64, 0 ≤ x.val → x.val ≤ 1 →
    ∃ p : F64, Uniform.pdf ⟨fin a, fin b⟩ (fin x) = fin p ∧ |p.val - 1| ≤ 2 ^ (-50 : ℤ) := by
  obtain ⟨a, b, ha, hb, h⟩ := span_unit
  refine ⟨a, b, ha, hb, fun x h0 h1 => ?_⟩
  have hz : (2 : ℚ) ^ (-1000 : ℤ) ≤ 1 := by
    rw [← zpow_zero (2 : ℚ)]
    exact (zpow_le_iff _ _).2 (by norm_num)
  obtain ⟨p, p1, p2⟩ := (C106_uniform_pdf a b h).2 (by rw [ha, hb, sub_zero]; exact hz) x (by rw [ha]; exact h0) (by rw [hb]; exact h1)
  refine ⟨p, p1, ?_⟩
  rw [ha, hb, sub_zero, div_one, mul_one] at p2
  have h2 : (2 : ℚ) ^ (-1075 : ℤ) ≤ 2 ^ (-51 : ℤ) := (zpow_le_iff _ _).2 (by norm_num)
  refine p2.trans ((add_le_add_right h2 _).trans ?_)
  norm_num

/-- C106 (defect): the distribution function of every uniform distribution is 1 at NaN, and the density 0. -/
theorem C106_uniform_nan (d : Uniform) : d.cdf nan = ofQ 1 ∧ d.pdf nan = zero := by
  have h : le d.a nan = false := le_nan _
  refine ⟨?_, ?_⟩
  · unfold Uniform.cdf; simp [nan_lt, h]
  · unfold Uniform.pdf; simp [h]

/-- C106: quantiles of a continuous uniform distribution. They panic exactly for what is not a probability. For probabilities below one they
are numbers between `a` and `b`, right to `2^-50` of the larger end (plus an underflow term), do not decrease, and at 0 are `a`. -/
theorem C106_uniform_quantile (a b : F64) (h : Span a b) :
    (∀ p, Uniform.invCdf ⟨fin a, fin b⟩ p = none ↔ ¬Unit01 p) ∧
    (∀ p : F64, 0 ≤ p.val → p.val < 1 → ∃ x : F64, Uniform.invCdf ⟨fin a, fin b⟩ (fin p) = some (fin x) ∧ a.val ≤ x.val ∧ x.val ≤ b.val ∧
      |x.val - (a.val + p.val * (b.val - a.val))| ≤ 2 ^ (-50 : ℤ) * Max.max |a.val| |b.val| + 2 ^ (-1075 : ℤ)) ∧
    (∀ p q x y : F64, 0 ≤ p.val → p.val ≤ q.val → q.val < 1 → Uniform.invCdf ⟨fin a, fin b⟩ (fin p) = some (fin x) →
      Uniform.invCdf ⟨fin a, fin b⟩ (fin q) = some (fin y) → x.val ≤ y.val) ∧
    Uniform.invCdf ⟨fin a, fin b⟩ zero = some (fin a) := by
  obtain ⟨w, w1, w2, w3⟩ := h.width
  have hab := h.lt
  have key : ∀ p : F64, 0 ≤ p.val → p.val < 1 → ∃ x : F64, Uniform.invCdf ⟨fin a, fin b⟩ (fin p) = some (fin x) ∧
      x.val = rnd (a.val + rnd (rnd (b.val - a.val) * p.val)) ∧ a.val ≤ x.val ∧ x.val ≤ b.val := by
    intro p h0 h1
    have hb := lerp_bounds a.rep b.rep p.rep hab.le h0 h1
    have hs := scaled_le a.rep b.rep p.rep hab.le h0 h1
    have hp : isProbability (fin p) = true := (isProbability_iff _).2 ⟨p, rfl, h0, h1.le⟩
    have hpw : 0 ≤ p.val * w.val ∧ p.val * w.val ≤ w.val := ⟨by positivity, mul_le_of_le_one_left w3.le h1.le⟩
    obtain ⟨m, m1, m2⟩ := ofQ_fin (q := p.val * w.val) (fin_of_bounds F64.zero w zero_val rfl (rnd_nonneg hpw.1) (rnd_le w.rep hpw.2))
    rw [← w2, mul_comm] at hb
    obtain ⟨x, x1, x2⟩ := ofQ_fin (q := a.val + rnd (p.val * w.val)) (fin_of_bounds a b rfl rfl hb.1 hb.2)
    refine ⟨x, ?_, by rw [x2, ← w2, mul_comm w.val], by rw [x2]; exact hb.1, by rw [x2]; exact hb.2⟩
    unfold Uniform.invCdf
    simp only [hp, if_true]
    rw [w1]
    change some ((fin a).add (ofQ (p.val * w.val))) = _
    rw [m1]
    change some (ofQ (a.val + m.val)) = _
    rw [m2, x1]
  refine ⟨?_, ?_, ?_, ?_⟩
  · intro p
    unfold Uniform.invCdf
    rw [← isProbability_iff]
    split_ifs with hp <;> simp [hp]
  · intro p h0 h1
    obtain ⟨x, e1, e2, e3, e4⟩ := key p h0 h1
    refine ⟨x, e1, e3, e4, ?_⟩
    set M := Max.max |a.val| |b.val|
    have hM : |a.val| ≤ M := le_max_left _ _
    have hM' : |b.val| ≤ M := le_max_right _ _
    have hd : b.val - a.val ≤ 2 * M := by have := le_abs_self b.val; have := neg_abs_le a.val; linarith
    have hd0 : 0 < b.val - a.val := by linarith
    have hs := scaled_le a.rep b.rep p.rep hab.le h0 h1
    have hs0 : 0 ≤ rnd (rnd (b.val - a.val) * p.val) := rnd_nonneg (mul_nonneg (by rw [← w2]; exact w3.le) h0)
    have f1 : |b.val - a.val - rnd (b.val - a.val)| ≤ u * (b.val - a.val) := by
      have := rnd_sub b.rep a.rep
      rwa [abs_of_pos hd0] at this
    rw [e2]
    set D := rnd (b.val - a.val)
    have hD : D = w.val := w2.symm
    have hDle : D ≤ 2 * (b.val - a.val) := by
      have := (abs_le.1 f1).1
      have := mul_le_mul_of_nonneg_right u_lt.le hd0.le
      linarith
    have f2 : |D * p.val - rnd (D * p.val)| ≤ u * (4 * M) + 2 ^ (-1075 : ℤ) := by
      have hDp : 0 ≤ D * p.val := mul_nonneg (by rw [hD]; exact w3.le) h0
      rcases rnd_error (D * p.val) with g | ⟨-, g⟩
      · rw [abs_of_nonneg hDp] at g
        have : D * p.val ≤ 4 * M := (mul_le_of_le_one_right (by rw [hD]; exact w3.le) h1.le).trans (by linarith)
        have g2 : u * (D * p.val) ≤ u * (4 * M) := mul_le_mul_of_nonneg_left this u_pos.le
        have : (0 : ℚ) < 2 ^ (-1075 : ℤ) := zpos _
        exact g.trans (g2.trans (by linarith))
      · have : 0 ≤ u * (4 * M) := mul_nonneg u_pos.le (by linarith [abs_nonneg a.val])
        linarith
    set S := rnd (D * p.val)
    have f3 : |a.val + S - rnd (a.val + S)| ≤ u * M := by
      refine (rnd_add a.rep (rep_rnd _)).trans ?_
      refine mul_le_mul_of_nonneg_left ?_ u_pos.le
      rw [abs_le]
      have := neg_abs_le a.val
      have := le_abs_self b.val
      constructor <;> linarith
    have f4 : |D * p.val - p.val * (b.val - a.val)| ≤ u * (2 * M) := by
      rw [show D * p.val - p.val * (b.val - a.val) = p.val * (D - (b.val - a.val)) by ring, abs_mul, abs_of_nonneg h0, abs_sub_comm]
      have : p.val * |b.val - a.val - D| ≤ 1 * (u * (b.val - a.val)) := mul_le_mul h1.le f1 (abs_nonneg _) (by norm_num)
      have g2 : u * (b.val - a.val) ≤ u * (2 * M) := mul_le_mul_of_nonneg_left hd u_pos.le
      linarith
    have hu : (2 : ℚ) ^ (-50 : ℤ) * M = u * (8 * M) := by rw [show u = 2 ^ (-53 : ℤ) from rfl]; norm_num; ring
    rw [hu]
    have hM0 : 0 ≤ u * M := mul_nonneg u_pos.le (by linarith [abs_nonneg a.val])
    have k1 := abs_le.1 f2
    have k2 := abs_le.1 f3
    have k3 := abs_le.1 f4
    rw [abs_le]
    constructor <;> linarith [k1.1, k1.2, k2.1, k2.2, k3.1, k3.2]
  · intro p q x y h0 hpq h1 hx hy
    obtain ⟨x', e1, e2, -, -⟩ := key p h0 (by linarith)
    obtain ⟨y', g1, g2, -, -⟩ := key q (by linarith) h1
    rw [e1] at hx
    rw [g1] at hy
    cases hx
    cases hy
    rw [e2, g2]
    have hw0 : 0 ≤ rnd (b.val - a.val) := by rw [← w2]; exact w3.le
    have := rnd_mono (mul_le_mul_of_nonneg_left hpq hw0)
    exact rnd_mono (by linarith)
  · obtain ⟨x, e1, e2, -, -⟩ := key F64.zero (le_refl _) zero_lt_one
    unfold zero
    rw [e1]
    congr 2
    apply F64.ext
    rw [e2, zero_val, mul_zero, rnd_zero, _root_.add_zero, rnd_rep a.rep]

example : ∃ a b : F64, a.val = 0 ∧ b.val = 1 ∧ ∀ p : F64, 0 ≤ p.val → p.val < 1 →
    ∃ x : F64, Uniform.invCdf ⟨fin a, fin b⟩ (fin p) = some (fin x) ∧ 0 ≤ x.val ∧ x.val ≤ 1 := by
  obtain ⟨a, b, ha, hb, h⟩ := span_unit
  refine ⟨a, b, ha, hb, fun p h0 h1 => ?_⟩
  obtain ⟨x, x1, x2, x3, -⟩ := (C106_uniform_quantile a b h).2.1 p h0 h1
  exact ⟨x, x1, by rwa [ha] at x2, by rwa [hb] at x3⟩

/-- C106 (defect): the quantile of probability one can lie beyond `b`, where the density is 0: for `a = -1` and `b = 3 * 2^-54` it is `2^-52`. -/
theorem C106_uniform_quantile_beyond : ∃ a b x : F64, Span a b ∧ Uniform.invCdf ⟨fin a, fin b⟩ (ofQ 1) = some (fin x) ∧
    b.val < x.val ∧ Uniform.pdf ⟨fin a, fin b⟩ (fin x) = zero := by
  have e1 : (toF64 (-1)).map F64.val = some (-1) := by decide +kernel
  have e2 : (toF64 (3 * 2 ^ (-54 : ℤ))).map F64.val = some (3 * 2 ^ (-54 : ℤ)) := by decide +kernel
  have e3 : (toF64 (2 ^ (-52 : ℤ))).map F64.val = some (2 ^ (-52 : ℤ)) := by decide +kernel
  have e4 : (toF64 (3 * 2 ^ (-54 : ℤ) - -1)).map F64.val = some (1 + 2 ^ (-52 : ℤ)) := by decide +kernel
  obtain ⟨a, a1, a2⟩ := Option.map_eq_some_iff.1 e1
  obtain ⟨b, b1, b2⟩ := Option.map_eq_some_iff.1 e2
  obtain ⟨x, x1, x2⟩ := Option.map_eq_some_iff.1 e3
  obtain ⟨w, w1, w2⟩ := Option.map_eq_some_iff.1 e4
  obtain ⟨i, i1, i2⟩ := one_fin
  have hw : rnd (b.val - a.val) = w.val := by rw [a2, b2]; exact (toF64_some w1).symm
  have hsp : Span a b := ⟨by rw [a2, b2]; norm_num, by rw [hw]; exact w.fin⟩
  have hlt : b.val < x.val := by rw [b2, x2]; norm_num
  refine ⟨a, b, x, hsp, ?_, hlt, ?_⟩
  · have hp : isProbability (fin i) = true := (isProbability_iff _).2 ⟨i, rfl, by rw [i2]; norm_num, by rw [i2]⟩
    unfold Uniform.invCdf
    rw [i1]
    simp only [hp, if_true]
    rw [X64.sub_fin, b2, a2, Nan.fin_of w1]
    have h1 : (fin i).mul (fin w) = fin w := by
      change ofQ (i.val * w.val) = _
      rw [i2, one_mul, ofQ_val]
    rw [h1]
    change some (ofQ (a.val + w.val)) = _
    rw [a2, w2, show (-1 : ℚ) + (1 + 2 ^ (-52 : ℤ)) = 2 ^ (-52 : ℤ) by ring, Nan.fin_of x1]
  · unfold Uniform.pdf
    simp [le, not_le.2 hlt]

/-- C106 (defect): if the width of a uniform distribution overflows, its density is 0 everywhere, its distribution function is NaN at its
upper end and never positive, the quantile of probability zero is NaN and all others are infinite. -/
theorem C106_uniform_overflow (a b : F64) (hab : a.val < b.val) (h : ¬|rnd (b.val - a.val)| < 2 ^ 1024) :
    (∀ x, Uniform.pdf ⟨fin a, fin b⟩ x = zero) ∧ Uniform.cdf ⟨fin a, fin b⟩ (fin b) = nan ∧
    (∀ x : F64, x.val ≤ b.val → Uniform.cdf ⟨fin a, fin b⟩ (fin x) = zero ∨ Uniform.cdf ⟨fin a, fin b⟩ (fin x) = nan) ∧
    Uniform.invCdf ⟨fin a, fin b⟩ zero = some nan ∧
    ∀ p : F64, 0 < p.val → p.val ≤ 1 → Uniform.invCdf ⟨fin a, fin b⟩ (fin p) = some (inf false) := by
  have hw : (fin b).sub (fin a) = inf false := by
    rw [X64.sub_fin, ofQ_inf h, decide_eq_false (by linarith)]
  obtain ⟨i, i1, i2⟩ := one_fin
  refine ⟨?_, ?_, ?_, ?_, ?_⟩
  · intro x
    unfold Uniform.pdf
    rw [hw, i1]
    split_ifs <;> rfl
  · have e1 : (fin b).lt (fin a) = false := by simp [X64.lt, hab.le]
    have e2 : (le (fin a) (fin b) && le (fin b) (fin b)) = true := by simp [le, hab.le]
    unfold Uniform.cdf
    simp only [e1, e2, if_true, Bool.false_eq_true, if_false]
    rw [hw]; rfl
  · intro x hx
    unfold Uniform.cdf
    by_cases e1 : (fin x).lt (fin a) = true
    · left; simp [e1]
    · have hxa : a.val ≤ x.val := by simpa [X64.lt] using e1
      have e2 : (le (fin a) (fin x) && le (fin x) (fin b)) = true := by simp [le, hxa, hx]
      simp only [e1, e2, if_true, Bool.false_eq_true, if_false]
      rw [hw]
      cases (fin x).sub (fin a) with
      | fin r => left; rfl
      | inf s => right; rfl
      | nan => right; rfl
  · have hp : isProbability zero = true := (isProbability_iff _).2 ⟨F64.zero, rfl, le_refl _, zero_le_one⟩
    unfold Uniform.invCdf
    simp only [hp, if_true]
    rw [hw]
    have : zero.mul (inf false) = nan := by simp [zero, X64.mul, zero_val]
    rw [this, X64.add_nan]
  · intro p h0 h1
    have hp : isProbability (fin p) = true := (isProbability_iff _).2 ⟨p, rfl, h0.le, h1⟩
    unfold Uniform.invCdf
    simp only [hp, if_true]
    rw [hw]
    have : (fin p).mul (inf false) = inf false := by simp [X64.mul, h0.ne', not_lt.2 h0.le]
    rw [this]; rfl

theorem wide : ∃ a b : F64, a.val = -(2 ^ 1023) ∧ b.val = 2 ^ 1023 ∧ a.val < b.val ∧ ¬|rnd (b.val - a.val)| < 2 ^ 1024 := by
  have e1 : (toF64 (2 ^ 1023)).map F64.val = some (2 ^ 1023) := by decide +kernel
  have e2 : (toF64 (-(2 ^ 1023))).map F64.val = some (-(2 ^ 1023)) := by decide +kernel
  have e3 : ¬|rnd (2 ^ 1023 - -(2 ^ 1023))| < 2 ^ 1024 := by decide +kernel
  obtain ⟨b, -, b2⟩ := Option.map_eq_some_iff.1 e1
  obtain ⟨a, -, a2⟩ := Option.map_eq_some_iff.1 e2
  refine ⟨a, b, a2, b2, ?_, by rw [a2, b2]; exact e3⟩
  rw [a2, b2]
  have : (0 : ℚ) < 2 ^ 1023 := by positivity
  exact (neg_lt_zero.2 this).trans this

/-- From `-2^1023` to `2^1023`. -/
example : ∃ a b : F64, a.val = -(2 ^ 1023) ∧ b.val = 2 ^ 1023 ∧ ∀ x, Uniform.pdf ⟨fin a, fin b⟩ x = zero := by
  obtain ⟨a, b, ha, hb, h1, h2⟩ := wide
  exact ⟨a, b, ha, hb, (C106_uniform_overflow a b h1 h2).1⟩

/-- C106: the mean of a uniform distribution is right to `2^-51` of itself (plus an underflow term), unless the sum
of the ends overflows. Defect: then it is infinite. -/
theorem C106_uniform_mean (a b : F64) :
    (|rnd (a.val + b.val)| < 2 ^ 1024 → ∃ m : F64, Uniform.mean ⟨fin a, fin b⟩ = fin m ∧
      |m.val - (a.val + b.val) / 2| ≤ 2 ^ (-51 : ℤ) * |(a.val + b.val) / 2| + 2 ^ (-1075 : ℤ)) ∧
    (¬|rnd (a.val + b.val)| < 2 ^ 1024 → ∃ s, Uniform.mean ⟨fin a, fin b⟩ = inf s) := by
  obtain ⟨i, i1, i2⟩ := half_fin
  constructor
  · intro h
    obtain ⟨s, s1, s2⟩ := ofQ_fin h
    have hs : |rnd (1 / 2 * s.val)| < 2 ^ 1024 := fin_of_le s (by
      rw [abs_mul, abs_of_pos (by norm_num : (0 : ℚ) < 1 / 2)]
      have := abs_nonneg s.val
      linarith)
    obtain ⟨m, m1, m2⟩ := ofQ_fin hs
    refine ⟨m, ?_, ?_⟩
    · unfold Uniform.mean
      change (ofQ (1 / 2)).mul (ofQ (a.val + b.val)) = _
      rw [i1, s1]
      change ofQ (i.val * s.val) = _
      rw [i2, m1]
    · have f1 := rnd_add a.rep b.rep
      rw [← s2] at f1
      have hu : u = 2 ^ (-53 : ℤ) := rfl
      have hu' : (2 : ℚ) ^ (-51 : ℤ) = 4 * u := by rw [hu]; norm_num
      have hz : (0 : ℚ) < 2 ^ (-1075 : ℤ) := zpos _
      set T := a.val + b.val
      have hT := abs_nonneg T
      have hsT : |s.val| ≤ |T| + u * |T| := by
        have : |s.val| ≤ |T| + |T - s.val| := by
          rw [show s.val = T - (T - s.val) by ring]
          refine (abs_sub _ _).trans (le_of_eq ?_)
          congr 2
          ring
        linarith
      rw [m2, hu', abs_div, abs_of_pos (by norm_num : (0 : ℚ) < 2)]
      have hs2 : |1 / 2 * s.val| = |s.val| / 2 := by rw [abs_mul, abs_of_pos (by norm_num : (0 : ℚ) < 1 / 2)]; ring
      have hT0 : 0 ≤ u * |T| := mul_nonneg u_pos.le hT
      have hT1 : u * |T| ≤ |T| := mul_le_of_le_one_left hT (u_lt.le.trans (by norm_num))
      have f2 : |1 / 2 * s.val - rnd (1 / 2 * s.val)| ≤ u * |T| + 2 ^ (-1075 : ℤ) := by
        rcases rnd_error (1 / 2 * s.val) with g | ⟨-, g⟩
        · rw [hs2] at g
          have : u * (|s.val| / 2) ≤ u * |T| := mul_le_mul_of_nonneg_left (by linarith) u_pos.le
          exact g.trans (this.trans (by linarith))
        · linarith
      have k1 := abs_le.1 f1
      have k2 := abs_le.1 f2
      rw [abs_le]
      constructor <;> linarith [k1.1, k1.2, k2.1, k2.2]
  · intro h
    refine ⟨decide (a.val + b.val < 0), ?_⟩
    unfold Uniform.mean
    change (ofQ (1 / 2)).mul (ofQ (a.val + b.val)) = _
    rw [i1, ofQ_inf h]
    simp [X64.mul, i2]
    norm_num

example : ∃ a b : F64, a.val = 0 ∧ b.val = 1 ∧ ∃ m : F64, Uniform.mean ⟨fin a, fin b⟩ = fin m ∧ |m.val - 1 / 2| ≤ 2 ^ (-50 : ℤ) := by
  obtain ⟨a, b, ha, hb, h⟩ := span_unit
  obtain ⟨m, m1, m2⟩ := (C106_uniform_mean a b).1 (by
    rw [ha, hb, _root_.zero_add, rnd_rep rep_one, abs_one]; exact one_lt_pow₀ (by norm_num) (by norm_num))
  refine ⟨a, b, ha, hb, m, m1, ?_⟩
  rw [ha, hb, _root_.zero_add] at m2
  have h1 : (2 : ℚ) ^ (-1075 : ℤ) ≤ 2 ^ (-51 : ℤ) := (zpow_le_iff _ _).2 (by norm_num)
  refine m2.trans ((add_le_add_right h1 _).trans ?_)
  rw [abs_of_pos (by norm_num)]
  norm_num

/-- The mean of `[2^1023, 2^1023]` is infinite. -/
example : ∃ b : F64, b.val = 2 ^ 1023 ∧ ∃ s, Uniform.mean ⟨fin b, fin b⟩ = inf s := by
  have e1 : (toF64 (2 ^ 1023)).map F64.val = some (2 ^ 1023) := by decide +kernel
  have e3 : ¬|rnd (2 ^ 1023 + 2 ^ 1023)| < 2 ^ 1024 := by decide +kernel
  obtain ⟨b, -, b2⟩ := Option.map_eq_some_iff.1 e1
  exact ⟨b, b2, (C106_uniform_mean b b).2 (by rw [b2]; exact e3)⟩

end Verif.Float.Laws
