import Verif.Float.GreeksTheta
import Verif.Float.BlackScholesExpiry

/-!
# C105: sensitivities on the expiration date
-/

namespace Verif.Float.Bsm

open Real Verif.Float.Sim Verif.Options
open X64

section agree

variable {x : XLibm} {m : Libm}

theorem pdf_agrees (h : x.Extends m) {a c : F64} (hc : pdf m a = some c) : xpdf x (fin a) = fin c := by
  unfold pdf at hc
  simp only [Option.bind_eq_bind, Option.bind_eq_some_iff] at hc
  obtain ⟨i, h1, two, h2, p, h3, q, h4, j, h5, w, h6, s, h7, t, h8, d, h9, mh, h10, dd, h11, y, h12, k, h13, y2, h14, e, h15, h16⟩ := hc
  unfold xpdf
  unfold pi at h3
  rw [ofQ_some h1, ofQ_some h2, ofQ_some h3, mul_some h4]
  rw [h1] at h5 h13
  obtain rfl := Option.some.inj h5
  obtain rfl := Option.some.inj h13
  rw [mul_some h6, h.sqrt _ _ h7, div_some h8, sub_some h9, ofQ_some h10, mul_some h11, mul_some h12, div_some h14, h.exp _ _ h15, mul_some h16]

end agree

/-- C105: where every step is finite, the sensitivities of the two models are the same. -/
theorem C105_extended (x : XLibm) (m : Libm) (h : x.Extends m) (o : Contract) :
    (∀ g, o.gamma m = some g → o.xgamma x = fin g) ∧ (∀ g, o.vega m = some g → o.xvega x = fin g) ∧
    (∀ g, o.theta m = some g → o.xtheta x = fin g) ∧ (∀ g, o.rho m = some g → o.xrho x = fin g) ∧
    (∀ g, o.phi m = some g → o.xphi x = fin g) ∧ (∀ g, o.zeta m = some g → o.xzeta x = fin g) ∧
    (∀ g, o.strikeDelta m = some g → o.xstrikeDelta x = fin g) ∧ (∀ g, o.strikeGamma m = some g → o.xstrikeGamma x = fin g) := by
  refine ⟨?_, ?_, ?_, ?_, ?_, ?_, ?_, ?_⟩
  · intro g hg
    simp only [Contract.gamma, Option.bind_eq_bind, Option.bind_eq_some_iff] at hg
    obtain ⟨z, h1, d, h2, c, h3, p, h4, s, h5, t, h6, w, h7, h8⟩ := hg
    unfold Contract.xgamma
    rw [carry_agrees h h1, d1_agrees h h2, pdf_agrees h h3, mul_some h4, mul_some h5, h.sqrt _ _ h6, mul_some h7, div_some h8]
  · intro g hg
    simp only [Contract.vega, Option.bind_eq_bind, Option.bind_eq_some_iff] at hg
    obtain ⟨z, h1, f, h2, d, h3, c, h4, p, h5, t, h6, h7⟩ := hg
    unfold Contract.xvega
    rw [carry_agrees h h1, mul_some h2, d1_agrees h h3, pdf_agrees h h4, mul_some h5, h.sqrt _ _ h6, mul_some h7]
  · intro g hg
    unfold Contract.theta at hg
    obtain ⟨d1, h1, hg⟩ := Option.bind_eq_some_iff.1 hg
    obtain ⟨d2, h2, hg⟩ := Option.bind_eq_some_iff.1 hg
    obtain ⟨x', h3, hg⟩ := Option.bind_eq_some_iff.1 hg
    obtain ⟨y1, h4, hg⟩ := Option.bind_eq_some_iff.1 hg
    obtain ⟨y2, h5, hg⟩ := Option.bind_eq_some_iff.1 hg
    obtain ⟨z, h6, hg⟩ := Option.bind_eq_some_iff.1 hg
    obtain ⟨y, h7, hg⟩ := Option.bind_eq_some_iff.1 hg
    obtain ⟨z1, h8, hg⟩ := Option.bind_eq_some_iff.1 hg
    obtain ⟨z', h9, hg⟩ := Option.bind_eq_some_iff.1 hg
    obtain ⟨w, h10, h11⟩ := Option.bind_eq_some_iff.1 hg
    have hx : o.xdecay x = fin x' := by
      simp only [Contract.decay, Option.bind_eq_bind, Option.bind_eq_some_iff] at h3
      obtain ⟨z, h1, f, h2, d, h3, c, h4, p, h5, t, h6, two, h7, s, h8, w, h9, h10⟩ := h3
      unfold Contract.xdecay
      rw [neg_fin, carry_agrees h h1, mul_some h2, d1_agrees h h3, pdf_agrees h h4, mul_some h5, mul_some h6, ofQ_some h7, h.sqrt _ _ h8,
        mul_some h9, div_some h10]
    unfold Contract.xtheta
    rw [hx, d1_agrees h h1, d2_agrees h h2, sub_some h4, mul_some h5, carry_agrees h h6, mul_some h7, mul_some h8, discount_agrees h h9,
      mul_some h10]
    cases hf : o.optionType with
    | call =>
      simp only [hf, Option.bind_eq_bind, Option.bind_eq_some_iff] at h11
      obtain ⟨c, e1, p, e2, q, e3, c', e4, r, e5, e6⟩ := h11
      simp only []
      rw [cdf_agrees h e1, mul_some e2, sub_some e3, cdf_agrees h e4, mul_some e5, sub_some e6]
    | put =>
      simp only [hf, Option.bind_eq_bind, Option.bind_eq_some_iff] at h11
      obtain ⟨c, e1, p, e2, q, e3, c', e4, r, e5, e6⟩ := h11
      simp only []
      rw [neg_fin, neg_fin, cdf_agrees h e1, mul_some e2, add_some e3, cdf_agrees h e4, mul_some e5, add_some e6]
  · intro g hg
    simp only [Contract.rho, Option.bind_eq_bind, Option.bind_eq_some_iff] at hg
    obtain ⟨d2, h1, h2⟩ := hg
    unfold Contract.xrho
    rw [d2_agrees h h1]
    cases hf : o.optionType with
    | call =>
      simp only [hf, Option.bind_eq_some_iff] at h2
      obtain ⟨a, e1, z, e2, y, e3, c, e4, e5⟩ := h2
      simp only []
      rw [mul_some e1, discount_agrees h e2, mul_some e3, cdf_agrees h e4, mul_some e5]
    | put =>
      simp only [hf, Option.bind_eq_some_iff] at h2
      obtain ⟨a, e1, z, e2, y, e3, c, e4, e5⟩ := h2
      simp only []
      rw [neg_fin, neg_fin, mul_some e1, discount_agrees h e2, mul_some e3, cdf_agrees h e4, mul_some e5]
  · intro g hg
    simp only [Contract.phi, Option.bind_eq_bind, Option.bind_eq_some_iff] at hg
    obtain ⟨d1, h1, h2⟩ := hg
    unfold Contract.xphi
    rw [d1_agrees h h1]
    cases hf : o.optionType with
    | call =>
      simp only [hf, Option.bind_eq_some_iff] at h2
      obtain ⟨a, e1, z, e2, y, e3, c, e4, e5⟩ := h2
      simp only []
      rw [neg_fin, mul_some e1, carry_agrees h e2, mul_some e3, cdf_agrees h e4, mul_some e5]
    | put =>
      simp only [hf, Option.bind_eq_some_iff] at h2
      obtain ⟨a, e1, z, e2, y, e3, c, e4, e5⟩ := h2
      simp only []
      rw [neg_fin, mul_some e1, carry_agrees h e2, mul_some e3, cdf_agrees h e4, mul_some e5]
  · intro g hg
    simp only [Contract.zeta, Option.bind_eq_bind, Option.bind_eq_some_iff] at hg
    obtain ⟨d2, h1, h2⟩ := hg
    unfold Contract.xzeta
    rw [d2_agrees h h1]
    cases hf : o.optionType with
    | call => simp only [hf] at h2 ⊢; exact cdf_agrees h h2
    | put => simp only [hf] at h2 ⊢; rw [neg_fin]; exact cdf_agrees h h2
  · intro g hg
    simp only [Contract.strikeDelta, Option.bind_eq_bind, Option.bind_eq_some_iff] at hg
    obtain ⟨d2, h1, h2⟩ := hg
    unfold Contract.xstrikeDelta
    rw [d2_agrees h h1]
    cases hf : o.optionType with
    | call =>
      simp only [hf, Option.bind_eq_some_iff] at h2
      obtain ⟨z, e1, c, e2, e3⟩ := h2
      simp only []
      rw [discount_agrees h e1, neg_fin, cdf_agrees h e2, mul_some e3]
    | put =>
      simp only [hf, Option.bind_eq_some_iff] at h2
      obtain ⟨z, e1, c, e2, e3⟩ := h2
      simp only []
      rw [discount_agrees h e1, neg_fin, cdf_agrees h e2, mul_some e3]
  · intro g hg
    simp only [Contract.strikeGamma, Option.bind_eq_bind, Option.bind_eq_some_iff] at hg
    obtain ⟨d, h1, c, h2, z, h3, p, h4, s, h5, t, h6, w, h7, h8⟩ := hg
    unfold Contract.xstrikeGamma
    rw [d2_agrees h h1, pdf_agrees h h2, discount_agrees h h3, mul_some h4, mul_some h5, h.sqrt _ _ h6, mul_some h7, div_some h8]

section expiry

variable {x : XLibm} {o : Contract}

/-- `1 / √(2π)` is a positive number. -/
theorem front_pos (he : x.Ends) : ∃ t : F64, (ofQ 1).div (x.sqrt (((ofQ 2).mul (ofQ 3.14159265358979323846264338327950288)).mul (ofQ 1))) = fin t := by
  have h0 : ∃ a : F64, ((ofQ 2).mul (ofQ 3.14159265358979323846264338327950288)).mul (ofQ 1) = fin a ∧ 6 < a.val ∧ a.val < 7 := by
    have e2 : (toF64 2).map F64.val = some 2 := by decide +kernel
    have e3 : (toF64 3.14159265358979323846264338327950288).map F64.val = some (884279719003555 / 281474976710656) := by decide +kernel
    have e6 : (toF64 (2 * (884279719003555 / 281474976710656))).map F64.val = some (884279719003555 / 140737488355328) := by decide +kernel
    obtain ⟨a, h1, h2⟩ := Option.map_eq_some_iff.1 e2
    obtain ⟨b, h3, h4⟩ := Option.map_eq_some_iff.1 e3
    obtain ⟨c, h5, h6⟩ := Option.map_eq_some_iff.1 e6
    refine ⟨c, ?_, by rw [h6]; norm_num, by rw [h6]; norm_num⟩
    rw [ofQ_some h1, ofQ_some h3]
    have : (fin a).mul (fin b) = fin c := by
      change ofQ (a.val * b.val) = _
      rw [h2, h4]
      exact ofQ_some h5
    rw [this, mul_one_fin]
  obtain ⟨a, h1, h2, h3⟩ := h0
  obtain ⟨r, r1, r2, r3⟩ := he.sqrt_two_pi a h2 h3
  obtain ⟨i, i1, i2⟩ := one_val
  rw [h1, r3, i1]
  have : (fin i).div (fin r) = ofQ (1 / r.val) := by
    simp [X64.div, (show r.val ≠ 0 by linarith), i2]
  rw [this]
  obtain ⟨t, t1, -, -⟩ := ofQ_fin (q := 1 / r.val) 0 (by norm_num) (by
    rw [abs_of_pos (by positivity), pow_zero, div_le_one (by linarith)]; linarith)
  exact ⟨t, t1⟩

theorem pdf_inf (he : x.Ends) (s : Bool) : xpdf x (inf s) = fin F64.zero := by
  obtain ⟨t, ht⟩ := front_pos he
  unfold xpdf
  rw [ht, sub_zero_inf]
  have e1 : (inf s).mul (inf s) = inf false := by cases s <;> rfl
  have em : (toF64 (-1 / 2)).map F64.val = some (-1 / 2) := by decide +kernel
  obtain ⟨b, h3, h4⟩ := Option.map_eq_some_iff.1 em
  obtain ⟨i, i1, i2⟩ := one_val
  have e2 : (ofQ (-1 / 2)).mul (inf false) = inf true := by
    rw [ofQ_some h3]
    simp [X64.mul, h4]
    norm_num
  have e3 : (inf true).div (ofQ 1) = inf true := by
    rw [i1]
    simp [X64.div, i2]
  rw [e1, e2, e3, he.exp_neg_inf, mul_zero_fin]

theorem pdf_nan (he : x.Ends) : xpdf x nan = nan := by
  obtain ⟨t, ht⟩ := front_pos he
  obtain ⟨i, i1, i2⟩ := one_val
  unfold xpdf
  rw [ht]
  have e0 : (nan : X64).sub (fin F64.zero) = nan := by unfold X64.sub; rfl
  have e1 : (ofQ (-1 / 2)).mul (nan.mul nan) = nan := by
    rw [show (nan : X64).mul nan = nan from rfl]
    cases ofQ (-1 / 2) <;> rfl
  rw [e0, e1, show (nan : X64).div (ofQ 1) = nan from rfl, he.exp_nan]
  rfl

theorem inf_mul (y : X64) : (∃ s, (inf false).mul y = inf s) ∨ (inf false).mul y = nan := by
  cases y with
  | fin a =>
    by_cases h : a.val = 0
    · right; simp [X64.mul, h]
    · left; exact ⟨_, by simp [X64.mul, h]; rfl⟩
  | inf s => left; exact ⟨_, rfl⟩
  | nan => right; rfl

/-- `d1` and `d2` on the expiration date are infinite or NaN. -/
theorem d_expiry (hx : x.Special) (h : o.Expiring) : (∃ s, o.xd1 x = inf s ∧ o.xd2 x = inf s) ∨ (o.xd1 x = nan ∧ o.xd2 x = nan) := by
  have hd2 : o.xd2 x = (o.xd1 x).sub (fin F64.zero) := by unfold Contract.xd2; rw [width_zero hx h]
  have hd1 : (∃ s, o.xd1 x = inf s) ∨ o.xd1 x = nan := by
    unfold Contract.xd1
    rw [width_zero hx h, recip_inf]
    exact inf_mul _
  rcases hd1 with ⟨s, hs⟩ | hn
  · exact Or.inl ⟨s, hs, by rw [hd2, hs, sub_zero_inf]⟩
  · refine Or.inr ⟨hn, ?_⟩
    rw [hd2, hn]; rfl

theorem mul_nan (y : X64) : y.mul nan = nan := by cases y <;> rfl

theorem div_nan (y : X64) : y.div nan = nan := by cases y <;> rfl

/-- Zero or NaN. -/
def Null (y : X64) : Prop := y = fin F64.zero ∨ y = nan

theorem mul_null (y : X64) {z : X64} (hz : Null z) : Null (y.mul z) := by
  rcases hz with rfl | rfl
  · cases y with
    | fin a => exact Or.inl (mul_zero_fin a)
    | inf s => right; simp [X64.mul, zero_val]
    | nan => right; rfl
  · exact Or.inr (mul_nan y)

theorem null_mul {z : X64} (hz : Null z) (y : X64) : Null (z.mul y) := by
  rcases hz with rfl | rfl
  · cases y with
    | fin a => exact Or.inl (zero_mul_fin a)
    | inf s => right; simp [X64.mul, zero_val]
    | nan => right; rfl
  · exact Or.inr rfl

theorem null_div {y z : X64} (hy : Null y) (hz : Null z) : y.div z = nan := by
  rcases hy with rfl | rfl
  · rcases hz with rfl | rfl
    · simp [X64.div, zero_val]
    · rfl
  · rcases hz with rfl | rfl <;> rfl

theorem pdf_null (he : x.Ends) (hx : x.Special) (h : o.Expiring) : Null (xpdf x (o.xd1 x)) ∧ Null (xpdf x (o.xd2 x)) := by
  rcases d_expiry hx h with ⟨s, h1, h2⟩ | ⟨h1, h2⟩
  · rw [h1, h2, pdf_inf he]; exact ⟨Or.inl rfl, Or.inl rfl⟩
  · rw [h1, h2, pdf_nan he]; exact ⟨Or.inr rfl, Or.inr rfl⟩

theorem nan_add' (y : X64) : (nan : X64).add y = nan := by cases y <;> rfl

theorem nan_sub' (y : X64) : (nan : X64).sub y = nan := nan_add' _

end expiry

/-- C105 (defect): on the expiration date gamma, theta and `strike_gamma` of every option are NaN. -/
theorem C105_expiry_nan (x : XLibm) (hx : x.Special) (he : x.Ends) (o : Contract) (ho : o.Expiring) :
    o.xgamma x = nan ∧ o.xtheta x = nan ∧ o.xstrikeGamma x = nan := by
  obtain ⟨h1, h2⟩ := pdf_null he hx ho
  have hs : Null (x.sqrt (fin o.T)) := by rw [ho.T, hx.sqrt_zero]; exact Or.inl rfl
  refine ⟨null_div (mul_null _ h1) (mul_null _ hs), ?_, null_div (null_mul h2 _) (mul_null _ hs)⟩
  have hd : o.xdecay x = nan := null_div (null_mul (mul_null _ h1) _) (mul_null _ hs)
  unfold Contract.xtheta
  rw [hd]
  cases o.optionType with
  | call => simp only [nan_sub']
  | put => simp only [nan_add']

/-- C105 (defect): exactly at the money on the expiration date all sensitivities are NaN, also vega, rho and phi, whose limit is zero. -/
theorem C105_expiry_at_money (x : XLibm) (hx : x.Special) (he : x.Ends) (o : Contract) (ho : o.Expiring)
    (h : o.underlyingPrice = o.strikePrice) :
    o.xvega x = nan ∧ o.xrho x = nan ∧ o.xphi x = nan ∧ o.xzeta x = nan ∧ o.xstrikeDelta x = nan := by
  have hK : o.strikePrice.val ≠ 0 := ho.K.ne'
  have hq : (fin o.underlyingPrice).div (fin o.strikePrice) = ofQ 1 := by
    rw [h]
    simp [X64.div, hK]
  have hd1 : o.xd1 x = nan := by
    unfold Contract.xd1
    rw [width_zero hx ho, recip_inf, hq, hx.ln_one, drift_zero ho, add_zero_fin]
    simp [X64.mul, zero_val]
  have hd2 : o.xd2 x = nan := by
    unfold Contract.xd2 X64.sub
    rw [hd1]; rfl
  have hn : (nan : X64).neg = nan := rfl
  refine ⟨?_, ?_, ?_, ?_, ?_⟩
  · unfold Contract.xvega
    rw [hd1, pdf_nan he, mul_nan]; rfl
  · unfold Contract.xrho
    rw [hd2, hn, cdf_nan hx]
    cases o.optionType <;> exact mul_nan _
  · unfold Contract.xphi
    rw [hd1, hn, cdf_nan hx]
    cases o.optionType <;> exact mul_nan _
  · unfold Contract.xzeta
    rw [hd2, hn, cdf_nan hx]
    cases o.optionType <;> rfl
  · unfold Contract.xstrikeDelta
    rw [hd2, hn, cdf_nan hx]
    cases o.optionType <;> exact mul_nan _

section away

variable {x : XLibm} {o : Contract}

theorem d_above (hx : x.Special) (ho : o.Expiring) (h1 : (1 + 2 ^ (-52 : ℤ)) * o.strikePrice.val ≤ o.underlyingPrice.val)
    (h2 : o.underlyingPrice.val ≤ 2 ^ 1000 * o.strikePrice.val) : o.xd1 x = inf false ∧ o.xd2 x = inf false := by
  have hK := ho.K
  have hq0 : 0 < o.underlyingPrice.val / o.strikePrice.val := div_pos ho.S hK
  have hdiv : (fin o.underlyingPrice).div (fin o.strikePrice) = ofQ (o.underlyingPrice.val / o.strikePrice.val) := by
    simp [X64.div, hK.ne']
  obtain ⟨q, e1, e2, -⟩ := ofQ_fin (q := o.underlyingPrice.val / o.strikePrice.val) 1000 (by norm_num) (by
    rw [abs_of_pos hq0, div_le_iff₀ hK]; exact h2)
  have e3 : 1 < q.val := by
    rw [e2]
    have hr : Rep (1 + 2 ^ (-52 : ℤ) : ℚ) := ⟨2 ^ 52 + 1, -52, by norm_num, by norm_num, by norm_num⟩
    have := rnd_mono (show (1 + 2 ^ (-52 : ℤ) : ℚ) ≤ o.underlyingPrice.val / o.strikePrice.val by rw [le_div_iff₀ hK]; exact h1)
    rw [rnd_rep hr] at this
    refine lt_of_lt_of_le ?_ this
    norm_num
  obtain ⟨l, l1, l2⟩ := hx.ln_pos q e3
  have hd1 : o.xd1 x = inf false := by
    unfold Contract.xd1
    rw [width_zero hx ho, recip_inf, hdiv, e1, l2, drift_zero ho, add_zero_fin]
    simp [X64.mul, l1.ne', not_lt.2 l1.le]
  refine ⟨hd1, ?_⟩
  unfold Contract.xd2
  rw [hd1, width_zero hx ho, sub_zero_inf]

theorem d_below (hx : x.Special) (ho : o.Expiring) (h1 : 2 ^ (-1000 : ℤ) * o.strikePrice.val ≤ o.underlyingPrice.val)
    (h2 : o.underlyingPrice.val ≤ (1 - 2 ^ (-53 : ℤ)) * o.strikePrice.val) : o.xd1 x = inf true ∧ o.xd2 x = inf true := by
  have hK := ho.K
  have hq0 : 0 < o.underlyingPrice.val / o.strikePrice.val := div_pos ho.S hK
  have hdiv : (fin o.underlyingPrice).div (fin o.strikePrice) = ofQ (o.underlyingPrice.val / o.strikePrice.val) := by
    simp [X64.div, hK.ne']
  obtain ⟨q, e1, e2, -⟩ := ofQ_fin (q := o.underlyingPrice.val / o.strikePrice.val) 0 (by norm_num) (by
    rw [abs_of_pos hq0, div_le_iff₀ hK, pow_zero, one_mul]
    refine h2.trans ?_
    norm_num
    linarith)
  have hr : Rep (1 - 2 ^ (-53 : ℤ) : ℚ) := ⟨2 ^ 53 - 1, -53, by norm_num, by norm_num, by norm_num⟩
  have e3 : q.val < 1 := by
    rw [e2]
    have := rnd_mono (show o.underlyingPrice.val / o.strikePrice.val ≤ (1 - 2 ^ (-53 : ℤ) : ℚ) by rw [div_le_iff₀ hK]; exact h2)
    rw [rnd_rep hr] at this
    refine lt_of_le_of_lt this ?_
    norm_num
  have e4 : 0 < q.val := by
    rw [e2]
    have hr' : Rep (2 ^ (-1000 : ℤ) : ℚ) := ⟨1, -1000, by norm_num, by norm_num, by norm_num⟩
    have := rnd_mono (show (2 ^ (-1000 : ℤ) : ℚ) ≤ o.underlyingPrice.val / o.strikePrice.val by rw [le_div_iff₀ hK]; exact h1)
    rw [rnd_rep hr'] at this
    exact lt_of_lt_of_le (by positivity) this
  obtain ⟨l, l1, l2⟩ := hx.ln_neg q e4 e3
  have hd1 : o.xd1 x = inf true := by
    unfold Contract.xd1
    rw [width_zero hx ho, recip_inf, hdiv, e1, l2, drift_zero ho, add_zero_fin]
    simp [X64.mul, l1.ne, l1]
  refine ⟨hd1, ?_⟩
  unfold Contract.xd2
  rw [hd1, width_zero hx ho, sub_zero_inf]

theorem neg_zero_fin : neg F64.zero = F64.zero := by
  unfold neg
  congr 1

/-- The three sensitivities with a factor that vanishes, when `d1` is infinite. -/
theorem vanish (hx : x.Special) (he : x.Ends) (ho : o.Expiring) {s : Bool} (h1 : o.xd1 x = inf s) (h2 : o.xd2 x = inf s) :
    o.xvega x = fin F64.zero ∧ o.xrho x = fin F64.zero ∧ o.xphi x = fin F64.zero := by
  have hc : ∀ t : Bool, ∃ c : F64, xcdf x (inf t) = fin c := by
    intro t
    obtain ⟨i, i1, -⟩ := one_val
    cases t with
    | false => exact ⟨i, by rw [cdf_inf hx, i1]⟩
    | true => exact ⟨_, cdf_neg_inf hx⟩
  refine ⟨?_, ?_, ?_⟩
  · unfold Contract.xvega
    rw [h1, pdf_inf he, carry_one hx ho, mul_one_fin, mul_zero_fin, ho.T, hx.sqrt_zero, mul_zero_fin]
  · unfold Contract.xrho
    rw [h2, discount_one hx ho, ho.T, neg_fin, mul_zero_fin, mul_zero_fin, show (inf s).neg = inf (!s) from rfl]
    obtain ⟨c, hc1⟩ := hc s
    obtain ⟨c', hc2⟩ := hc (!s)
    cases o.optionType with
    | call => simp only []; rw [hc1, mul_one_fin, zero_mul_fin]
    | put => simp only []; rw [hc2, mul_one_fin, zero_mul_fin]
  · unfold Contract.xphi
    rw [h1, carry_one hx ho, ho.T, neg_fin, neg_zero_fin, zero_mul_fin, show (inf s).neg = inf (!s) from rfl]
    obtain ⟨c, hc1⟩ := hc s
    obtain ⟨c', hc2⟩ := hc (!s)
    cases o.optionType with
    | call => simp only []; rw [hc1, mul_one_fin, zero_mul_fin]
    | put => simp only []; rw [hc2, mul_one_fin, zero_mul_fin]

end away

/-- C105: away from the money (by `2^-52`, up to a factor of `2^1000`), vega, rho and phi on the expiration date are zero, `zeta` is 1 or 0 as
the option ends in the money or not, and `strike_delta` is that times the sign. -/
theorem C105_expiry_away (x : XLibm) (hx : x.Special) (he : x.Ends) (o : Contract) (ho : o.Expiring) :
    ((1 + 2 ^ (-52 : ℤ)) * o.strikePrice.val ≤ o.underlyingPrice.val → o.underlyingPrice.val ≤ 2 ^ 1000 * o.strikePrice.val →
      o.xvega x = fin F64.zero ∧ o.xrho x = fin F64.zero ∧ o.xphi x = fin F64.zero ∧
      (o.optionType = .call → o.xzeta x = ofQ 1 ∧ o.xstrikeDelta x = ofQ (-1)) ∧
      (o.optionType = .put → o.xzeta x = fin F64.zero ∧ o.xstrikeDelta x = fin F64.zero)) ∧
    (2 ^ (-1000 : ℤ) * o.strikePrice.val ≤ o.underlyingPrice.val → o.underlyingPrice.val ≤ (1 - 2 ^ (-53 : ℤ)) * o.strikePrice.val →
      o.xvega x = fin F64.zero ∧ o.xrho x = fin F64.zero ∧ o.xphi x = fin F64.zero ∧
      (o.optionType = .call → o.xzeta x = fin F64.zero ∧ o.xstrikeDelta x = fin F64.zero) ∧
      (o.optionType = .put → o.xzeta x = ofQ 1 ∧ o.xstrikeDelta x = ofQ 1)) := by
  obtain ⟨i, i1, i2⟩ := one_val
  constructor
  · intro h1 h2
    obtain ⟨e1, e2⟩ := d_above hx ho h1 h2
    obtain ⟨v1, v2, v3⟩ := vanish hx he ho e1 e2
    refine ⟨v1, v2, v3, fun hf => ⟨?_, ?_⟩, fun hf => ⟨?_, ?_⟩⟩
    · unfold Contract.xzeta
      rw [hf, e2]; exact cdf_inf hx
    · unfold Contract.xstrikeDelta
      rw [hf, e2, discount_one hx ho]
      simp only []
      rw [cdf_inf hx, i1, neg_fin, ← i1, mul_one_fin, ← neg_fin]
      change ofQ (-i.val) = _
      rw [i2]
    · unfold Contract.xzeta
      rw [hf, e2]; exact cdf_neg_inf hx
    · unfold Contract.xstrikeDelta
      rw [hf, e2, discount_one hx ho]
      simp only []
      rw [show (inf false).neg = inf true from rfl, cdf_neg_inf hx, i1, mul_zero_fin]
  · intro h1 h2
    obtain ⟨e1, e2⟩ := d_below hx ho h1 h2
    obtain ⟨v1, v2, v3⟩ := vanish hx he ho e1 e2
    refine ⟨v1, v2, v3, fun hf => ⟨?_, ?_⟩, fun hf => ⟨?_, ?_⟩⟩
    · unfold Contract.xzeta
      rw [hf, e2]; exact cdf_neg_inf hx
    · unfold Contract.xstrikeDelta
      rw [hf, e2, discount_one hx ho]
      simp only []
      rw [cdf_neg_inf hx, i1, neg_fin, mul_zero_fin]
    · unfold Contract.xzeta
      rw [hf, e2]; exact cdf_inf hx
    · unfold Contract.xstrikeDelta
      rw [hf, e2, discount_one hx ho]
      simp only []
      rw [show (inf true).neg = inf false from rfl, cdf_inf hx]
      nth_rw 1 [i1]
      rw [mul_one_fin, i1]

/-- The same contract with a library that calls `someLibm` on numbers: the values computed are those of the theorems on errors. -/
example : ∃ g, someContract.xvega ⟨carryOn someLibm.exp, carryOn someLibm.ln, carryOn someLibm.sqrt, carryOn someLibm.erfc⟩ = fin g ∧
    someContract.vega someLibm = some g := by
  obtain ⟨g, h1, -⟩ := C105_vega_error someLibm _ some_lower some_upper someLibm_accurate someLibm_tail someContract someContract_ordinary
    someContract_fine
  refine ⟨g, (C105_extended _ someLibm ⟨?_, ?_, ?_, ?_⟩ someContract).2.1 g h1, h1⟩ <;> intro a r h <;> simp [carryOn, h]

/-- `crude` with a square root that is right between 6 and 7. -/
def crudeEnds : XLibm where
  exp := crude.exp
  ln := crude.ln
  sqrt x := match x with
    | fin a => if 6 < a.val ∧ a.val < 7 then ofQ (5 / 2) else fin a
    | y => y
  erfc := crude.erfc

theorem crudeEnds_special : crudeEnds.Special := by
  obtain ⟨a, b, c, d, e, f, g, h, i⟩ := crude_special
  refine ⟨a, b, c, d, ?_, ?_, g, h, i⟩
  · have : ¬(6 < F64.zero.val ∧ F64.zero.val < 7) := by rw [zero_val]; norm_num
    simp [crudeEnds, this]
  · obtain ⟨u, h1, h2⟩ := one_val
    have : ¬(6 < u.val ∧ u.val < 7) := by rw [h2]; norm_num
    rw [h1]
    simp [crudeEnds, this]

theorem crudeEnds_ends : crudeEnds.Ends := by
  refine ⟨rfl, rfl, fun a h1 h2 => ?_⟩
  have e1 : (toF64 (5 / 2)).map F64.val = some (5 / 2) := by decide +kernel
  obtain ⟨r, e2, e3⟩ := Option.map_eq_some_iff.1 e1
  exact ⟨r, by rw [e3]; norm_num, by rw [e3]; norm_num, by simp [crudeEnds, h1, h2, ofQ_some e2]⟩

/-- Options at 100 struck at 90, on the expiration date: theta is NaN. -/
example (t : TypeFlag) : Contract.xtheta crudeEnds ⟨lit (1 / 16), lit 100, lit 90, lit (1 / 4), lit (1 / 16), F64.zero, t⟩ = nan :=
  (C105_expiry_nan crudeEnds crudeEnds_special crudeEnds_ends _ (expiring _ _ (by decide +kernel) (by decide +kernel) t)).2.1

/-- Struck at 100: rho is NaN. -/
example (t : TypeFlag) : Contract.xrho crudeEnds ⟨lit (1 / 16), lit 100, lit 100, lit (1 / 4), lit (1 / 16), F64.zero, t⟩ = nan :=
  (C105_expiry_at_money crudeEnds crudeEnds_special crudeEnds_ends _ (expiring _ _ (by decide +kernel) (by decide +kernel) t) rfl).2.1

/-- Struck at 90: a call is in the money for sure. -/
example : Contract.xzeta crudeEnds ⟨lit (1 / 16), lit 100, lit 90, lit (1 / 4), lit (1 / 16), F64.zero, .call⟩ = ofQ 1 := by
  have h1 : (lit 100).val = 100 := by decide +kernel
  have h2 : (lit 90).val = 90 := by decide +kernel
  exact (((C105_expiry_away crudeEnds crudeEnds_special crudeEnds_ends ⟨lit (1 / 16), lit 100, lit 90, lit (1 / 4), lit (1 / 16), F64.zero, .call⟩
    (expiring _ _ (by decide +kernel) (by decide +kernel) .call)).1
    (by simp only [h1, h2]; norm_num)
    (by
      simp only [h1, h2]
      have : (1 : ℚ) ≤ 2 ^ 998 := one_le_pow₀ (by norm_num)
      rw [show (2 : ℚ) ^ 1000 = 2 ^ 998 * 4 by rw [show (1000 : ℕ) = 998 + 2 by norm_num, pow_add]; norm_num]
      generalize (2 : ℚ) ^ 998 = t at this ⊢
      linarith)).2.2.2.1 rfl).1

end Verif.Float.Bsm
