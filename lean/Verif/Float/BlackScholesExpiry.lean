import Verif.Float.BlackScholesExtended
import Verif.Float.BlackScholesProps

/-!
# C98: Black-Scholes-Merton prices on the expiration date
-/

namespace Verif.Float.Bsm

open Real Verif.Float.Sim Verif.Options X64
open Verif.Float.Fft (ur mu top rnd_real toF64_total ur_pos mu_pos)

section agree

variable {x : XLibm} {m : Libm}

theorem ofQ_some {q : ℚ} {r : F64} (h : toF64 q = some r) : ofQ q = fin r := by unfold ofQ; rw [h]

theorem add_some {a b r : F64} (h : a.add b = some r) : (fin a).add (fin b) = fin r := ofQ_some h

theorem mul_some {a b r : F64} (h : a.mul b = some r) : (fin a).mul (fin b) = fin r := ofQ_some h

theorem neg_fin (a : F64) : (fin a).neg = fin (neg a) := ofQ_some (toF64_val (neg a))

theorem sub_some {a b r : F64} (h : a.sub b = some r) : (fin a).sub (fin b) = fin r := by
  unfold X64.sub
  rw [neg_fin]
  refine add_some (b := neg b) ?_
  have : a.val + (neg b).val = a.val - b.val := by unfold neg; ring
  unfold F64.add
  rw [this]
  exact h

theorem div_some {a b r : F64} (h : a.div b = some r) : (fin a).div (fin b) = fin r := by
  unfold F64.div at h
  by_cases hb : b.val = 0
  · rw [if_pos hb] at h; exact absurd h (by simp)
  · rw [if_neg hb] at h
    unfold X64.div
    simp only [if_neg hb]
    exact ofQ_some h

theorem cdf_agrees (h : x.Extends m) {a c : F64} (hc : cdf m a = some c) : xcdf x (fin a) = fin c := by
  unfold cdf at hc
  simp only [Option.bind_eq_bind, Option.bind_eq_some_iff] at hc
  obtain ⟨d, h1, s2, h2, o, h3, s, h4, p, h5, q, h6, hf, h7, e, h8, h9⟩ := hc
  unfold xcdf
  rw [sub_some h1, neg_fin, ofQ_some h2, ofQ_some h3, h.sqrt _ _ h4, mul_some h5, div_some h6, ofQ_some h7, h.erfc _ _ h8, mul_some h9]

theorem width_agrees (h : x.Extends m) {o : Contract} {w : F64} (hw : o.width m = some w) : o.xwidth x = fin w := by
  unfold Contract.width at hw
  simp only [Option.bind_eq_bind, Option.bind_eq_some_iff] at hw
  obtain ⟨s, h1, h2⟩ := hw
  unfold Contract.xwidth
  rw [h.sqrt _ _ h1, mul_some h2]

theorem d1_agrees (h : x.Extends m) {o : Contract} {d : F64} (hd : o.d1 m = some d) : o.xd1 x = fin d := by
  unfold Contract.d1 at hd
  simp only [Option.bind_eq_bind, Option.bind_eq_some_iff] at hd
  obtain ⟨one, h1, w, h2, i, h3, q, h4, l, h5, half, h6, vv, h7, hv, h8, s, h9, g, h10, a, h11, h12⟩ := hd
  unfold Contract.xd1
  rw [ofQ_some h1, width_agrees h h2, div_some h3, div_some h4, h.ln _ _ h5, mul_some h7, ofQ_some h6, mul_some h8, add_some h9, mul_some h10,
    add_some h11, mul_some h12]

theorem d2_agrees (h : x.Extends m) {o : Contract} {d : F64} (hd : o.d2 m = some d) : o.xd2 x = fin d := by
  unfold Contract.d2 at hd
  simp only [Option.bind_eq_bind, Option.bind_eq_some_iff] at hd
  obtain ⟨a, h1, w, h2, h3⟩ := hd
  unfold Contract.xd2
  rw [d1_agrees h h1, width_agrees h h2, sub_some h3]

theorem carry_agrees (h : x.Extends m) {o : Contract} {d : F64} (hd : o.carry m = some d) : o.xcarry x = fin d := by
  unfold Contract.carry at hd
  simp only [Option.bind_eq_bind, Option.bind_eq_some_iff] at hd
  obtain ⟨a, h1, w, h2, h3⟩ := hd
  unfold Contract.xcarry
  rw [sub_some h1, mul_some h2, h.exp _ _ h3]

theorem discount_agrees (h : x.Extends m) {o : Contract} {d : F64} (hd : o.discount m = some d) : o.xdiscount x = fin d := by
  unfold Contract.discount at hd
  simp only [Option.bind_eq_bind, Option.bind_eq_some_iff] at hd
  obtain ⟨a, h1, h2⟩ := hd
  unfold Contract.xdiscount
  rw [neg_fin, mul_some h1, h.exp _ _ h2]

end agree

/-- C98: carrying infinities and NaN on changes nothing where no step gives one. -/
theorem C98_extended (x : XLibm) (m : Libm) (h : x.Extends m) (o : Contract) :
    (∀ p, o.price m = some p → o.xprice x = fin p) ∧ (∀ d, o.delta m = some d → o.xdelta x = fin d) := by
  constructor
  · intro p hp
    unfold Contract.price at hp
    unfold Contract.xprice
    simp only [Option.bind_eq_bind, Option.bind_eq_some_iff] at hp
    obtain ⟨d1, h1, d2, h2, hp⟩ := hp
    cases ht : o.optionType with
    | call =>
      simp only [ht, Option.bind_eq_bind, Option.bind_eq_some_iff] at hp
      obtain ⟨c, h3, f, h4, n, h5, y, h6, c', h7, f', h8, n', h9, y', h10, h11⟩ := hp
      simp only []
      rw [carry_agrees h h3, mul_some h4, d1_agrees h h1, cdf_agrees h h5, mul_some h6, discount_agrees h h7, mul_some h8, d2_agrees h h2,
        cdf_agrees h h9, mul_some h10, sub_some h11]
    | put =>
      simp only [ht, Option.bind_eq_bind, Option.bind_eq_some_iff] at hp
      obtain ⟨c, h3, f, h4, n, h5, y, h6, c', h7, f', h8, n', h9, y', h10, h11⟩ := hp
      simp only []
      rw [neg_fin, carry_agrees h h3, mul_some h4, d1_agrees h h1, neg_fin, cdf_agrees h h5, mul_some h6, discount_agrees h h7, mul_some h8,
        d2_agrees h h2, neg_fin, cdf_agrees h h9, mul_some h10, add_some h11]
  · intro p hp
    unfold Contract.delta at hp
    unfold Contract.xdelta
    simp only [Option.bind_eq_bind, Option.bind_eq_some_iff] at hp
    obtain ⟨d1, h1, hp⟩ := hp
    cases ht : o.optionType with
    | call =>
      simp only [ht, Option.bind_eq_bind, Option.bind_eq_some_iff] at hp
      obtain ⟨c, h3, n, h5, h6⟩ := hp
      simp only []
      rw [carry_agrees h h3, d1_agrees h h1, cdf_agrees h h5, mul_some h6]
    | put =>
      simp only [ht, Option.bind_eq_bind, Option.bind_eq_some_iff] at hp
      obtain ⟨c, h3, n, h5, u, h6, w, h7, h8⟩ := hp
      simp only []
      rw [carry_agrees h h3, d1_agrees h h1, cdf_agrees h h5, ofQ_some h6, sub_some h7, mul_some h8]

/-! ### The expiration date -/

section expiry

variable {x : XLibm} {o : Contract}

theorem zero_val : F64.zero.val = 0 := rfl

theorem ofQ_zero : ofQ 0 = fin F64.zero := ofQ_some (toF64_val F64.zero)

theorem mul_zero_fin (a : F64) : (fin a).mul (fin F64.zero) = fin F64.zero := by
  change ofQ (a.val * 0) = _
  rw [mul_zero, ofQ_zero]

theorem zero_mul_fin (a : F64) : (fin F64.zero).mul (fin a) = fin F64.zero := by
  change ofQ (0 * a.val) = _
  rw [zero_mul, ofQ_zero]

theorem add_zero_fin (a : F64) : (fin a).add (fin F64.zero) = fin a := by
  change ofQ (a.val + 0) = _
  rw [_root_.add_zero]
  exact ofQ_some (toF64_val a)

theorem one_val : ∃ a : F64, ofQ 1 = fin a ∧ a.val = 1 := by
  have : (toF64 1).isSome = true := by decide +kernel
  obtain ⟨a, ha⟩ := Option.isSome_iff_exists.1 this
  have hv : (toF64 1).map F64.val = some 1 := by decide +kernel
  rw [ha] at hv
  exact ⟨a, ofQ_some ha, Option.some.inj hv⟩

theorem mul_one_fin (a : F64) : (fin a).mul (ofQ 1) = fin a := by
  obtain ⟨i, h1, h2⟩ := one_val
  rw [h1]
  change ofQ (a.val * i.val) = _
  rw [h2, mul_one]
  exact ofQ_some (toF64_val a)

theorem ofQ_fin {q : ℚ} (k : ℕ) (hk : k ≤ 1023) (h : |q| ≤ 2 ^ k) : ∃ r : F64, ofQ q = fin r ∧ r.val = rnd q ∧ |r.val| ≤ 2 ^ k := by
  have hr : Rep ((2 : ℚ) ^ k) := ⟨1, k, by simp, by norm_num, by omega⟩
  have h1 := abs_le.1 h
  have h2 : |rnd q| ≤ 2 ^ k := by
    rw [abs_le]
    have e1 := rnd_mono h1.1
    have e2 := rnd_mono h1.2
    rw [rnd_rep (rep_neg hr)] at e1
    rw [rnd_rep hr] at e2
    exact ⟨e1, e2⟩
  obtain ⟨r, h3, h4⟩ := toF64_isSome (x := q) (lt_of_le_of_lt h2 (pow_lt_pow_right₀ (by norm_num) (by omega)))
  exact ⟨r, ofQ_some h3, h4, by rw [h4]; exact h2⟩

/-- The drift term vanishes. -/
theorem drift_zero (h : o.Expiring) :
    ((fin o.costOfCarry).add ((ofQ (1 / 2)).mul ((fin o.volatility).mul (fin o.volatility)))).mul (fin o.T) = fin F64.zero := by
  have hv : |o.volatility.val| ≤ 2 ^ 500 := by rw [abs_of_pos h.v.1]; exact h.v.2
  obtain ⟨vv, e1, -, e2⟩ := ofQ_fin (q := o.volatility.val * o.volatility.val) 1000 (by norm_num) (by
    rw [abs_mul, show (2 : ℚ) ^ 1000 = 2 ^ 500 * 2 ^ 500 by rw [← pow_add]]
    exact mul_le_mul hv hv (abs_nonneg _) (by positivity))
  obtain ⟨half, h1, h2⟩ : ∃ a : F64, ofQ (1 / 2) = fin a ∧ a.val = 1 / 2 := by
    have : (toF64 (1 / 2)).isSome = true := by decide +kernel
    obtain ⟨a, ha⟩ := Option.isSome_iff_exists.1 this
    have hv : (toF64 (1 / 2)).map F64.val = some (1 / 2) := by decide +kernel
    rw [ha] at hv
    exact ⟨a, ofQ_some ha, Option.some.inj hv⟩
  obtain ⟨hv', e3, -, e4⟩ := ofQ_fin (q := half.val * vv.val) 1000 (by norm_num) (by
    rw [abs_mul, h2]
    refine le_trans ?_ e2
    have := abs_nonneg vv.val
    rw [abs_of_pos (by norm_num : (0 : ℚ) < 1 / 2)]
    linarith)
  obtain ⟨s, e5, -, -⟩ := ofQ_fin (q := o.costOfCarry.val + hv'.val) 1001 (by norm_num) (by
    refine (abs_add_le _ _).trans ?_
    have : (2 : ℚ) ^ 500 ≤ 2 ^ 1000 := pow_le_pow_right₀ (by norm_num) (by norm_num)
    rw [pow_succ, mul_two]
    exact _root_.add_le_add (h.b.trans this) e4)
  have f1 : (fin o.volatility).mul (fin o.volatility) = fin vv := e1
  have f2 : (fin half).mul (fin vv) = fin hv' := e3
  have f3 : (fin o.costOfCarry).add (fin hv') = fin s := e5
  rw [f1, h1, f2, f3, h.T, mul_zero_fin]

theorem width_zero (hx : x.Special) (h : o.Expiring) : o.xwidth x = fin F64.zero := by
  unfold Contract.xwidth
  rw [h.T, hx.sqrt_zero, mul_zero_fin]

theorem recip_inf : (ofQ 1).div (fin F64.zero) = inf false := by
  obtain ⟨i, h1, h2⟩ := one_val
  rw [h1]
  simp [X64.div, zero_val, h2]

theorem carry_one (hx : x.Special) (h : o.Expiring) : o.xcarry x = ofQ 1 := by
  unfold Contract.xcarry
  obtain ⟨s, e5, -, -⟩ := ofQ_fin (q := o.costOfCarry.val + (neg o.riskFreeRate).val) 501 (by norm_num) (by
    refine (abs_add_le _ _).trans ?_
    rw [pow_succ, mul_two]
    refine _root_.add_le_add h.b ?_
    change |-o.riskFreeRate.val| ≤ _
    rw [abs_neg]; exact h.r)
  have f : (fin o.costOfCarry).sub (fin o.riskFreeRate) = fin s := by
    unfold X64.sub
    rw [neg_fin]; exact e5
  rw [f, h.T, mul_zero_fin, hx.exp_zero]

theorem discount_one (hx : x.Special) (h : o.Expiring) : o.xdiscount x = ofQ 1 := by
  unfold Contract.xdiscount
  rw [neg_fin, h.T, mul_zero_fin, hx.exp_zero]

/-- The denominator `√2 * √1` is a positive number. -/
theorem den_pos (hx : x.Special) :
    ∃ d : F64, (ofQ 1.41421356237309504880168872420969808).mul (x.sqrt (ofQ 1)) = fin d ∧ 0 < d.val := by
  have : (sqrt2).isSome = true := by decide +kernel
  obtain ⟨a, ha⟩ := Option.isSome_iff_exists.1 this
  have hv : sqrt2.map F64.val = some (6369051672525773 / 4503599627370496) := by decide +kernel
  rw [ha] at hv
  refine ⟨a, ?_, by rw [Option.some.inj hv]; norm_num⟩
  rw [hx.sqrt_one, ofQ_some (show toF64 _ = some a from ha), mul_one_fin]

theorem cdf_nan (hx : x.Special) : xcdf x nan = nan := by
  obtain ⟨d, h1, -⟩ := den_pos hx
  unfold xcdf
  rw [h1]
  have : ((nan.sub (fin F64.zero)).neg.div (fin d)) = nan := by
    unfold X64.sub
    rw [neg_fin]; rfl
  rw [this, hx.erfc_nan]
  cases ofQ (1 / 2) <;> rfl

theorem cdf_inf (hx : x.Special) : xcdf x (inf false) = ofQ 1 := by
  obtain ⟨d, h1, h2⟩ := den_pos hx
  unfold xcdf
  rw [h1]
  have : (((inf false).sub (fin F64.zero)).neg.div (fin d)) = inf true := by
    unfold X64.sub
    rw [neg_fin]
    simp [X64.add, X64.neg, X64.div, not_lt.2 h2.le]
  rw [this, hx.erfc_neg_inf]
  have e1 : (toF64 (1 / 2)).map F64.val = some (1 / 2) := by decide +kernel
  have e2 : (toF64 2).map F64.val = some 2 := by decide +kernel
  obtain ⟨a, ha, ha'⟩ := Option.map_eq_some_iff.1 e1
  obtain ⟨b, hb, hb'⟩ := Option.map_eq_some_iff.1 e2
  rw [ofQ_some ha, ofQ_some hb]
  change ofQ (a.val * b.val) = _
  rw [ha', hb']
  norm_num

theorem cdf_neg_inf (hx : x.Special) : xcdf x (inf true) = fin F64.zero := by
  obtain ⟨d, h1, h2⟩ := den_pos hx
  unfold xcdf
  rw [h1]
  have : (((inf true).sub (fin F64.zero)).neg.div (fin d)) = inf false := by
    unfold X64.sub
    rw [neg_fin]
    simp [X64.add, X64.neg, X64.div, not_lt.2 h2.le]
  rw [this, hx.erfc_inf]
  have e1 : (toF64 (1 / 2)).map F64.val = some (1 / 2) := by decide +kernel
  obtain ⟨a, ha, ha'⟩ := Option.map_eq_some_iff.1 e1
  rw [ofQ_some ha, mul_zero_fin]

theorem sub_zero_inf (s : Bool) : (inf s).sub (fin F64.zero) = inf s := by
  unfold X64.sub
  rw [neg_fin]; rfl

end expiry

/-- C98 (defect): the price, and delta, of an option that is exactly at the money on its expiration date is NaN. Its value is zero. -/
theorem C98_expiry_nan (x : XLibm) (hx : x.Special) (o : Contract) (ho : o.Expiring) (h : o.underlyingPrice = o.strikePrice) :
    o.xprice x = nan ∧ o.xdelta x = nan := by
  have hK : o.strikePrice.val ≠ 0 := ho.K.ne'
  have hq : (fin o.underlyingPrice).div (fin o.strikePrice) = ofQ 1 := by
    rw [h]
    simp [X64.div, hK]
  have hd1 : o.xd1 x = nan := by
    unfold Contract.xd1
    rw [width_zero hx ho, recip_inf, hq, hx.ln_one, drift_zero ho, add_zero_fin]
    simp [X64.mul, zero_val]
  have hd2 : o.xd2 x = nan := by
    unfold Contract.xd2 X64.sub
    rw [hd1]; rfl
  obtain ⟨i, h1, h2⟩ := one_val
  have hS : (fin o.underlyingPrice).mul (ofQ 1) = fin o.underlyingPrice := mul_one_fin _
  constructor
  · unfold Contract.xprice
    rw [hd1, hd2, carry_one hx ho, discount_one hx ho]
    cases o.optionType with
    | call => simp only []; rw [cdf_nan hx, hS]; rfl
    | put =>
      simp only []
      rw [show nan.neg = nan from rfl, cdf_nan hx, neg_fin, mul_one_fin]; rfl
  · unfold Contract.xdelta
    rw [hd1, carry_one hx ho, h1]
    cases o.optionType with
    | call => simp only []; rw [cdf_nan hx]; rfl
    | put => simp only []; rw [cdf_nan hx]; rfl

/-- C98: away from the money (by `2^-52`, up to a factor of `2^1000`) the price on the expiration date is the payoff, rounded. -/
theorem C98_expiry_payoff (x : XLibm) (hx : x.Special) (o : Contract) (ho : o.Expiring) :
    ((1 + 2 ^ (-52 : ℤ)) * o.strikePrice.val ≤ o.underlyingPrice.val → o.underlyingPrice.val ≤ 2 ^ 1000 * o.strikePrice.val →
      o.xprice x = match o.optionType with
        | .call => ofQ (o.underlyingPrice.val - o.strikePrice.val)
        | .put => fin F64.zero) ∧
    (2 ^ (-1000 : ℤ) * o.strikePrice.val ≤ o.underlyingPrice.val → o.underlyingPrice.val ≤ (1 - 2 ^ (-53 : ℤ)) * o.strikePrice.val →
      o.xprice x = match o.optionType with
        | .call => fin F64.zero
        | .put => ofQ (o.strikePrice.val - o.underlyingPrice.val)) := by
  have hK := ho.K
  have hS := ho.S
  have hq0 : 0 < o.underlyingPrice.val / o.strikePrice.val := div_pos hS hK
  have hdiv : (fin o.underlyingPrice).div (fin o.strikePrice) = ofQ (o.underlyingPrice.val / o.strikePrice.val) := by
    simp [X64.div, hK.ne']
  constructor
  · intro h1 h2
    obtain ⟨q, e1, e2, -⟩ := ofQ_fin (q := o.underlyingPrice.val / o.strikePrice.val) 1000 (by norm_num) (by
      rw [abs_of_pos hq0, div_le_iff₀ hK]; exact h2)
    have e3 : 1 < q.val := by
      rw [e2]
      have hr : Rep (1 + 2 ^ (-52 : ℤ) : ℚ) := ⟨2 ^ 52 + 1, -52, by norm_num, by norm_num, by norm_num⟩
      have := rnd_mono (show (1 + 2 ^ (-52 : ℤ) : ℚ) ≤ o.underlyingPrice.val / o.strikePrice.val by rw [le_div_iff₀ hK]; exact h1)
      rw [rnd_rep hr] at this
      refine lt_of_lt_of_le ?_ this
      norm_num
    obtain ⟨l, l1, l2⟩ := hx.ln_pos q e3
    have hd1 : o.xd1 x = inf false := by
      unfold Contract.xd1
      rw [width_zero hx ho, recip_inf, hdiv, e1, l2, drift_zero ho, add_zero_fin]
      simp [X64.mul, l1.ne', not_lt.2 l1.le]
    have hd2 : o.xd2 x = inf false := by
      unfold Contract.xd2
      rw [hd1, width_zero hx ho, sub_zero_inf]
    unfold Contract.xprice
    rw [hd1, hd2, carry_one hx ho, discount_one hx ho]
    cases o.optionType with
    | call =>
      simp only []
      rw [cdf_inf hx, mul_one_fin, mul_one_fin, mul_one_fin, mul_one_fin]
      unfold X64.sub
      rw [neg_fin]
      change ofQ (o.underlyingPrice.val + -o.strikePrice.val) = _
      rw [← sub_eq_add_neg]
    | put =>
      simp only []
      rw [show (inf false).neg = inf true from rfl, cdf_neg_inf hx, neg_fin, mul_one_fin, mul_one_fin, mul_zero_fin, mul_zero_fin, add_zero_fin]
  · intro h1 h2
    obtain ⟨q, e1, e2, -⟩ := ofQ_fin (q := o.underlyingPrice.val / o.strikePrice.val) 0 (by norm_num) (by
      rw [abs_of_pos hq0, div_le_iff₀ hK, pow_zero, one_mul]
      refine h2.trans ?_
      norm_num
      linarith)
    have hr : Rep (1 - 2 ^ (-53 : ℤ) : ℚ) := ⟨2 ^ 53 - 1, -53, by norm_num, by norm_num, by norm_num⟩
    have e3 : q.val < 1 := by
      rw [e2]
      have := rnd_mono (show o.underlyingPrice.val / o.strikePrice.val ≤ (1 - 2 ^ (-53 : ℤ) : ℚ) by rw [div_le_iff₀ hK]; exact h2)
      rw [rnd_rep hr] at this
      refine lt_of_le_of_lt this ?_
      norm_num
    have e4 : 0 < q.val := by
      rw [e2]
      have hr' : Rep (2 ^ (-1000 : ℤ) : ℚ) := ⟨1, -1000, by norm_num, by norm_num, by norm_num⟩
      have := rnd_mono (show (2 ^ (-1000 : ℤ) : ℚ) ≤ o.underlyingPrice.val / o.strikePrice.val by rw [le_div_iff₀ hK]; exact h1)
      rw [rnd_rep hr'] at this
      exact lt_of_lt_of_le (by positivity) this
    obtain ⟨l, l1, l2⟩ := hx.ln_neg q e4 e3
    have hd1 : o.xd1 x = inf true := by
      unfold Contract.xd1
      rw [width_zero hx ho, recip_inf, hdiv, e1, l2, drift_zero ho, add_zero_fin]
      simp [X64.mul, l1.ne, l1]
    have hd2 : o.xd2 x = inf true := by
      unfold Contract.xd2
      rw [hd1, width_zero hx ho, sub_zero_inf]
    unfold Contract.xprice
    rw [hd1, hd2, carry_one hx ho, discount_one hx ho]
    cases o.optionType with
    | call =>
      simp only []
      rw [cdf_neg_inf hx, mul_one_fin, mul_one_fin, mul_zero_fin, mul_zero_fin]
      unfold X64.sub
      rw [neg_fin]
      change ofQ ((0 : ℚ) + -0) = _
      rw [neg_zero, _root_.add_zero, ofQ_zero]
    | put =>
      simp only []
      rw [show (inf true).neg = inf false from rfl, cdf_inf hx, neg_fin, mul_one_fin, mul_one_fin, mul_one_fin, mul_one_fin]
      change ofQ (-o.underlyingPrice.val + o.strikePrice.val) = _
      rw [neg_add_eq_sub]

/-! ### Cases that meet the hypotheses -/

/-- A function on finite numbers, carried on with NaN. -/
def carryOn (f : F64 → Option F64) : X64 → X64
  | fin a => (f a).elim nan fin
  | _ => nan

/-- `C98_extended` applies to every platform: here with the put of `someContract`. -/
example : ∃ p : F64, someContract.xprice ⟨carryOn someLibm.exp, carryOn someLibm.ln, carryOn someLibm.sqrt, carryOn someLibm.erfc⟩ = fin p ∧
    |F64.real p - someContract.exact.price .put| ≤ 2 ^ (-50 : ℤ) *
      (8 + 4 * someContract.exact.exponents + 13 * someContract.exact.condition) * (someContract.exact.asset + someContract.exact.cash) := by
  obtain ⟨p, h1, h2⟩ := C98_price_error someLibm (2 ^ (-50 : ℤ)) (zpow_le_zpow_right₀ (by norm_num) (by norm_num))
    (zpow_le_zpow_right₀ (by norm_num) (by norm_num)) someLibm_accurate someContract someContract_ordinary someContract_fine
  refine ⟨p, (C98_extended _ someLibm ⟨?_, ?_, ?_, ?_⟩ someContract).1 p h1, h2⟩ <;> intro a r h <;> simp [carryOn, h]

/-- A crude library that is right at the special values. -/
def crude : XLibm where
  exp x := match x with
    | fin _ => ofQ 1
    | inf true => fin F64.zero
    | y => y
  ln x := match x with
    | fin a => if 1 < a.val then ofQ 1 else if a.val = 1 then fin F64.zero else if 0 < a.val then ofQ (-1) else nan
    | inf false => inf false
    | _ => nan
  sqrt x := x
  erfc x := match x with
    | fin _ => ofQ 1
    | inf true => ofQ 2
    | inf false => fin F64.zero
    | nan => nan

theorem crude_special : crude.Special := by
  refine ⟨rfl, ?_, ?_, ?_, rfl, rfl, rfl, rfl, rfl⟩
  · obtain ⟨i, h1, h2⟩ := one_val
    rw [h1]
    simp [crude, h2]
  · intro a ha
    obtain ⟨i, h1, h2⟩ := one_val
    exact ⟨i, by rw [h2]; norm_num, by simp [crude, ha, h1]⟩
  · intro a ha ha1
    have e1 : (toF64 (-1)).map F64.val = some (-1) := by decide +kernel
    obtain ⟨i, h1, h2⟩ := Option.map_eq_some_iff.1 e1
    exact ⟨i, by rw [h2]; norm_num, by simp [crude, not_lt.2 ha1.le, ha1.ne, ha, ofQ_some h1]⟩

theorem expiring (s k : F64) (hs : 0 < s.val) (hk : 0 < k.val) (t : TypeFlag) :
    Contract.Expiring ⟨lit (1 / 16), s, k, lit (1 / 4), lit (1 / 16), F64.zero, t⟩ := by
  have h1 : (lit (1 / 16)).val = 1 / 16 := by decide +kernel
  have h2 : (lit (1 / 4)).val = 1 / 4 := by decide +kernel
  have h3 : |(lit (1 / 16)).val| ≤ 2 ^ 500 := by
    rw [h1, abs_of_pos (by norm_num)]
    exact le_trans (by norm_num) (one_le_pow₀ (by norm_num))
  refine ⟨rfl, hs, hk, ⟨?_, ?_⟩, h3, h3⟩
  · change 0 < (lit (1 / 4)).val
    rw [h2]; norm_num
  · change (lit (1 / 4)).val ≤ _
    rw [h2]
    exact le_trans (by norm_num) (one_le_pow₀ (by norm_num))

/-- A call and a put at 100, struck at 100, on the expiration date. -/
example (t : TypeFlag) : Contract.xprice crude ⟨lit (1 / 16), lit 100, lit 100, lit (1 / 4), lit (1 / 16), F64.zero, t⟩ = nan :=
  (C98_expiry_nan crude crude_special _ (expiring _ _ (by decide +kernel) (by decide +kernel) t) rfl).1

/-- The same struck at 90: a call is worth 10. -/
example : Contract.xprice crude ⟨lit (1 / 16), lit 100, lit 90, lit (1 / 4), lit (1 / 16), F64.zero, .call⟩ = ofQ 10 := by
  have h1 : (lit 100).val = 100 := by decide +kernel
  have h2 : (lit 90).val = 90 := by decide +kernel
  have := (C98_expiry_payoff crude crude_special ⟨lit (1 / 16), lit 100, lit 90, lit (1 / 4), lit (1 / 16), F64.zero, .call⟩
    (expiring _ _ (by decide +kernel) (by decide +kernel) .call)).1
    (by simp only [h1, h2]; norm_num)
    (by
      simp only [h1, h2]
      have : (1 : ℚ) ≤ 2 ^ 998 := one_le_pow₀ (by norm_num)
      rw [show (2 : ℚ) ^ 1000 = 2 ^ 998 * 4 by rw [show (1000 : ℕ) = 998 + 2 by norm_num, pow_add]; norm_num]
      generalize (2 : ℚ) ^ 998 = t at this ⊢
      linarith)
  rw [this]
  simp only [h1, h2]
  norm_num

/-- Struck at 125: a put is worth 25. -/
example : Contract.xprice crude ⟨lit (1 / 16), lit 100, lit 125, lit (1 / 4), lit (1 / 16), F64.zero, .put⟩ = ofQ 25 := by
  have h1 : (lit 100).val = 100 := by decide +kernel
  have h2 : (lit 125).val = 125 := by decide +kernel
  have := (C98_expiry_payoff crude crude_special ⟨lit (1 / 16), lit 100, lit 125, lit (1 / 4), lit (1 / 16), F64.zero, .put⟩
    (expiring _ _ (by decide +kernel) (by decide +kernel) .put)).2
    (by
      simp only [h1, h2]
      have : (2 : ℚ) ^ (-1000 : ℤ) ≤ 2 ^ (-1 : ℤ) := zpow_le_zpow_right₀ (by norm_num) (by norm_num)
      rw [show (2 : ℚ) ^ (-1 : ℤ) = 1 / 2 by norm_num] at this
      linarith)
    (by simp only [h1, h2]; norm_num)
  rw [this]
  simp only [h1, h2]
  norm_num

end Verif.Float.Bsm
