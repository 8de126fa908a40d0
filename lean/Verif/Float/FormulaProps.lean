import Verif.Float.SeqProps

/-!
# C89: payoffs, interpolation and day counts in `f64`
-/

namespace Verif.Float

/-! ## Subtraction -/

/-- Sterbenz: the difference of two values within a factor of two of each other is a value. -/
theorem sterbenz {a b : ℚ} (ha : Rep a) (hb : Rep b) (h1 : b ≤ 2 * a) (h2 : a ≤ 2 * b) : Rep (a - b) := by
  have key : ∀ {a b : ℚ}, Rep a → Rep b → 0 < b → b ≤ a → a ≤ 2 * b → Rep (a - b) := by
    intro a b ha hb hb0 hba h2
    have ha0 : 0 < a := lt_of_lt_of_le hb0 hba
    obtain ⟨n, hn⟩ := rep_multiple ha ha0.ne'
    obtain ⟨m, hm⟩ := rep_multiple hb hb0.ne'
    have hE := ulpExp_mono hb0 hba
    obtain ⟨k, hk⟩ : ∃ k : ℕ, ulpExp a - ulpExp b = k := ⟨(ulpExp a - ulpExp b).toNat, by omega⟩
    have e : a - b = ((n * 2 ^ k - m : ℤ) : ℚ) * 2 ^ ulpExp b := by
      nth_rewrite 1 [hn, hm]
      rw [show ulpExp a = k + ulpExp b by omega, zpow_add₀ (by norm_num)]
      push_cast
      rw [zpow_natCast]
      ring
    rw [e]
    apply rep_of_le _ _ _ (ulpExp_ge b)
    have hlt := abs_lt_ulp b hb0.ne'
    rw [abs_of_pos hb0, zpow_add₀ (by norm_num), mul_comm] at hlt
    have h3 : |((n * 2 ^ k - m : ℤ) : ℚ)| * 2 ^ ulpExp b < 2 ^ (53 : ℤ) * 2 ^ ulpExp b := by
      rw [← abs_of_pos (zpos (ulpExp b)), ← abs_mul, ← e, abs_of_pos (zpos (ulpExp b)), abs_of_nonneg (by linarith)]
      linarith
    exact (int_abs_lt (zpos (ulpExp b)) h3).le
  have hb0 : 0 ≤ b := by linarith
  rcases eq_or_lt_of_le hb0 with h0 | h0
  · rw [← h0, sub_zero]; exact ha
  rcases le_total b a with h | h
  · exact key ha hb h0 h h2
  · have := rep_neg (key hb ha (by linarith) h h1)
    rwa [neg_sub] at this

/-! ## Payoffs -/

theorem max_val (a b : F64) : (a.max b).val = max a.val b.val := by
  unfold F64.max
  split_ifs with h
  · exact (max_eq_right h).symm
  · exact (max_eq_left (not_le.1 h).le).symm

theorem payoff_some (a b c : F64) (h : (do return (← a.sub b).max F64.zero) = some c) :
    c.val = max (rnd (a.val - b.val)) 0 := by
  obtain ⟨d, h1, h2⟩ := Option.bind_eq_some_iff.1 h
  cases h2
  rw [max_val, show d.val = rnd (a.val - b.val) from toF64_some h1]
  rfl

theorem payoff_facts (a b c : F64) (h : (do return (← a.sub b).max F64.zero) = some c) :
    0 ≤ c.val ∧ (0 < c.val ↔ b.val < a.val) ∧ |c.val - max (a.val - b.val) 0| ≤ u * max (a.val - b.val) 0 ∧
    (b.val ≤ 2 * a.val → a.val ≤ 2 * b.val → c.val = max (a.val - b.val) 0) := by
  have hc := payoff_some a b c h
  have hpos := rnd_sub_pos a.rep b.rep
  refine ⟨by rw [hc]; exact le_max_right _ _, ?_, ?_, fun h1 h2 => ?_⟩
  · rw [hc, lt_max_iff, hpos]; simp
  · rcases le_total a.val b.val with hle | hle
    · have : rnd (a.val - b.val) ≤ 0 := rnd_le rep_zero (by linarith)
      rw [hc, max_eq_right this, max_eq_right (by linarith)]; simp
    · have h1 := rnd_sub a.rep b.rep
      have h2 : 0 ≤ rnd (a.val - b.val) := rnd_nonneg (by linarith)
      rw [hc, max_eq_left h2, max_eq_left (by linarith), abs_sub_comm]
      rwa [abs_of_nonneg (show 0 ≤ a.val - b.val by linarith)] at h1
  · rw [hc, rnd_rep (sterbenz a.rep b.rep h1 h2)]

/-- C89: the payoff of a vanilla call in `f64` is positive exactly when the underlying is above the strike, within the relative
error `2^-53` of the exact payoff, and exact when the underlying is within a factor of two of the strike; it does not decrease
with the underlying. With neither strike nor underlying negative it is always finite. -/
theorem C89_call (strike underlying : F64) :
    (∀ c, callPayoff strike underlying = some c →
      0 ≤ c.val ∧ (0 < c.val ↔ strike.val < underlying.val) ∧
      |c.val - max (underlying.val - strike.val) 0| ≤ u * max (underlying.val - strike.val) 0 ∧
      (strike.val ≤ 2 * underlying.val → underlying.val ≤ 2 * strike.val → c.val = max (underlying.val - strike.val) 0) ∧
      ∀ underlying' c', underlying.val ≤ underlying'.val → callPayoff strike underlying' = some c' → c.val ≤ c'.val) ∧
    (0 ≤ strike.val → 0 ≤ underlying.val → ∃ c, callPayoff strike underlying = some c) := by
  refine ⟨fun c h => ?_, fun h1 h2 => ?_⟩
  · obtain ⟨a1, a2, a3, a4⟩ := payoff_facts underlying strike c h
    refine ⟨a1, a2, a3, a4, fun un' c' hle h' => ?_⟩
    rw [payoff_some _ _ c h, payoff_some _ _ c' h']
    exact max_le_max (rnd_mono (by linarith)) le_rfl
  · have : |underlying.val - strike.val| ≤ max |underlying.val| |strike.val| := by
      rw [abs_of_nonneg h1, abs_of_nonneg h2, abs_le]
      constructor
      · linarith [le_max_right underlying.val strike.val]
      · linarith [le_max_left underlying.val strike.val]
    obtain ⟨d, hd, _⟩ := toF64_isSome (x := underlying.val - strike.val) (by
      rcases le_max_iff.1 this with h | h
      · exact fin_of_le underlying h
      · exact fin_of_le strike h)
    exact ⟨d.max F64.zero, by unfold callPayoff; rw [show underlying.sub strike = some d from hd]; rfl⟩

/-- C89: the payoff of a vanilla put in `f64` is positive exactly when the underlying is below the strike, within the relative
error `2^-53` of the exact payoff, and exact when the underlying is within a factor of two of the strike; it does not increase
with the underlying. With neither strike nor underlying negative it is always finite. -/
theorem C89_put (strike underlying : F64) :
    (∀ p, putPayoff strike underlying = some p →
      0 ≤ p.val ∧ (0 < p.val ↔ underlying.val < strike.val) ∧
      |p.val - max (strike.val - underlying.val) 0| ≤ u * max (strike.val - underlying.val) 0 ∧
      (strike.val ≤ 2 * underlying.val → underlying.val ≤ 2 * strike.val → p.val = max (strike.val - underlying.val) 0) ∧
      ∀ underlying' p', underlying.val ≤ underlying'.val → putPayoff strike underlying' = some p' → p'.val ≤ p.val) ∧
    (0 ≤ strike.val → 0 ≤ underlying.val → ∃ p, putPayoff strike underlying = some p) := by
  refine ⟨fun p h => ?_, fun h1 h2 => ?_⟩
  · obtain ⟨a1, a2, a3, a4⟩ := payoff_facts strike underlying p h
    refine ⟨a1, a2, a3, fun h1 h2 => a4 h2 h1, fun un' p' hle h' => ?_⟩
    rw [payoff_some _ _ p h, payoff_some _ _ p' h']
    exact max_le_max (rnd_mono (by linarith)) le_rfl
  · obtain ⟨c, hc⟩ := (C89_call underlying strike).2 h2 h1
    exact ⟨c, hc⟩

/-- C89: put-call parity of the payoffs holds exactly in `f64`: call minus put, rounded, is underlying minus strike, rounded. -/
theorem C89_parity (strike underlying c p : F64) (hc : callPayoff strike underlying = some c)
    (hp : putPayoff strike underlying = some p) : c.sub p = underlying.sub strike := by
  have h1 := payoff_some _ _ c hc
  have h2 := payoff_some _ _ p hp
  have e : rnd (strike.val - underlying.val) = -rnd (underlying.val - strike.val) := by rw [← rnd_neg, neg_sub]
  rw [e] at h2
  have h3 : c.val - p.val = rnd (underlying.val - strike.val) := by
    rw [h1, h2]
    rcases le_total 0 (rnd (underlying.val - strike.val)) with h | h
    · rw [max_eq_left h, max_eq_right (by linarith)]; ring
    · rw [max_eq_right h, max_eq_left (by linarith)]; ring
  obtain ⟨d, hd, _⟩ := Option.bind_eq_some_iff.1 hc
  have hdv : d.val = rnd (underlying.val - strike.val) := toF64_some hd
  rw [hd]
  unfold F64.sub
  rw [h3, ← hdv, toF64_val]

/-- A strike of 0.1 and an underlying of 0.3: the payoffs are 0.19999999999999998 and 0. -/
example : callPayoff (lit (1 / 10)) (lit (3 / 10)) = some (lit ((lit (3 / 10)).val - (lit (1 / 10)).val)) ∧
    putPayoff (lit (1 / 10)) (lit (3 / 10)) = some F64.zero := by decide +kernel

/-! ## Linear interpolation -/

theorem interpolate_some (xl xr yl yr x r : F64) (h : interpolate xl xr yl yr x = some r) :
    rnd (xr.val - xl.val) ≠ 0 ∧
    r.val = rnd (yl.val + rnd (rnd (yr.val - yl.val) * rnd (rnd (x.val - xl.val) / rnd (xr.val - xl.val)))) := by
  unfold interpolate at h
  obtain ⟨t1, h1, h⟩ := Option.bind_eq_some_iff.1 h
  obtain ⟨dx, h2, h⟩ := Option.bind_eq_some_iff.1 h
  obtain ⟨dr, h3, h⟩ := Option.bind_eq_some_iff.1 h
  obtain ⟨t2, h4, h⟩ := Option.bind_eq_some_iff.1 h
  obtain ⟨p, h5, h⟩ := Option.bind_eq_some_iff.1 h
  have e1 : t1.val = rnd (yr.val - yl.val) := toF64_some h1
  have e2 : dx.val = rnd (x.val - xl.val) := toF64_some h2
  have e3 : dr.val = rnd (xr.val - xl.val) := toF64_some h3
  obtain ⟨h6, e4⟩ := div_some h4
  rw [e3] at h6
  refine ⟨h6, ?_⟩
  rw [add_some h, mul_some h5, e4, e1, e2, e3]

/-- The interpolation weight between two nodes is in `[0, 1]`, and below one unless the point is within `2^-50` of the right
node. -/
theorem weight {xl xr x : ℚ} (hl : Rep xl) (hr : Rep xr) (hx : Rep x) (h1 : xl ≤ x) (h2 : x ≤ xr) (h3 : xl < xr) :
    0 ≤ rnd (rnd (x - xl) / rnd (xr - xl)) ∧ rnd (rnd (x - xl) / rnd (xr - xl)) ≤ 1 ∧
    (x - xl ≤ (1 - 2 ^ (-50 : ℤ)) * (xr - xl) → rnd (rnd (x - xl) / rnd (xr - xl)) < 1) := by
  have hD : 0 < rnd (xr - xl) := (rnd_sub_pos hr hl).2 h3
  have hd : 0 ≤ rnd (x - xl) := rnd_nonneg (by linarith)
  refine ⟨rnd_nonneg (by positivity), rnd_le rep_one ((div_le_one hD).2 (rnd_mono (by linarith))), fun h => ?_⟩
  have e1 := rnd_sub hx hl
  have e2 := rnd_sub hr hl
  rw [abs_of_nonneg (show 0 ≤ x - xl by linarith), abs_le] at e1
  rw [abs_of_nonneg (show 0 ≤ xr - xl by linarith), abs_le] at e2
  rw [show (2 : ℚ) ^ (-50 : ℤ) = 8 * u by unfold u; norm_num] at h
  have hu0 := u_pos
  have hu : u ≤ 1 / 100 := by unfold u; norm_num
  have hrep : Rep (1 - u) := by
    have := rep_of_le (2 ^ 53 - 1) (-53) (by norm_num) (by norm_num)
    have e : (((2 ^ 53 - 1 : ℤ)) : ℚ) * 2 ^ (-53 : ℤ) = 1 - u := by unfold u; norm_num
    rwa [e] at this
  refine lt_of_le_of_lt (rnd_le hrep ?_) (show 1 - u < 1 by linarith)
  rw [div_le_iff₀ hD]
  set L := xr - xl with hL
  have hL0 : 0 < L := by linarith
  have h5 : rnd (x - xl) ≤ (1 + u) * ((1 - 8 * u) * L) := by
    have : (1 + u) * (x - xl) ≤ (1 + u) * ((1 - 8 * u) * L) := mul_le_mul_of_nonneg_left h (by linarith)
    linarith [e1.1]
  have h6 : (1 - u) * ((1 - u) * L) ≤ (1 - u) * rnd L := mul_le_mul_of_nonneg_left (by linarith [e2.2]) (by linarith)
  have h7 : (1 + u) * ((1 - 8 * u) * L) ≤ (1 - u) * ((1 - u) * L) := by
    have : 0 ≤ ((1 - u) * (1 - u) - (1 + u) * (1 - 8 * u)) * L := by
      apply mul_nonneg _ hL0.le
      nlinarith
    linarith
  linarith

theorem lerp_between {a b t : ℚ} (ha : Rep a) (hb : Rep b) (ht : Rep t) (h0 : 0 ≤ t) (h1 : t < 1) :
    min a b ≤ rnd (a + rnd (rnd (b - a) * t)) ∧ rnd (a + rnd (rnd (b - a) * t)) ≤ max a b := by
  rcases le_total a b with h | h
  · rw [min_eq_left h, max_eq_right h]
    exact lerp_bounds ha hb ht h h0 h1
  · rw [min_eq_right h, max_eq_left h]
    have h2 := lerp_bounds (rep_neg ha) (rep_neg hb) ht (neg_le_neg h) h0 h1
    have e : rnd (-a + rnd (rnd (-b - -a) * t)) = -rnd (a + rnd (rnd (b - a) * t)) := by
      rw [← rnd_neg]
      congr 1
      rw [show -b - -a = -(b - a) by ring, rnd_neg, neg_mul, rnd_neg]
      ring
    rw [e] at h2
    exact ⟨by linarith [h2.2], by linarith [h2.1]⟩

/-- C89: linear interpolation in `f64` between two nodes gives the left value at the left node exactly, stays between the two
values when the point is not within `2^-50` of the distance from the right node, and between nondecreasing values does not
decrease from one point to a later one. -/
theorem C89_interpolate (xl xr yl yr x r : F64) (h1 : xl.val ≤ x.val) (h2 : x.val ≤ xr.val) (h3 : xl.val < xr.val)
    (h : interpolate xl xr yl yr x = some r) :
    (x.val = xl.val → r = yl) ∧
    (x.val - xl.val ≤ (1 - 2 ^ (-50 : ℤ)) * (xr.val - xl.val) →
      min yl.val yr.val ≤ r.val ∧ r.val ≤ max yl.val yr.val) ∧
    (yl.val ≤ yr.val → ∀ x' r', x.val ≤ x'.val → x'.val ≤ xr.val → interpolate xl xr yl yr x' = some r' → r.val ≤ r'.val) := by
  obtain ⟨hD, hr⟩ := interpolate_some _ _ _ _ _ _ h
  obtain ⟨w0, w1, w2⟩ := weight xl.rep xr.rep x.rep h1 h2 h3
  refine ⟨fun hx => ?_, fun hx => ?_, fun hy x' r' hx hx' h' => ?_⟩
  · apply F64.ext
    rw [hr, hx, sub_self, rnd_zero, zero_div, rnd_zero, mul_zero, rnd_zero, _root_.add_zero, rnd_rep yl.rep]
  · rw [hr]
    exact lerp_between yl.rep yr.rep (rep_rnd _) w0 (w2 hx)
  · obtain ⟨_, hr'⟩ := interpolate_some _ _ _ _ _ _ h'
    rw [hr, hr']
    refine rnd_mono (add_le_add le_rfl (rnd_mono ?_))
    refine mul_le_mul_of_nonneg_left (rnd_mono ?_) (rnd_nonneg (by linarith))
    exact div_le_div_of_nonneg_right (rnd_mono (by linarith)) (rnd_nonneg (by linarith))

/-- Half-way between (0, 1) and (3, 2). -/
example : interpolate (lit 0) (lit 3) (lit 1) (lit 2) (lit (3 / 2)) = some (lit (3 / 2)) ∧
    min (lit 1).val (lit 2).val ≤ (lit (3 / 2)).val ∧ (lit (3 / 2)).val ≤ max (lit 1).val (lit 2).val := by
  have h : interpolate (lit 0) (lit 3) (lit 1) (lit 2) (lit (3 / 2)) = some (lit (3 / 2)) := by decide +kernel
  exact ⟨h, (C89_interpolate _ _ _ _ _ _ (by decide +kernel) (by decide +kernel) (by decide +kernel) h).2.1 (by decide +kernel)⟩

/-- C89 (defect): next to the right node the interpolated value can leave the range of the two values: between the nodes (-1, -2^53)
and (1, 3), at the last value below 1, the result is 4. -/
theorem C89_interpolate_overshoot : ∃ x r : F64, -1 < x.val ∧ x.val < 1 ∧
    interpolate (lit (-1)) (lit 1) (lit (-2 ^ 53)) (lit 3) x = some r ∧ r.val = 4 :=
  ⟨lit (1 - 2 ^ (-53 : ℤ)), lit 4, by decide +kernel, by decide +kernel, by decide +kernel, by decide +kernel⟩

/-- C89: the interpolated value is within `2^-49` of the larger of the two values in size (plus an underflow term) of the exact
one, on the whole interval. -/
theorem C89_interpolate_error (xl xr yl yr x r : F64) (h1 : xl.val ≤ x.val) (h2 : x.val ≤ xr.val) (h3 : xl.val < xr.val)
    (h : interpolate xl xr yl yr x = some r) :
    |r.val - (yl.val + (yr.val - yl.val) * ((x.val - xl.val) / (xr.val - xl.val)))| ≤
      2 ^ (-49 : ℤ) * max |yl.val| |yr.val| + 2 ^ (-1074 : ℤ) := by
  obtain ⟨hD, hr⟩ := interpolate_some _ _ _ _ _ _ h
  have hDp : 0 < rnd (xr.val - xl.val) := (rnd_sub_pos xr.rep xl.rep).2 h3
  have hdn : 0 ≤ rnd (x.val - xl.val) := rnd_nonneg (by linarith)
  have e1 := rnd_sub x.rep xl.rep
  have e2 := rnd_sub xr.rep xl.rep
  have e3 := rnd_sub yr.rep yl.rep
  have he : ∀ x : ℚ, |x - rnd x| ≤ u * |x| + 2 ^ (-1075 : ℤ) := rnd_error'
  have hη0 : (0 : ℚ) < 2 ^ (-1075 : ℤ) := zpos (-1075)
  have hηu : (2 : ℚ) ^ (-1075 : ℤ) ≤ u := (zpow_le_iff _ _).2 (by norm_num)
  have hη2 : (2 : ℚ) ^ (-1074 : ℤ) = 2 * 2 ^ (-1075 : ℤ) := by
    rw [show (-1074 : ℤ) = 1 + -1075 by norm_num, zpow_add₀ (by norm_num), zpow_one]
  rw [hη2, show (2 : ℚ) ^ (-49 : ℤ) = 16 * u by unfold u; norm_num]
  clear hη2
  generalize (2 : ℚ) ^ (-1075 : ℤ) = η at he hη0 hηu ⊢
  rw [abs_of_nonneg (show 0 ≤ x.val - xl.val by linarith), abs_le] at e1
  rw [abs_of_nonneg (show 0 ≤ xr.val - xl.val by linarith), abs_le] at e2
  have hadd := rnd_add yl.rep
    (rep_rnd (rnd (yr.val - yl.val) * rnd (rnd (x.val - xl.val) / rnd (xr.val - xl.val))))
  rw [← hr] at hadd
  have hu0 := u_pos
  have hu : u ≤ 1 / 100 := by unfold u; norm_num
  generalize rnd (xr.val - xl.val) = D at *
  generalize rnd (x.val - xl.val) = d at *
  generalize rnd (yr.val - yl.val) = Y at *
  set L := xr.val - xl.val with hL
  set l := x.val - xl.val with hl
  have hL0 : 0 < L := by linarith
  have hl0 : 0 ≤ l := by linarith
  have hlL : l ≤ L := by linarith
  set T := l / L with hT
  have hT0 : 0 ≤ T := by positivity
  have hT1 : T ≤ 1 := (div_le_one hL0).2 hlL
  have hlT : l = T * L := (div_mul_cancel₀ _ hL0.ne').symm
  -- the ratio
  have hq : |d / D - T| ≤ 2.1 * u := by
    have h4 : d / D - T = (d - T * D) / D := by field_simp
    rw [h4, abs_div, abs_of_pos hDp, div_le_iff₀ hDp]
    have hD2 : 0.99 * L ≤ D := by nlinarith [e2.2]
    have h5 : |d - T * D| ≤ 2 * u * L := by
      have h6 : d - T * D = (d - l) + T * (L - D) := by rw [hlT]; ring
      rw [h6]
      have h7 : |d - l| ≤ u * L := by
        rw [abs_le]
        have : u * l ≤ u * L := mul_le_mul_of_nonneg_left hlL hu0.le
        constructor <;> linarith [e1.1, e1.2]
      have h8 : |T * (L - D)| ≤ u * L := by
        rw [abs_mul, abs_of_nonneg hT0]
        have h9 : |L - D| ≤ u * L := abs_le.2 ⟨by linarith [e2.1], by linarith [e2.2]⟩
        calc T * |L - D| ≤ 1 * (u * L) := mul_le_mul hT1 h9 (abs_nonneg _) zero_le_one
          _ = u * L := one_mul _
      exact (abs_add_le _ _).trans (by linarith)
    refine h5.trans ?_
    have : u * (0.99 * L) ≤ u * D := mul_le_mul_of_nonneg_left hD2 hu0.le
    have : 0 ≤ u * L := by positivity
    nlinarith
  rw [abs_le] at hq
  have hq0 : 0 ≤ d / D := by positivity
  have e4 := he (d / D)
  rw [abs_of_nonneg hq0, abs_le] at e4
  set t := rnd (d / D) with ht
  have htT : |t - T| ≤ 4.3 * u := by
    have h4 : u * (d / D) ≤ u * 1.1 := mul_le_mul_of_nonneg_left (by linarith [hq.2]) hu0.le
    rw [abs_le]; constructor <;> linarith [e4.1, e4.2, hq.1, hq.2]
  set M := max |yl.val| |yr.val| with hM
  have m1 : |yl.val| ≤ M := le_max_left _ _
  have m2 : |yr.val| ≤ M := le_max_right _ _
  have hM0 : 0 ≤ M := (abs_nonneg _).trans m1
  have hY : |yr.val - yl.val| ≤ 2 * M := (abs_sub _ _).trans (by linarith)
  have huM : 0 ≤ u * M := by positivity
  have e3' : |Y - (yr.val - yl.val)| ≤ 2 * (u * M) := by
    rw [abs_sub_comm]
    refine e3.trans ?_
    have := mul_le_mul_of_nonneg_left hY hu0.le
    linarith
  -- the product
  have hp1 : |Y * t - (yr.val - yl.val) * T| ≤ 10.8 * (u * M) := by
    have h4 : Y * t - (yr.val - yl.val) * T = (Y - (yr.val - yl.val)) * t + (yr.val - yl.val) * (t - T) := by ring
    rw [h4]
    have ht1 : |t| ≤ 1.1 := by
      rw [abs_le] at htT ⊢; constructor <;> linarith [htT.1, htT.2]
    have h5 : |(Y - (yr.val - yl.val)) * t| ≤ 2 * (u * M) * 1.1 := by
      rw [abs_mul]; exact mul_le_mul e3' ht1 (abs_nonneg _) (by positivity)
    have h6 : |(yr.val - yl.val) * (t - T)| ≤ 2 * M * (4.3 * u) := by
      rw [abs_mul]; exact mul_le_mul hY htT (abs_nonneg _) (by positivity)
    exact (abs_add_le _ _).trans (by linarith)
  have hYT : |(yr.val - yl.val) * T| ≤ 2 * M := by
    rw [abs_mul, abs_of_nonneg hT0]
    calc |yr.val - yl.val| * T ≤ 2 * M * 1 := mul_le_mul hY hT1 hT0 (by positivity)
      _ = 2 * M := mul_one _
  have huuM : u * (u * M) ≤ 1 / 100 * (u * M) := mul_le_mul_of_nonneg_right hu huM
  have e5 := he (Y * t)
  have hYt : |Y * t| ≤ 2 * M + 10.8 * (u * M) := by
    have h4 : Y * t = (yr.val - yl.val) * T + (Y * t - (yr.val - yl.val) * T) := by ring
    rw [h4]
    exact (abs_add_le _ _).trans (by linarith)
  have e5' : |Y * t - rnd (Y * t)| ≤ 2.2 * (u * M) + η := by
    refine e5.trans ?_
    have : u * |Y * t| ≤ u * (2 * M + 10.8 * (u * M)) := mul_le_mul_of_nonneg_left hYt hu0.le
    linarith
  set p := rnd (Y * t) with hp
  have hpe : |p - (yr.val - yl.val) * T| ≤ 13 * (u * M) + η := by
    have h4 : p - (yr.val - yl.val) * T = (Y * t - (yr.val - yl.val) * T) - (Y * t - p) := by ring
    rw [h4]
    exact (abs_sub _ _).trans (by linarith)
  -- the exact value is between the two values
  have hex : |yl.val + (yr.val - yl.val) * T| ≤ M := by
    have h4 : yl.val + (yr.val - yl.val) * T = (1 - T) * yl.val + T * yr.val := by ring
    rw [h4]
    refine (abs_add_le _ _).trans ?_
    rw [abs_mul, abs_mul, abs_of_nonneg hT0, abs_of_nonneg (show 0 ≤ 1 - T by linarith)]
    have h5 : (1 - T) * |yl.val| ≤ (1 - T) * M := mul_le_mul_of_nonneg_left m1 (by linarith)
    have h6 : T * |yr.val| ≤ T * M := mul_le_mul_of_nonneg_left m2 hT0
    linarith
  have hyp : |yl.val + p| ≤ M + (13 * (u * M) + η) := by
    have h4 : yl.val + p = (yl.val + (yr.val - yl.val) * T) + (p - (yr.val - yl.val) * T) := by ring
    rw [h4]
    exact (abs_add_le _ _).trans (by linarith)
  have hfin : |yl.val + p - r.val| ≤ 1.2 * (u * M) + 1 / 100 * η := by
    refine hadd.trans ?_
    have h4 : u * |yl.val + p| ≤ u * (M + (13 * (u * M) + η)) := mul_le_mul_of_nonneg_left hyp hu0.le
    have h5 : u * η ≤ 1 / 100 * η := mul_le_mul_of_nonneg_right hu hη0.le
    linarith
  have h4 : r.val - (yl.val + (yr.val - yl.val) * T) = (p - (yr.val - yl.val) * T) - (yl.val + p - r.val) := by ring
  rw [h4]
  exact (abs_sub _ _).trans (by linarith)

/-- The overshoot above is within that bound: 2^53 * 2^-49 = 16. -/
example : ∃ x r : F64, interpolate (lit (-1)) (lit 1) (lit (-2 ^ 53)) (lit 3) x = some r ∧ r.val = 4 ∧
    |r.val - ((lit (-2 ^ 53)).val + ((lit 3).val - (lit (-2 ^ 53)).val) * ((x.val - (lit (-1)).val) / ((lit 1).val - (lit (-1)).val)))| ≤
      2 ^ (-49 : ℤ) * max |(lit (-2 ^ 53)).val| |(lit 3).val| + 2 ^ (-1074 : ℤ) := by
  have h : interpolate (lit (-1)) (lit 1) (lit (-2 ^ 53)) (lit 3) (lit (1 - 2 ^ (-53 : ℤ))) = some (lit 4) := by decide +kernel
  exact ⟨_, _, h, by decide +kernel,
    C89_interpolate_error _ _ _ _ _ _ (by decide +kernel) (by decide +kernel) (by decide +kernel) h⟩

/-! ## Day counts -/

theorem ofInt_small (n : ℤ) (hn : |n| ≤ 2 ^ 53) : ∃ r, ofInt n = some r ∧ r.val = n := by
  have hr := rep_int n hn
  obtain ⟨r, h1, h2⟩ := toF64_isSome (x := (n : ℚ)) (by
    rw [rnd_rep hr]
    have : |(n : ℚ)| ≤ 2 ^ 53 := by exact_mod_cast hn
    exact lt_of_le_of_lt this (pow_lt_pow_right₀ (by norm_num) (by norm_num)))
  exact ⟨r, h1, by rw [h2, rnd_rep hr]⟩

/-- What the day counts compute. -/
theorem dayFraction_spec (days : ℤ) (hd : |days| ≤ 2 ^ 53) (year : F64) (hy : 1 ≤ year.val) :
    ∃ f, dayFraction days year = some f ∧ f.val = rnd (days / year.val) := by
  obtain ⟨r, hr, hrv⟩ := ofInt_small days hd
  obtain ⟨f, hf, hfv⟩ := toF64_isSome (x := r.val / year.val) (fin_of_le r (by
    rw [abs_div, abs_of_pos (by linarith : 0 < year.val)]; exact div_le_self (abs_nonneg _) hy))
  refine ⟨f, ?_, by rw [hfv, hrv]⟩
  unfold dayFraction
  rw [hr]
  change r.div year = some f
  unfold F64.div
  rw [if_neg (by linarith), hf]

theorem dayFraction_error (days : ℤ) (year : F64) (hy : 1 ≤ year.val) (hy2 : year.val ≤ 2 ^ 20) :
    |days / year.val - rnd (days / year.val)| ≤ u * |days / year.val| := by
  by_cases h0 : days = 0
  · subst h0; simp [rnd_zero]
  rcases rnd_error (days / year.val) with h | ⟨h, _⟩
  · exact h
  · exfalso
    have h1 : (1 : ℚ) ≤ |(days : ℚ)| := by exact_mod_cast Int.one_le_abs h0
    rw [abs_div, abs_of_pos (by linarith : 0 < year.val), div_lt_iff₀ (by linarith)] at h
    have h2 : (2 : ℚ) ^ (-1022 : ℤ) ≤ 2 ^ (-20 : ℤ) := (zpow_le_iff _ _).2 (by norm_num)
    have h3 : (2 : ℚ) ^ (-1022 : ℤ) * year.val ≤ 2 ^ (-20 : ℤ) * 2 ^ 20 := mul_le_mul h2 hy2 (by linarith) (zpos (-20)).le
    have h4 : (2 : ℚ) ^ (-20 : ℤ) * 2 ^ 20 = 1 := by norm_num
    rw [h4] at h3
    exact absurd (lt_of_lt_of_le h h3) (not_lt.2 h1)

/-- C89: the day counts that divide the days by a fixed year length are finite, odd in the days, within the relative error `2^-53`
of the exact quotient, and strictly increasing in the days up to `2^50` of them: two different dates never get the same year
fraction. -/
theorem C89_day_count (days : ℤ) (hd : |days| ≤ 2 ^ 50) (year : F64) (hy : 1 ≤ year.val) (hy2 : year.val ≤ 2 ^ 20) :
    ∃ f, dayFraction days year = some f ∧ |f.val - days / year.val| ≤ u * |days / year.val| ∧
      (∀ g, dayFraction (-days) year = some g → g.val = -f.val) ∧ (0 < f.val ↔ 0 < days) ∧
      ∀ days' f', |days'| ≤ 2 ^ 50 → days < days' → dayFraction days' year = some f' → f.val < f'.val := by
  have spec : ∀ d : ℤ, |d| ≤ 2 ^ 50 → ∀ f, dayFraction d year = some f → f.val = rnd (d / year.val) := by
    intro d hd f hf
    obtain ⟨g, hg, hgv⟩ := dayFraction_spec d (by omega) year hy
    rw [hf] at hg; cases hg; exact hgv
  have hyp : 0 < year.val := by linarith
  have hu0 := u_pos
  have mono : ∀ a b : ℤ, |a| ≤ 2 ^ 50 → |b| ≤ 2 ^ 50 → a < b → rnd (a / year.val) < rnd (b / year.val) := by
    intro a b ha hb hab
    have e1 := dayFraction_error a year hy hy2
    have e2 := dayFraction_error b year hy hy2
    rw [abs_div, abs_of_pos hyp, abs_le] at e1 e2
    have ha' : |(a : ℚ)| ≤ 2 ^ 50 := by exact_mod_cast ha
    have hb' : |(b : ℚ)| ≤ 2 ^ 50 := by exact_mod_cast hb
    have hab' : (a : ℚ) + 1 ≤ b := by exact_mod_cast hab
    have h1 : (a : ℚ) / year.val + 1 / year.val ≤ b / year.val := by
      rw [← add_div]; exact div_le_div_of_nonneg_right hab' hyp.le
    have h2 : ∀ c : ℚ, |c| ≤ 2 ^ 50 → u * (|c| / year.val) ≤ 1 / 8 * (1 / year.val) := by
      intro c hc
      rw [← mul_div_assoc, ← mul_div_assoc]
      refine div_le_div_of_nonneg_right ?_ hyp.le
      calc u * |c| ≤ u * 2 ^ 50 := mul_le_mul_of_nonneg_left hc hu0.le
        _ = 1 / 8 * 1 := by unfold u; norm_num
    have h3 := h2 a ha'
    have h4 := h2 b hb'
    have h5 : 0 < 1 / year.val := by positivity
    linarith [e1.1, e2.2]
  obtain ⟨f, hf, hfv⟩ := dayFraction_spec days (by omega) year hy
  refine ⟨f, hf, ?_, fun g hg => ?_, ?_, fun d' f' hd' hlt hf' => ?_⟩
  · rw [hfv, abs_sub_comm]; exact dayFraction_error days year hy hy2
  · rw [spec _ (by rw [abs_neg]; exact hd) g hg, hfv]
    push_cast
    rw [neg_div, rnd_neg]
  · rw [hfv]
    constructor
    · intro h
      by_contra hc
      have : (days : ℚ) ≤ 0 := by exact_mod_cast not_lt.1 hc
      have := rnd_le rep_zero (show (days : ℚ) / year.val ≤ 0 from div_nonpos_of_nonpos_of_nonneg this hyp.le)
      linarith
    · intro h
      have := mono 0 days (by norm_num) hd h
      simpa [rnd_zero] using this
  · rw [hfv, spec d' hd' f' hf']
    exact mono days d' hd hd' hlt

example : ∃ f, dayFraction 45 (lit 365) = some f ∧ 0 < f.val ∧ f.val ≠ 45 / 365 := by
  obtain ⟨f, hf, _, _, hp, _⟩ := C89_day_count 45 (by norm_num) (lit 365) (by decide +kernel) (by decide +kernel)
  refine ⟨f, hf, hp.2 (by norm_num), fun he => ?_⟩
  have : dayFraction 45 (lit 365) = some (lit (45 / 365)) := by decide +kernel
  rw [this] at hf
  cases hf
  revert he
  decide +kernel

/-- C89 (defect): year fractions do not add up exactly: over 365 days, that of one day plus that of two is not that of three. -/
theorem C89_day_count_not_additive : ∃ a b c d : F64, dayFraction 1 (lit 365) = some a ∧ dayFraction 2 (lit 365) = some b ∧
    dayFraction 3 (lit 365) = some c ∧ a.add b = some d ∧ c.val < d.val :=
  ⟨lit (1 / 365), lit (2 / 365), lit (3 / 365), lit ((lit (1 / 365)).val + (lit (2 / 365)).val), by decide +kernel,
    by decide +kernel, by decide +kernel, by decide +kernel, by decide +kernel⟩

end Verif.Float
