import Verif.Float.BlackScholesRun
import Verif.Float.SimulationProps

/-!
# C98: Black-Scholes-Merton prices in double precision
-/

namespace Verif.Float.Bsm

open Real Verif.Float.Sim Verif.Options
open Verif.Float.Fft (ur mu top rnd_real toF64_total ur_pos mu_pos)

/-- C98: the price. On functions of the platform that are right up to `δ`, the computed price of a call or put is finite and within
`δ (8 + 4 (|b| + |r|) T + 13 Q)` of the Black-Scholes-Merton formula, relative to the present values of underlying and strike. `Q` is the
condition number of `d1`, which is large only when `v √T` is small. -/
theorem C98_price_error (m : Libm) (δ : ℝ) (hδ : 2 ^ (-52 : ℤ) ≤ δ) (hδ1 : δ ≤ 2 ^ (-20 : ℤ)) (hm : m.Accurate δ) (o : Contract)
    (ho : o.exact.Ordinary) (hc : δ * o.exact.condition ≤ 2 ^ (-10 : ℤ)) :
    ∃ p, o.price m = some p ∧ |F64.real p - o.exact.price o.optionType| ≤
      δ * (8 + 4 * o.exact.exponents + 13 * o.exact.condition) * (o.exact.asset + o.exact.cash) := by
  have hf : Fine δ := ⟨hδ, hδ1⟩
  have h := facts ho
  have hu := ur_pos
  have hE0 := exponents_nonneg h
  obtain ⟨hQ, -, -⟩ := condition_bound hf h hc
  obtain ⟨d1, d2, a1, a2, r1, r2, r3, r4⟩ := d_near hm hf h hc
  obtain ⟨z, b1, b2, b3⟩ := carry_near hm hf h ho.exponents
  obtain ⟨y, c1, c2, c3⟩ := discount_near hm hf h ho.exponents
  have hS := h.S.pos
  have hK := h.K.pos
  have hA : 0 < F64.real o.underlyingPrice * exp ((o.exact.b - o.exact.r) * o.exact.T) := by positivity
  have hC : 0 < F64.real o.strikePrice * exp (-o.exact.r * o.exact.T) := by positivity
  have hA8 := (h.S.mul (exp_box b2)).2
  have hC8 := (h.K.mul (exp_box c2)).2
  have htop : ∀ x : ℝ, |x| ≤ 3 / 2 * (F64.real o.underlyingPrice * exp ((o.exact.b - o.exact.r) * o.exact.T)) +
      3 / 2 * (F64.real o.strikePrice * exp (-o.exact.r * o.exact.T)) → |x| ≤ top := by
    intro x hx
    refine top_large (x := 2 ^ 800) (pow_le_pow_right₀ (by norm_num) (by norm_num)) (hx.trans ?_)
    have key : ∀ a c t : ℝ, a ≤ t → c ≤ t → 0 < a → 3 / 2 * a + 3 / 2 * c ≤ 4 * t := by intro a c t _ _ _; linarith
    exact key _ _ _ hA8 hC8 hA
  have key : δ * (7 + 4 * o.exact.exponents + 13 * o.exact.condition) + δ = δ * (8 + 4 * o.exact.exponents + 13 * o.exact.condition) := by
    ring
  cases ht : o.optionType with
  | call =>
    obtain ⟨f, c, x, e1, e2, e3, e4, e5⟩ := term_near hm hf hE0 ho.exponents b2 (s := o.underlyingPrice)
      (by rw [abs_of_pos hS]; exact h.S) b3 hQ.le hc r3 r1
    obtain ⟨f', c', x', e1', e2', e3', e4', e5'⟩ := term_near hm hf hE0 ho.exponents c2 (s := o.strikePrice)
      (by rw [abs_of_pos hK]; exact h.K) c3 hQ.le hc r4 r2
    rw [abs_of_pos hA] at e4 e5
    rw [abs_of_pos hC] at e4' e5'
    obtain ⟨p, g1, g2⟩ := subR (a := x) (b := x') (htop _ ((abs_sub _ _).trans (by linarith)))
    refine ⟨p, ?_, ?_⟩
    · simp only [Contract.price, a1, a2, b1, c1, ht, e1, e2, e3, e1', e2', e3', g1, Option.bind_eq_bind, Option.bind_some]
    · have := combine hu hf.ur hA hC e4 (y := -F64.real x')
        (Y := -(F64.real o.strikePrice * exp (-o.exact.r * o.exact.T) * Phi o.exact.d2))
        (by rw [show -F64.real x' - -(F64.real o.strikePrice * exp (-o.exact.r * o.exact.T) * Phi o.exact.d2) =
              -(F64.real x' - F64.real o.strikePrice * exp (-o.exact.r * o.exact.T) * Phi o.exact.d2) by ring, abs_neg]
            exact e4')
        e5 (by rw [abs_neg]; exact e5') (p := F64.real p) (by rw [← sub_eq_add_neg]; exact g2)
      rw [key, ← sub_eq_add_neg] at this
      exact this
  | put =>
    obtain ⟨f, c, x, e1, e2, e3, e4, e5⟩ := term_near hm hf hE0 ho.exponents b2 (s := neg o.underlyingPrice)
      (by rw [real_neg, abs_neg, abs_of_pos hS]; exact h.S) b3 hQ.le hc (X := -o.exact.d1) (d := neg d1) (by rw [abs_neg]; exact r3)
      (by rw [real_neg, show -F64.real d1 - -o.exact.d1 = -(F64.real d1 - o.exact.d1) by ring, abs_neg]; exact r1)
    obtain ⟨f', c', x', e1', e2', e3', e4', e5'⟩ := term_near hm hf hE0 ho.exponents c2 (s := o.strikePrice)
      (by rw [abs_of_pos hK]; exact h.K) c3 hQ.le hc (X := -o.exact.d2) (d := neg d2) (by rw [abs_neg]; exact r4)
      (by rw [real_neg, show -F64.real d2 - -o.exact.d2 = -(F64.real d2 - o.exact.d2) by ring, abs_neg]; exact r2)
    rw [real_neg, neg_mul, abs_neg, abs_of_pos hA] at e4 e5
    rw [abs_of_pos hC] at e4' e5'
    obtain ⟨p, g1, g2⟩ := addR (a := x) (b := x') (htop _ ((abs_add_le _ _).trans (by linarith)))
    refine ⟨p, ?_, ?_⟩
    · simp only [Contract.price, a1, a2, b1, c1, ht, e1, e2, e3, e1', e2', e3', g1, Option.bind_eq_bind, Option.bind_some]
    · have := combine hu hf.ur hA hC e4 e4' e5 e5' g2
      rw [key] at this
      refine le_trans (le_of_eq ?_) this
      unfold Exact.price Exact.asset Exact.cash
      congr 1
      change F64.real p - (F64.real o.strikePrice * _ * _ - F64.real o.underlyingPrice * _ * _) = _
      ring

/-- C98: put-call parity. The computed prices of a call and a put on the same terms differ by the present value of the underlying less
that of the strike, up to twice the error of a price. -/
theorem C98_parity (m : Libm) (δ : ℝ) (hδ : 2 ^ (-52 : ℤ) ≤ δ) (hδ1 : δ ≤ 2 ^ (-20 : ℤ)) (hm : m.Accurate δ) (o : Contract)
    (ho : o.exact.Ordinary) (hc : δ * o.exact.condition ≤ 2 ^ (-10 : ℤ)) :
    ∃ c p, { o with optionType := .call }.price m = some c ∧ { o with optionType := .put }.price m = some p ∧
      |F64.real c - F64.real p - (o.exact.asset - o.exact.cash)| ≤
        2 * (δ * (8 + 4 * o.exact.exponents + 13 * o.exact.condition) * (o.exact.asset + o.exact.cash)) := by
  obtain ⟨c, h1, h2⟩ := C98_price_error m δ hδ hδ1 hm { o with optionType := .call } ho hc
  obtain ⟨p, h3, h4⟩ := C98_price_error m δ hδ hδ1 hm { o with optionType := .put } ho hc
  refine ⟨c, p, h1, h3, ?_⟩
  have e : o.exact.asset - o.exact.cash = o.exact.price .call - o.exact.price .put := by
    unfold Exact.price
    rw [Phi_neg, Phi_neg]
    ring
  rw [e, show F64.real c - F64.real p - (o.exact.price .call - o.exact.price .put) =
    (F64.real c - o.exact.price .call) - (F64.real p - o.exact.price .put) by ring, two_mul]
  exact (abs_sub _ _).trans (_root_.add_le_add h2 h4)

/-- C98: delta, with the same conditions and an error of the same size, relative to `exp ((b - r) T)`. -/
theorem C98_delta_error (m : Libm) (δ : ℝ) (hδ : 2 ^ (-52 : ℤ) ≤ δ) (hδ1 : δ ≤ 2 ^ (-20 : ℤ)) (hm : m.Accurate δ) (o : Contract)
    (ho : o.exact.Ordinary) (hc : δ * o.exact.condition ≤ 2 ^ (-10 : ℤ)) :
    ∃ d, o.delta m = some d ∧ |F64.real d - o.exact.delta o.optionType| ≤
      δ * (7 + 4 * o.exact.exponents + 13 * o.exact.condition) * exp ((o.exact.b - o.exact.r) * o.exact.T) := by
  have hf : Fine δ := ⟨hδ, hδ1⟩
  have h := facts ho
  have hu := ur_pos
  have hδ0 := hf.pos
  have hδ2 := hf.le
  have hδu := hf.ur
  have hE0 := exponents_nonneg h
  have hE := ho.exponents
  obtain ⟨hQ, -, -⟩ := condition_bound hf h hc
  obtain ⟨d1, d2, a1, a2, r1, r2, r3, r4⟩ := d_near hm hf h hc
  obtain ⟨z, b1, b2, b3⟩ := carry_near hm hf h ho.exponents
  obtain ⟨c, e1, e2⟩ := cdf_at hm hf hQ.le hc r3 r1
  have hb : Box 1000 |exp ((o.exact.b - o.exact.r) * o.exact.T)| := by
    rw [abs_of_pos (exp_pos _)]; exact (exp_box b2).mono (by norm_num)
  rw [← abs_of_pos (exp_pos ((o.exact.b - o.exact.r) * o.exact.T))] at b3 ⊢
  rw [abs_of_pos (exp_pos ((o.exact.b - o.exact.r) * o.exact.T))] at b3
  have hX := exp_pos ((o.exact.b - o.exact.r) * o.exact.T)
  have hδE : δ * o.exact.exponents ≤ 1 / 1000000 * o.exact.exponents := by gcongr
  have hδE0 : 0 ≤ δ * o.exact.exponents := by positivity
  have hδQ0 : 0 ≤ δ * o.exact.condition := by positivity
  have hQ2 : δ * o.exact.condition ≤ 1 / 1024 := hc.trans (by norm_num)
  have hP := Phi_mem o.exact.d1
  have b3' : |F64.real z - exp ((o.exact.b - o.exact.r) * o.exact.T)| ≤
      δ * (2 + 3 * o.exact.exponents) * |exp ((o.exact.b - o.exact.r) * o.exact.T)| := by rw [abs_of_pos hX]; exact b3
  cases ht : o.optionType with
  | call =>
    obtain ⟨p, h3, h4⟩ := term hb b3' (by positivity) (by linarith) e2 (by linarith) (by rw [abs_of_pos hP.1]; exact hP.2.le)
    refine ⟨p, ?_, h4.trans (mul_le_mul_of_nonneg_right (by linarith) (abs_nonneg _))⟩
    simp only [Contract.delta, a1, b1, ht, e1, h3, Option.bind_eq_bind, Option.bind_some]
  | put =>
    obtain ⟨one, g1, g2⟩ := one_some
    have e3 : |F64.real c - F64.real one - (Phi o.exact.d1 - 1)| ≤ δ * (2 + 13 * o.exact.condition) := by
      rw [g2, show F64.real c - 1 - (Phi o.exact.d1 - 1) = F64.real c - Phi o.exact.d1 by ring]; exact e2
    have e4 : |F64.real c - F64.real one| ≤ 11 / 10 := by
      have := abs_le.1 e2
      rw [g2, abs_le]
      constructor <;> linarith
    obtain ⟨q, g3, g4⟩ := subR (a := c) (b := one) (top_of 1 (by norm_num) (e4.trans (by norm_num)))
    have e5 : |F64.real q - (Phi o.exact.d1 - 1)| ≤ δ * (3 + 13 * o.exact.condition) := by
      rw [show F64.real q - (Phi o.exact.d1 - 1) = (F64.real q - (F64.real c - F64.real one)) +
        (F64.real c - F64.real one - (Phi o.exact.d1 - 1)) by ring]
      refine (abs_add_le _ _).trans ?_
      have := mul_le_mul_of_nonneg_left e4 hu.le
      linarith
    obtain ⟨p, h3, h4⟩ := term hb b3' (by positivity) (by linarith) e5 (by linarith)
      (by rw [abs_le]; constructor <;> linarith)
    refine ⟨p, ?_, h4.trans (mul_le_mul_of_nonneg_right (by linarith) (abs_nonneg _))⟩
    simp only [Contract.delta, a1, b1, ht, e1, g1, g3, h3, Option.bind_eq_bind, Option.bind_some]

/-! ### Cases that meet the hypotheses -/

/-- Every real number in range has a double next to it. -/
theorem double_near (y : ℝ) (h : |y| ≤ 2 ^ 1000) : ∃ r : F64, |F64.real r - y| ≤ 2 * ur * |y| + 4 * mu := by
  have hmu := mu_pos
  have hu := ur_pos
  have hu1 := Fft.ur_le
  obtain ⟨q, hq1, hq2⟩ := exists_rat_btwn (show y < y + mu by linarith)
  have h1 : |(q : ℝ) - y| ≤ mu := by rw [abs_le]; constructor <;> linarith
  have h2 : |(q : ℝ)| ≤ |y| + mu := by
    rw [show (q : ℝ) = (q - y) + y by ring]
    exact (abs_add_le _ _).trans (by linarith)
  have hmu1 : mu ≤ 2 ^ 1000 := by
    have : mu ≤ 1 := by have := mu_ur; linarith
    exact this.trans (one_le_pow₀ (by norm_num))
  obtain ⟨r, -, h4⟩ := toF64_total (x := q) (top_large (x := 2 ^ 1000) le_rfl (by
    have key : ∀ a b c t : ℝ, a ≤ b + c → b ≤ t → c ≤ t → 0 < c → a ≤ 4 * t := by intro a b c t _ _ _ _; linarith
    exact key _ _ _ _ h2 h hmu1 hmu))
  refine ⟨r, ?_⟩
  have h5 := rnd_real q
  rw [← h4] at h5
  change |F64.real r - q| ≤ _ at h5
  rw [show F64.real r - y = (F64.real r - q) + (q - y) by ring]
  refine (abs_add_le _ _).trans ?_
  have h6 := mul_le_mul_of_nonneg_left h2 hu.le
  have h7 : 0 ≤ ur * |y| := by positivity
  have h8 : ur * mu ≤ 1 * mu := by gcongr; linarith
  linarith

/-- The double next to a real number, when there is one. -/
noncomputable def nearest (y : ℝ) : Option F64 := by
  classical exact if h : |y| ≤ 2 ^ 1000 then some (double_near y h).choose else none

theorem nearest_spec {y : ℝ} (h : |y| ≤ 2 ^ 1000) : ∃ r, nearest y = some r ∧ |F64.real r - y| ≤ 2 * ur * |y| + 4 * mu :=
  ⟨(double_near y h).choose, by unfold nearest; rw [dif_pos h], (double_near y h).choose_spec⟩

/-- A platform whose functions give the next double. -/
noncomputable def someLibm : Libm :=
  ⟨fun x => nearest (exp (F64.real x)), fun x => nearest (log (F64.real x)), someSqrt,
    fun x => nearest (Distributions.erfc (F64.real x))⟩

theorem log_range (x : F64) (hx : 0 < F64.real x) : |log (F64.real x)| ≤ 2000 := by
  have hv : 0 < x.val := by unfold F64.real at hx; exact_mod_cast hx
  have h1 : (2 : ℝ) ^ (-1074 : ℤ) ≤ F64.real x := by
    obtain ⟨n, hn⟩ := rep_grid x.rep
    have hn1 : 1 ≤ n := by
      by_contra hc
      have : (n : ℚ) ≤ 0 := by exact_mod_cast (by omega : n ≤ 0)
      have : (n : ℚ) * 2 ^ (-1074 : ℤ) ≤ 0 := mul_nonpos_of_nonpos_of_nonneg this (by positivity)
      linarith
    unfold F64.real
    rw [hn]
    push_cast
    exact le_mul_of_one_le_left (by positivity) (by exact_mod_cast hn1)
  have h2 : F64.real x ≤ (2 : ℝ) ^ (1024 : ℤ) := by
    have h1 : x.val ≤ 2 ^ 1024 := (le_abs_self _).trans x.fin.le
    have := (Rat.cast_le (K := ℝ)).2 h1
    rw [Rat.cast_pow] at this
    exact this
  have e1 := Real.log_le_log (by positivity) h1
  have e2 := Real.log_le_log hx h2
  rw [Real.log_zpow] at e1 e2
  have h3 := Real.log_two_lt_d9
  have h4 := Real.log_two_gt_d9
  push_cast at e1 e2
  rw [abs_le]
  constructor <;> linarith

theorem someLibm_accurate : someLibm.Accurate (2 ^ (-50 : ℤ)) := by
  have hu : 2 ^ (-50 : ℤ) = 8 * ur := by unfold Fft.ur; norm_num
  have hur := ur_pos
  have hmu := mu_pos
  have hmu4 := mu_ur
  rw [hu]
  refine ⟨fun x hx => ?_, fun x hx => ?_, fun x hx => ?_, fun x => ?_⟩
  · have hb : Box 1000 (exp (F64.real x)) := by
      have h1 : exp 500 ≤ (2 : ℝ) ^ 1000 := by
        rw [show (500 : ℝ) = ((500 : ℕ) : ℝ) * 1 by norm_num, Real.exp_nat_mul]
        have : exp 1 ≤ (2 : ℝ) ^ 2 := by have := Real.exp_one_lt_d9; norm_num at this ⊢; linarith
        calc exp 1 ^ 500 ≤ ((2 : ℝ) ^ 2) ^ 500 := by gcongr
          _ = 2 ^ 1000 := by rw [← pow_mul]
      have h2 := abs_le.1 hx
      refine ⟨?_, (exp_le_exp.2 h2.2).trans h1⟩
      have h3 : exp (-500) ≤ exp (F64.real x) := exp_le_exp.2 h2.1
      rw [Real.exp_neg] at h3
      exact (inv_anti₀ (exp_pos _) h1).trans h3
    obtain ⟨r, h1, h2⟩ := nearest_spec (y := exp (F64.real x)) (by rw [abs_of_pos hb.pos]; exact hb.2)
    refine ⟨r, h1, h2.trans ?_⟩
    rw [abs_of_pos hb.pos]
    have := mu_small hb
    have := mul_pos hur hb.pos
    linarith
  · have hl := log_range x hx
    obtain ⟨r, h1, h2⟩ := nearest_spec (y := log (F64.real x)) (hl.trans (by
      calc (2000 : ℝ) ≤ 2 ^ 11 := by norm_num
        _ ≤ _ := pow_le_pow_right₀ (by norm_num) (by norm_num)))
    refine ⟨r, h1, h2.trans ?_⟩
    have : 0 ≤ ur * |log (F64.real x)| := by positivity
    linarith
  · obtain ⟨r, h1, h2⟩ := someSqrt_accurate x (by unfold F64.real at hx; exact_mod_cast hx)
    refine ⟨r, h1, h2.trans ?_⟩
    have : 0 ≤ ur * √(F64.real x) := by positivity
    change 2 * ur * √(F64.real x) ≤ _
    linarith
  · have hP := Phi_mem (-(√2 * F64.real x))
    have h0 : |Distributions.erfc (F64.real x)| ≤ 2 := by
      rw [erfc_eq, abs_le]; constructor <;> linarith
    obtain ⟨r, h1, h2⟩ := nearest_spec (y := Distributions.erfc (F64.real x)) (h0.trans (by
      calc (2 : ℝ) ≤ 2 ^ 1 := by norm_num
        _ ≤ _ := pow_le_pow_right₀ (by norm_num) (by norm_num)))
    refine ⟨r, h1, h2.trans ?_⟩
    have := mul_le_mul_of_nonneg_left h0 hur.le
    linarith

/-- A put at 100 struck at 105, with a volatility of 25 % and a rate of 6.25 %, over one year. -/
def someContract : Contract := ⟨lit (1 / 16), lit 100, lit 105, lit (1 / 4), lit (1 / 16), lit 1, .put⟩

theorem real_lit {q : ℚ} (h : (lit q).val = q) : F64.real (lit q) = q := by unfold F64.real; rw [h]

theorem someContract_exact : someContract.exact = ⟨100, 105, 1 / 4, 1 / 16, 1 / 16, 1⟩ := by
  have h1 := real_lit (q := 1 / 16) (by decide +kernel)
  have h2 := real_lit (q := 100) (by decide +kernel)
  have h3 := real_lit (q := 105) (by decide +kernel)
  have h4 := real_lit (q := 1 / 4) (by decide +kernel)
  simp only [Contract.exact, someContract, h1, h2, h3, h4, real_one]
  push_cast
  rfl

theorem box_zpow {x : ℝ} {i : ℕ} (j : ℕ) (hj : j ≤ i) (h1 : (2 : ℝ) ^ (-(j : ℤ)) ≤ x) (h2 : x ≤ 2 ^ j) : 2 ^ (-(i : ℤ)) ≤ x ∧ x ≤ 2 ^ i :=
  ⟨(zpow_le_zpow_right₀ (by norm_num) (by omega)).trans h1, h2.trans (pow_le_pow_right₀ (by norm_num) hj)⟩

theorem someContract_ordinary : someContract.exact.Ordinary := by
  rw [someContract_exact]
  refine ⟨?_, ?_, ?_, ?_, ?_⟩
  · exact box_zpow (i := 200) 7 (by norm_num) (by norm_num) (by norm_num)
  · exact box_zpow (i := 200) 7 (by norm_num) (by norm_num) (by norm_num)
  · exact box_zpow (i := 100) 7 (by norm_num) (by norm_num) (by norm_num)
  · exact box_zpow (i := 100) 7 (by norm_num) (by norm_num) (by norm_num)
  · norm_num [Exact.exponents]

theorem someContract_condition : someContract.exact.condition ≤ 5 := by
  rw [someContract_exact]
  have h1 := Real.one_sub_inv_le_log_of_pos (show (0 : ℝ) < 100 / 105 by norm_num)
  have h2 := Real.log_le_sub_one_of_pos (show (0 : ℝ) < 100 / 105 by norm_num)
  have h3 : |log (100 / 105 : ℝ)| ≤ 1 / 10 := by
    rw [abs_le]; norm_num at h1 h2 ⊢; constructor <;> linarith
  have hw : Exact.width ⟨100, 105, 1 / 4, 1 / 16, 1 / 16, 1⟩ = 1 / 4 := by simp [Exact.width]
  simp only [Exact.condition]
  rw [hw, div_le_iff₀ (by norm_num), abs_of_pos (show (0 : ℝ) < 1 / 16 by norm_num)]
  norm_num at h3 ⊢
  linarith

theorem someContract_fine : (2 : ℝ) ^ (-50 : ℤ) * someContract.exact.condition ≤ 2 ^ (-10 : ℤ) := by
  have := mul_le_mul_of_nonneg_left someContract_condition (show (0 : ℝ) ≤ 2 ^ (-50 : ℤ) by positivity)
  refine this.trans (by norm_num)

/-- `C98_price_error` and `C98_delta_error` apply to it, on a platform that is right up to `2^-50`: the price is then right up to `2 · 10^-11`. -/
example : ∃ p, someContract.price someLibm = some p ∧
    |F64.real p - someContract.exact.price .put| ≤ 2 / 10 ^ 11 := by
  obtain ⟨p, h1, h2⟩ := C98_price_error someLibm (2 ^ (-50 : ℤ)) (zpow_le_zpow_right₀ (by norm_num) (by norm_num))
    (zpow_le_zpow_right₀ (by norm_num) (by norm_num)) someLibm_accurate someContract someContract_ordinary someContract_fine
  refine ⟨p, h1, h2.trans ?_⟩
  have hc := someContract_condition
  have hc0 := (condition_bound ⟨zpow_le_zpow_right₀ (by norm_num) (by norm_num), zpow_le_zpow_right₀ (by norm_num) (by norm_num)⟩
    (facts someContract_ordinary) someContract_fine).1
  have he : someContract.exact.exponents = 1 / 8 := by rw [someContract_exact]; norm_num [Exact.exponents]
  have ha : someContract.exact.asset = 100 := by rw [someContract_exact]; simp [Exact.asset]
  have hk : someContract.exact.cash ≤ 105 := by
    rw [someContract_exact]
    have : exp (-(1 / 16) * 1) ≤ (1 : ℝ) := Real.exp_le_one_iff.2 (by norm_num)
    simp only [Exact.cash]
    linarith
  have hk0 : 0 < someContract.exact.cash := by
    rw [someContract_exact]; simp only [Exact.cash]; positivity
  rw [he, ha]
  generalize someContract.exact.condition = Q at *
  generalize someContract.exact.cash = C at *
  have : (8 + 4 * (1 / 8) + 13 * Q) * (100 + C) ≤ 80 * 205 := mul_le_mul (by linarith) (by linarith) (by linarith) (by norm_num)
  rw [mul_assoc]
  refine (mul_le_mul_of_nonneg_left this (by positivity)).trans ?_
  norm_num

example : ∃ d, someContract.delta someLibm = some d := by
  obtain ⟨d, h1, _⟩ := C98_delta_error someLibm (2 ^ (-50 : ℤ)) (zpow_le_zpow_right₀ (by norm_num) (by norm_num))
    (zpow_le_zpow_right₀ (by norm_num) (by norm_num)) someLibm_accurate someContract someContract_ordinary someContract_fine
  exact ⟨d, h1⟩

example : ∃ c p, { someContract with optionType := .call }.price someLibm = some c ∧
    { someContract with optionType := .put }.price someLibm = some p := by
  obtain ⟨c, p, h1, h2, _⟩ := C98_parity someLibm (2 ^ (-50 : ℤ)) (zpow_le_zpow_right₀ (by norm_num) (by norm_num))
    (zpow_le_zpow_right₀ (by norm_num) (by norm_num)) someLibm_accurate someContract someContract_ordinary someContract_fine
  exact ⟨c, p, h1, h2⟩

end Verif.Float.Bsm
