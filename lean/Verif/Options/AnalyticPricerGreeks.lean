import Verif.Options.AnalyticPricerProps
import Verif.Options.HestonBranchProps

/-!
# C77, continued: rho and ultima, and the greeks with the Bachelier and Heston models
-/

namespace Verif.Options

open Real Verif.Time MeasureTheory ProbabilityTheory

/-! ## Specification -/

/-- The same model with another (domestic) interest rate; the Asay model has none. -/
def GbsmModel.withRate : GbsmModel → ℝ → GbsmModel
  | .blackScholes73 s _ v, x => .blackScholes73 s x v
  | .merton73 s _ q v, x => .merton73 s x q v
  | .black76 f _ v, x => .black76 f x v
  | .asay82 f v, _ => .asay82 f v
  | .garmanKohlhagen83 s _ rf v, x => .garmanKohlhagen83 s x rf v

/-- Whether the underlying is an asset that must be financed, so that its growth rate moves with the interest rate. -/
def GbsmModel.Financed : GbsmModel → Prop
  | .blackScholes73 .. | .merton73 .. | .garmanKohlhagen83 .. => True
  | .black76 .. | .asay82 .. => False

namespace AnalyticPricer

/-- **C77.** Rho is the derivative of the price in the interest rate for the models of a stock, of a stock with dividends and
of a currency. -/
theorem C77_rho (p : AnalyticPricer VanillaOption GbsmModel) {s v r b : ℝ} (hm : Assumes p.model s v r b) (hs : 0 < s)
    (hv : 0 < v) (hk : 0 < p.option.strike) {today : Date} {n : ℕ} (hn : 0 < n)
    (h : today.addDays n = some p.option.expiry) (hF : p.model.Financed) :
    ∃ f : ℝ → ℝ, (∀ x, (p.setModel (p.model.withRate x)).price today = some (f x)) ∧
      HasDerivAt f (p.greek today .rho) r := by
  obtain ⟨o, m⟩ := p
  have eT : ∀ m', AnalyticPricer.timeLeft ⟨o, m'⟩ today = (n : ℝ) / 365.25 :=
    fun (m' : GbsmModel) => timeLeft_before (by exact h)
  obtain ⟨r1, r2, r3, -⟩ := GbsmModel.C47_models_rho o.strike (n / 365.25) hk (years_pos hn)
  refine ⟨fun x => (m.withRate x).price o.strike (n / 365.25) o.typeFlag, ?_, ?_⟩
  · intro x
    simp only [price, setModel, GbsmModel.priceF, eT]
    rw [if_neg]
    have : (m.withRate x).v = m.v := by cases m <;> rfl
    rw [this, (hm.eqs).2.1]
    exact years_sqrt_ne hn hv
  · simp only [greek, eT]
    cases hm with
    | stock => exact r1 _ _ _ _ hs hv
    | dividend => exact r2 _ _ _ _ _ hs hv
    | currency => exact r3 _ _ _ _ _ hs hv
    | future => exact hF.elim
    | margined => exact hF.elim

/-- **C77, defect.** For a call on a futures price rho is positive although the price falls when the interest rate rises, by
`n / 365.25` times itself. -/
theorem C77_future_rho_wrong (f r v k : ℝ) (hf : 0 < f) (hv : 0 < v) (hk : 0 < k) {expiry today : Date} {n : ℕ} (hn : 0 < n)
    (h : today.addDays n = some expiry) :
    ∃ c : ℝ → ℝ, (∀ x, AnalyticPricer.price ⟨⟨k, expiry, .call⟩, .black76 f x v⟩ today = some (c x)) ∧
      HasDerivAt c (-(n / 365.25) * c r) r ∧ -(n / 365.25) * c r < 0 ∧
      0 < AnalyticPricer.greek ⟨⟨k, expiry, .call⟩, .black76 f r v⟩ today .rho := by
  obtain ⟨a1, -, a2, a3, -⟩ := Bsm.C47_rho_fixed_carry (r := r) (b := 0) hf hk (years_pos hn) hv
  have eT : ∀ m', AnalyticPricer.timeLeft ⟨(⟨k, expiry, .call⟩ : VanillaOption), m'⟩ today = (n : ℝ) / 365.25 :=
    fun (m' : GbsmModel) => timeLeft_before (by exact h)
  refine ⟨fun x => Bsm.callPrice f k (n / 365.25) x 0 v, ?_, a1, a2, ?_⟩
  · intro x
    simp only [price, GbsmModel.priceF, eT]
    rw [if_neg (by exact years_sqrt_ne hn hv)]
    rfl
  · simp only [greek, eT]
    exact a3

example := C77_future_rho_wrong 100 0.03 0.2 110 (by norm_num) (by norm_num) (by norm_num) (expiry := ⟨2025, 1, 1, by decide⟩)
  (today := ⟨2024, 12, 21, by decide⟩) (n := 11) (by norm_num) (by rw [Date.addDays_eq_some_iff]; decide)

/-- **C77, defect.** Ultima is meant to be the derivative of vomma in the volatility, but differs from it by twice
`vomma / volatility · d2 / d1`, `d1` being the standardised logarithm of the moneyness and `d2 = d1 - v √t`. -/
theorem C77_ultima (p : AnalyticPricer VanillaOption GbsmModel) {s v r b : ℝ} (hm : Assumes p.model s v r b) (hs : 0 < s)
    (hv : 0 < v) (hk : 0 < p.option.strike) {today : Date} {n : ℕ} (hn : 0 < n)
    (h : today.addDays n = some p.option.expiry) (d1 d2 : ℝ)
    (hd1 : d1 = (log (s / p.option.strike) + (b + v ^ 2 / 2) * (n / 365.25)) / (v * √(n / 365.25)))
    (hd2 : d2 = d1 - v * √(n / 365.25)) (h1 : d1 ≠ 0) (h2 : d2 ≠ 0) :
    HasDerivAt (fun x => (p.setModel (p.model.withVol x)).greek today .vomma)
      (p.greek today .ultima - 2 * (p.greek today .vomma / v) * (d2 / d1)) v := by
  obtain ⟨rfl, rfl, rfl, rfl⟩ := hm.eqs
  obtain ⟨⟨k, e, f⟩, m⟩ := p
  simp only at hs hk hv h hd1 hd2
  have ht := years_pos hn
  have eT : ∀ m', AnalyticPricer.timeLeft ⟨(⟨k, e, f⟩ : VanillaOption), m'⟩ today = (n : ℝ) / 365.25 :=
    fun (m' : GbsmModel) => timeLeft_before (by exact h)
  have e1 : Bsm.d1 m.s k (n / 365.25) m.b m.v = d1 := by
    rw [hd1]; unfold Bsm.d1; norm_num; ring
  have e2 : Bsm.d2 m.s k (n / 365.25) m.b m.v = d2 := by
    rw [hd2, ← e1]; rfl
  have := (Bsm.C47_ultima_wrong (r := m.r) (b := m.b) hs hk ht hv (by rw [e1]; exact h1) (by rw [e2]; exact h2)).1
  rw [e1, e2] at this
  simpa only [greek, eT, setModel, GbsmModel.vomma, GbsmModel.ultima, GbsmModel.withVol_s, GbsmModel.withVol_r,
    GbsmModel.withVol_b, GbsmModel.withVol_v] using this

/-- An instance: an option on a future at the money, where `d1 = -d2`. -/
example := C77_ultima ⟨⟨100, ⟨2025, 1, 1, by decide⟩, .put⟩, .black76 100 0.03 0.2⟩ (.future _ _ _)
  (by norm_num) (by norm_num) (by norm_num) (today := ⟨2024, 12, 21, by decide⟩) (n := 11) (by norm_num)
  (by rw [Date.addDays_eq_some_iff]; decide) (0.1 * √(11 / 365.25)) (-0.1 * √(11 / 365.25))
  (by
    have h := Real.sq_sqrt (show (0 : ℝ) ≤ 11 / 365.25 by norm_num)
    have h0 : 0 < √(11 / 365.25 : ℝ) := Real.sqrt_pos.2 (by norm_num)
    push_cast
    rw [eq_div_iff (by positivity), div_self (by norm_num), Real.log_one]
    linear_combination 0.02 * h)
  (by push_cast; ring) (by positivity) (by
    have h0 : 0 < √(11 / 365.25 : ℝ) := Real.sqrt_pos.2 (by norm_num)
    nlinarith)

/-- **C77.** With the Bachelier model and a volatility of zero the price is the discounted payoff of the forward price, or not
a number at the money. -/
theorem C77_bachelier_zero_volatility (p : AnalyticPricer VanillaOption Bachelier) (hv : p.model.v = 0) {today : Date} {n : ℕ}
    (h : today.addDays n = some p.option.expiry) :
    (p.model.f ≠ p.option.strike →
      p.bachelierPrice today = some (exp (-p.model.r * (n / 365.25)) * p.option.payoff p.model.f)) ∧
    (p.model.f = p.option.strike → p.bachelierPrice today = none) := by
  unfold bachelierPrice Bachelier.priceF
  rw [timeLeft_before h, if_pos (by rw [hv, zero_mul])]
  obtain ⟨⟨k, e, f⟩, m⟩ := p
  constructor
  · intro hne
    simp only at hne ⊢
    rcases lt_or_gt_of_ne hne with hlt | hgt
    · rw [if_neg (by linarith), if_pos (by linarith)]
      cases f
      · simp only [VanillaOption.payoff, vanillaPayoff]; rw [max_eq_right (by linarith), mul_zero]
      · simp only [VanillaOption.payoff, vanillaPayoff]; rw [max_eq_left (by linarith)]
    · rw [if_pos (by linarith)]
      cases f
      · simp only [VanillaOption.payoff, vanillaPayoff]; rw [max_eq_left (by linarith)]
      · simp only [VanillaOption.payoff, vanillaPayoff]; rw [max_eq_right (by linarith), mul_zero]
  · intro heq
    rw [heq, sub_self, if_neg (lt_irrefl _), if_neg (lt_irrefl _)]

example := C77_bachelier_zero_volatility ⟨⟨110, ⟨2025, 1, 1, by decide⟩, .put⟩, ⟨100, 0.03, 0⟩⟩ rfl
  (today := ⟨2024, 12, 21, by decide⟩) (n := 11) (by rw [Date.addDays_eq_some_iff]; decide)

/-- **C77.** With the Bachelier model delta and vega are the derivatives of the *undiscounted* price in the forward price and in
the volatility, gamma is the derivative of delta, and theta is the derivative of the undiscounted price in calendar time:
the discounted price changes by `discount · theta + rate · price` as time passes. -/
theorem C77_bachelier_greeks (p : AnalyticPricer VanillaOption Bachelier) (hv : 0 < p.model.v) {today : Date} {n : ℕ}
    (hn : 0 < n) (h : today.addDays n = some p.option.expiry) :
    (∃ f : ℝ → ℝ, (∀ x, (p.setModel { p.model with f := x }).bachelierPrice today =
        some (exp (-p.model.r * (n / 365.25)) * f x)) ∧ HasDerivAt f (p.bachelierDelta today) p.model.f) ∧
    HasDerivAt (fun x => (p.setModel { p.model with f := x }).bachelierDelta today) (p.bachelierGamma today) p.model.f ∧
    (∃ f : ℝ → ℝ, (∀ x, 0 < x → (p.setModel { p.model with v := x }).bachelierPrice today =
        some (exp (-p.model.r * (n / 365.25)) * f x)) ∧ HasDerivAt f (p.bachelierVega today) p.model.v) ∧
    (∃ f : ℝ → ℝ, (∀ (d : Date) (i : ℕ), 0 < i → d.addDays i = some p.option.expiry →
        p.bachelierPrice d = some (f (i / 365.25))) ∧
      HasDerivAt f (-(exp (-p.model.r * (n / 365.25)) * p.bachelierTheta today + p.model.r * f (n / 365.25))) (n / 365.25)) := by
  obtain ⟨o, m⟩ := p
  simp only at hv h
  have ht := years_pos hn
  have hw := years_sqrt_ne hn hv
  have hE := exp_pos (-m.r * ((n : ℝ) / 365.25))
  have eT : ∀ m', AnalyticPricer.timeLeft ⟨o, m'⟩ today = (n : ℝ) / 365.25 :=
    fun (m' : Bachelier) => timeLeft_before (by exact h)
  obtain ⟨g1, g2, g3⟩ := Bachelier.C59_greeks m o.strike (n / 365.25) ht hv o.typeFlag
  refine ⟨⟨fun x => (exp (-m.r * (n / 365.25)))⁻¹ * ({ m with f := x } : Bachelier).price o.strike (n / 365.25) o.typeFlag,
      fun x => ?_, ?_⟩, ?_,
    ⟨fun x => (exp (-m.r * (n / 365.25)))⁻¹ * ({ m with v := x } : Bachelier).price o.strike (n / 365.25) o.typeFlag,
      fun x hx => ?_, ?_⟩,
    ⟨fun t => m.price o.strike t o.typeFlag, fun d i hi hd => ?_, ?_⟩⟩
  · simp only [bachelierPrice, setModel, Bachelier.priceF, eT]
    rw [if_neg hw, mul_inv_cancel_left₀ hE.ne']
  · simp only [bachelierDelta, eT]
    refine (g1.const_mul (exp (-m.r * (n / 365.25)))⁻¹).congr_deriv ?_
    rw [inv_mul_cancel_left₀ hE.ne']
  · simp only [bachelierDelta, bachelierGamma, setModel, eT]
    exact g2
  · simp only [bachelierPrice, setModel, Bachelier.priceF, eT]
    rw [if_neg (years_sqrt_ne hn hx), mul_inv_cancel_left₀ hE.ne']
  · simp only [bachelierVega, eT]
    refine (g3.const_mul (exp (-m.r * (n / 365.25)))⁻¹).congr_deriv ?_
    rw [inv_mul_cancel_left₀ hE.ne']
  · simp only [bachelierPrice, Bachelier.priceF]
    rw [timeLeft_before hd, if_neg (years_sqrt_ne hi hv)]
  · simp only [bachelierTheta, eT]
    exact Bachelier.C59_theta m o.strike (n / 365.25) ht hv o.typeFlag

example := C77_bachelier_greeks ⟨⟨110, ⟨2025, 1, 1, by decide⟩, .put⟩, ⟨100, 0.03, 20⟩⟩ (by norm_num)
  (today := ⟨2024, 12, 21, by decide⟩) (n := 11) (by norm_num) (by rw [Date.addDays_eq_some_iff]; decide)

/-- **C77.** The implied volatility of the Bachelier model ignores discounting: away from the money it is zero at the
undiscounted intrinsic value of the option, and not a number exactly for the prices below it. The at-the-money volatility
recovers the volatility from the at-the-money price. -/
theorem C77_bachelier_implied (p : AnalyticPricer VanillaOption Bachelier) (hk : p.option.strike ≠ p.model.f) {today : Date}
    {n : ℕ} (hn : 0 < n) (h : today.addDays n = some p.option.expiry) :
    p.bachelierIv (p.option.payoff p.model.f) today = some 0 ∧
    (∀ x, 0 < x → (p.bachelierIv x today = none ↔ x < p.option.payoff p.model.f)) ∧
    p.bachelierAtmVol (p.bachelierAtmPrice today) today = p.model.v := by
  obtain ⟨⟨k, e, f⟩, m⟩ := p
  simp only at hk h
  have ht := years_pos hn
  have hi : Bachelier.intrinsic m.f k f = VanillaOption.payoff ⟨k, e, f⟩ m.f := by cases f <;> rfl
  have h1 := Bachelier.C59_iv_intrinsic m k _ ht hk f
  rw [hi] at h1
  unfold bachelierIv bachelierAtmVol bachelierAtmPrice
  simp only
  rw [timeLeft_before (by exact h)]
  exact ⟨h1.1, h1.2, (Bachelier.C59_at_the_money m _ ht f).2.1⟩

/-- **C77.** With the Heston model gamma is the derivative of delta in the spot price, and delta and rho deviate from the
derivatives of the price, which is computed with a quadrature, consistently: the error of rho is time times spot price
times the error of delta. -/
theorem C77_heston_greeks (p : AnalyticPricer VanillaOption Heston93) (hm : p.model.Regular) (hs : 0 < p.model.s)
    (hk : 0 < p.option.strike) {today : Date} {n : ℕ} (h : today.addDays n = some p.option.expiry)
    (hr : p.model.OffBranchCut (n / 365.25)) :
    HasDerivAt (fun x => (p.setModel { p.model with s := x }).hestonDelta today) (p.hestonGamma today) p.model.s ∧
    ∃ Us Ur, HasDerivAt (fun x => (p.setModel { p.model with s := x }).hestonPrice today) Us p.model.s ∧
      HasDerivAt (fun x => (p.setModel { p.model with r := x }).hestonPrice today) Ur p.model.r ∧
      Ur - p.hestonRho today = n / 365.25 * p.model.s * (Us - p.hestonDelta today) := by
  obtain ⟨o, m⟩ := p
  have eT : ∀ m', AnalyticPricer.timeLeft ⟨o, m'⟩ today = (n : ℝ) / 365.25 :=
    fun (m' : Heston93) => timeLeft_before (by exact h)
  simp only [hestonDelta, hestonGamma, hestonPrice, hestonRho, setModel, eT]
  exact ⟨Heston93.C61_gamma m hm hs _ hk _ hr _, Heston93.C61_delta_rho m hm hs _ hk _ hr _⟩

/-- An instance: a week before the expiry of a put. -/
example := C77_heston_greeks ⟨⟨110, ⟨2025, 1, 1, by decide⟩, .put⟩, Heston93.sample⟩ Heston93.sample_mr.toRegular
  (by norm_num [Heston93.sample]) (by norm_num) (today := ⟨2024, 12, 25, by decide⟩) (n := 7)
  (by rw [Date.addDays_eq_some_iff]; decide) (Heston93.C61_short_expiry _ Heston93.sample_mr.toRegular (by norm_num [Heston93.sample]) _
    (by norm_num) (by norm_num [Heston93.sample]))

/-- **C77.** With the Heston model the deltas of call and put differ by the dividend discount, the gammas agree, and the rhos
differ by the derivative of the discounted strike. -/
theorem C77_heston_greeks_parity (m : Heston93) (k : ℝ) {expiry today : Date} {n : ℕ} (h : today.addDays n = some expiry) :
    hestonDelta ⟨⟨k, expiry, .call⟩, m⟩ today - hestonDelta ⟨⟨k, expiry, .put⟩, m⟩ today = exp (-m.q * (n / 365.25)) ∧
    hestonGamma ⟨⟨k, expiry, .call⟩, m⟩ today = hestonGamma ⟨⟨k, expiry, .put⟩, m⟩ today ∧
    hestonRho ⟨⟨k, expiry, .call⟩, m⟩ today - hestonRho ⟨⟨k, expiry, .put⟩, m⟩ today =
      k * (n / 365.25) * exp (-m.r * (n / 365.25)) := by
  unfold hestonDelta hestonGamma hestonRho
  rw [timeLeft_before (by exact h), timeLeft_before (by exact h)]
  exact (Heston93.C61_parity m k _).2

/-! ## Non-vacuity -/

/-- Eleven days before the expiry of a put on a currency, and of one priced with the Bachelier model. -/
example : ∃ a b : Date, Date.ofYMD 2024 12 21 = some a ∧ Date.ofYMD 2025 1 1 = some b ∧
    (∃ f : ℝ → ℝ, (∀ x, AnalyticPricer.price ⟨⟨110, b, .put⟩, .garmanKohlhagen83 100 x 0.01 0.2⟩ a = some (f x)) ∧
      HasDerivAt f (AnalyticPricer.greek ⟨⟨110, b, .put⟩, .garmanKohlhagen83 100 0.03 0.01 0.2⟩ a .rho) 0.03) ∧
    (∀ x, 0 < x → (bachelierIv ⟨⟨110, b, .put⟩, ⟨100, 0.03, 20⟩⟩ x a = none ↔ x < 10)) := by
  refine ⟨⟨2024, 12, 21, by decide⟩, ⟨2025, 1, 1, by decide⟩, rfl, rfl, ?_, ?_⟩
  · refine C77_rho ⟨⟨110, ⟨2025, 1, 1, by decide⟩, .put⟩, .garmanKohlhagen83 100 0.03 0.01 0.2⟩ (.currency _ _ _ _)
      (by norm_num) (by norm_num) (by norm_num) (n := 11) (by norm_num) ?_ trivial
    rw [Date.addDays_eq_some_iff]; decide
  · have := (C77_bachelier_implied ⟨⟨110, ⟨2025, 1, 1, by decide⟩, .put⟩, ⟨100, 0.03, 20⟩⟩ (by norm_num)
      (today := ⟨2024, 12, 21, by decide⟩) (n := 11) (by norm_num) (by rw [Date.addDays_eq_some_iff]; decide)).2.1
    simp only [VanillaOption.payoff, vanillaPayoff] at this
    norm_num at this ⊢
    exact this

end AnalyticPricer

end Verif.Options
