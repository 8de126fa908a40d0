import Verif.Options.AnalyticPricer
import Verif.Options.BsmProps
import Verif.Options.BachelierProps
import Verif.Options.HestonProps
import Verif.Time.UtilProps

/-!
# C77: the analytic option pricer

Specification and theorems. `a.addDays n = some b` says that `b` is the date `n` days after `a`.
-/

namespace Verif.Options

open Real Verif.Time MeasureTheory ProbabilityTheory

/-! ## Specification -/

/-- What each model assumes of its underlying: `Assumes m s v r b` says that the underlying starts at `s`, is lognormal with
volatility `v` and mean growth rate `b`, and that payments are discounted at rate `r`. A stock without dividends grows at the
interest rate, one with a dividend yield at the difference, a futures price does not grow, a futures option margined like
the future is not discounted, a currency grows at the difference of the two rates. -/
inductive Assumes : GbsmModel → ℝ → ℝ → ℝ → ℝ → Prop
  | stock (s r v : ℝ) : Assumes (.blackScholes73 s r v) s v r r
  | dividend (s r q v : ℝ) : Assumes (.merton73 s r q v) s v r (r - q)
  | future (f r v : ℝ) : Assumes (.black76 f r v) f v r 0
  | margined (f v : ℝ) : Assumes (.asay82 f v) f v 0 0
  | currency (s rd rf v : ℝ) : Assumes (.garmanKohlhagen83 s rd rf v) s v rd (rd - rf)

/-- The same model with another price of the underlying. -/
def GbsmModel.withSpot : GbsmModel → ℝ → GbsmModel
  | .blackScholes73 _ r v, x => .blackScholes73 x r v
  | .merton73 _ r q v, x => .merton73 x r q v
  | .black76 _ r v, x => .black76 x r v
  | .asay82 _ v, x => .asay82 x v
  | .garmanKohlhagen83 _ rd rf v, x => .garmanKohlhagen83 x rd rf v

/-- The same model with another volatility. -/
def GbsmModel.withVol : GbsmModel → ℝ → GbsmModel
  | .blackScholes73 s r _, x => .blackScholes73 s r x
  | .merton73 s r q _, x => .merton73 s r q x
  | .black76 f r _, x => .black76 f r x
  | .asay82 f _, x => .asay82 f x
  | .garmanKohlhagen83 s rd rf _, x => .garmanKohlhagen83 s rd rf x

/-- A call of `set_option` or of `set_model`. -/
inductive Update (O M : Type)
  | option (o : O)
  | model (m : M)

/-- The pricer after one call. -/
def Update.apply {O M : Type} (p : AnalyticPricer O M) : Update O M → AnalyticPricer O M
  | .option o => p.setOption o
  | .model m => p.setModel m

/-- The option of a call of `set_option`. -/
def Update.option? {O M : Type} : Update O M → Option O
  | .option o => some o
  | .model _ => none

/-- The model of a call of `set_model`. -/
def Update.model? {O M : Type} : Update O M → Option M
  | .option _ => none
  | .model m => some m

/-! ## Helper lemmas -/

theorem Assumes.eqs {m : GbsmModel} {s v r b : ℝ} (h : Assumes m s v r b) : m.s = s ∧ m.v = v ∧ m.r = r ∧ m.b = b := by
  cases h <;> exact ⟨rfl, rfl, rfl, rfl⟩

theorem Assumes.exists (m : GbsmModel) : Assumes m m.s m.v m.r m.b := by
  cases m <;> constructor

namespace GbsmModel

@[simp] theorem withSpot_s (m : GbsmModel) (x : ℝ) : (m.withSpot x).s = x := by cases m <;> rfl
@[simp] theorem withSpot_v (m : GbsmModel) (x : ℝ) : (m.withSpot x).v = m.v := by cases m <;> rfl
@[simp] theorem withSpot_r (m : GbsmModel) (x : ℝ) : (m.withSpot x).r = m.r := by cases m <;> rfl
@[simp] theorem withSpot_b (m : GbsmModel) (x : ℝ) : (m.withSpot x).b = m.b := by cases m <;> rfl
@[simp] theorem withVol_s (m : GbsmModel) (x : ℝ) : (m.withVol x).s = m.s := by cases m <;> rfl
@[simp] theorem withVol_v (m : GbsmModel) (x : ℝ) : (m.withVol x).v = x := by cases m <;> rfl
@[simp] theorem withVol_r (m : GbsmModel) (x : ℝ) : (m.withVol x).r = m.r := by cases m <;> rfl
@[simp] theorem withVol_b (m : GbsmModel) (x : ℝ) : (m.withVol x).b = m.b := by cases m <;> rfl

end GbsmModel

namespace AnalyticPricer

variable {M : Type}

theorem timeLeft_before {p : AnalyticPricer VanillaOption M} {today : Date} {n : ℕ}
    (h : today.addDays n = some p.option.expiry) : p.timeLeft today = n / 365.25 := by
  have hd := Date.addDays_eq_some_iff.1 h
  unfold timeLeft yearFraction daysBetween
  rw [hd]
  have : |today.dayNum + n - today.dayNum| = (n : ℤ) := by rw [add_sub_cancel_left]; exact abs_of_nonneg (by positivity)
  rw [this]; push_cast; norm_num

theorem timeLeft_after {p : AnalyticPricer VanillaOption M} {today : Date} {n : ℕ}
    (h : p.option.expiry.addDays n = some today) : p.timeLeft today = n / 365.25 := by
  have hd := Date.addDays_eq_some_iff.1 h
  unfold timeLeft yearFraction daysBetween
  rw [hd]
  have : |p.option.expiry.dayNum - (p.option.expiry.dayNum + n)| = (n : ℤ) := by
    rw [sub_add_cancel_left, abs_neg]; exact abs_of_nonneg (by positivity)
  rw [this]; push_cast; norm_num

theorem years_pos {n : ℕ} (hn : 0 < n) : (0 : ℝ) < n / 365.25 := by positivity

theorem years_sqrt_ne {n : ℕ} (hn : 0 < n) {v : ℝ} (hv : 0 < v) : v * √((n : ℝ) / 365.25) ≠ 0 := by
  have := Real.sqrt_pos.2 (years_pos hn)
  positivity

theorem call_strictMono {s k r b v : ℝ} (hs : 0 < s) (hk : 0 < k) (hv : 0 < v) (hr : 0 ≤ r) (hb : r ≤ b) :
    StrictMonoOn (fun t => Bsm.callPrice s k t r b v) (Set.Ioi 0) := by
  refine strictMonoOn_of_deriv_pos (convex_Ioi 0) ?_ ?_
  · exact fun t ht => (Bsm.C47_theta hs hk ht hv).1.continuousAt.continuousWithinAt
  · intro t ht
    rw [interior_Ioi] at ht
    have ht : 0 < t := ht
    rw [(Bsm.C47_theta hs hk ht hv).1.deriv]
    unfold Bsm.callTheta
    have h1 := Bsm.n_pos (Bsm.d1 s k t b v)
    have h2 := Bsm.N_pos (Bsm.d1 s k t b v)
    have h3 := Bsm.N_pos (Bsm.d2 s k t b v)
    have hw : 0 < √t := Real.sqrt_pos.2 ht
    have hbr : 0 ≤ b - r := by linarith
    have a1 : 0 < s * exp ((b - r) * t) * Bsm.n (Bsm.d1 s k t b v) * v / (2 * √t) := by positivity
    have a2 : 0 ≤ (b - r) * s * exp ((b - r) * t) * Bsm.N (Bsm.d1 s k t b v) := by positivity
    have a3 : 0 ≤ r * k * exp (-r * t) * Bsm.N (Bsm.d2 s k t b v) := by positivity
    have e : -(-s * exp ((b - r) * t) * Bsm.n (Bsm.d1 s k t b v) * v / (2 * √t)
        - (b - r) * s * exp ((b - r) * t) * Bsm.N (Bsm.d1 s k t b v)
        - r * k * exp (-r * t) * Bsm.N (Bsm.d2 s k t b v))
        = s * exp ((b - r) * t) * Bsm.n (Bsm.d1 s k t b v) * v / (2 * √t)
          + (b - r) * s * exp ((b - r) * t) * Bsm.N (Bsm.d1 s k t b v)
          + r * k * exp (-r * t) * Bsm.N (Bsm.d2 s k t b v) := by ring
    rw [e]; linarith

/-! ## Theorems -/

/-- **C77.** Before expiry the price is the discounted expectation of the option's payoff, `n` days being `n / 365.25`
years. -/
theorem C77_price (p : AnalyticPricer VanillaOption GbsmModel) {s v r b : ℝ} (hm : Assumes p.model s v r b) (hs : 0 < s)
    (hv : 0 < v) (hk : 0 < p.option.strike) {today : Date} {n : ℕ} (hn : 0 < n)
    (h : today.addDays n = some p.option.expiry) :
    p.price today = some (exp (-r * (n / 365.25)) *
      ∫ z, p.option.payoff (s * exp ((b - v ^ 2 / 2) * (n / 365.25) + v * √(n / 365.25) * z)) ∂gaussianReal 0 1) := by
  obtain ⟨rfl, rfl, rfl, rfl⟩ := hm.eqs
  unfold price GbsmModel.priceF
  rw [timeLeft_before h, if_neg (years_sqrt_ne hn hv)]
  obtain ⟨h1, h2⟩ := Bsm.C47_expectation (r := p.model.r) (b := p.model.b) hs hk (years_pos hn) hv
  obtain ⟨⟨k, e, f⟩, m⟩ := p
  cases f
  · exact congrArg some h1
  · exact congrArg some h2

example := C77_price ⟨⟨110, ⟨2025, 1, 1, by decide⟩, .put⟩, .garmanKohlhagen83 100 0.03 0.01 0.2⟩ (.currency _ _ _ _)
  (by norm_num) (by norm_num) (by norm_num) (today := ⟨2024, 12, 21, by decide⟩) (n := 11) (by norm_num)
  (by rw [Date.addDays_eq_some_iff]; decide)

/-- **C77.** Call minus put with the same strike and expiry, at any date other than the expiry, is the discounted forward
minus strike. -/
theorem C77_parity (m : GbsmModel) {s v r b : ℝ} (hm : Assumes m s v r b) (hv : 0 < v) (k : ℝ) {expiry today : Date} {n : ℕ}
    (hn : 0 < n) (h : today.addDays n = some expiry) :
    ∃ c q, AnalyticPricer.price ⟨⟨k, expiry, .call⟩, m⟩ today = some c ∧
      AnalyticPricer.price ⟨⟨k, expiry, .put⟩, m⟩ today = some q ∧
      c - q = exp (-r * (n / 365.25)) * (s * exp (b * (n / 365.25)) - k) := by
  obtain ⟨rfl, rfl, rfl, rfl⟩ := hm.eqs
  unfold price GbsmModel.priceF
  simp only
  rw [timeLeft_before (by exact h), timeLeft_before (by exact h), if_neg (years_sqrt_ne hn hv), if_neg (years_sqrt_ne hn hv)]
  refine ⟨_, _, rfl, rfl, ?_⟩
  simp only [GbsmModel.price]
  rw [Bsm.C47_parity, sub_mul, sub_eq_add_neg (m.b * _), exp_add, show -(m.r * ((n : ℝ) / 365.25)) = -m.r * (n / 365.25) by ring]
  ring

example := C77_parity (.merton73 100 0.03 0.01 0.2) (.dividend _ _ _ _) (by norm_num) 110 (expiry := ⟨2025, 1, 1, by decide⟩)
  (today := ⟨2024, 12, 21, by decide⟩) (n := 11) (by norm_num) (by rw [Date.addDays_eq_some_iff]; decide)

/-- **C77.** On the expiry day, and at any date for a volatility of zero, the price is the discounted payoff of the forward,
except that it is not a number when the forward equals the strike. -/
theorem C77_expiry_day (p : AnalyticPricer VanillaOption GbsmModel) {s v r b : ℝ} (hm : Assumes p.model s v r b) (hs : 0 < s)
    (hk : 0 < p.option.strike) {today : Date} {n : ℕ} (hn : n = 0 ∨ v = 0) (h : today.addDays n = some p.option.expiry) :
    (s * exp (b * (n / 365.25)) ≠ p.option.strike →
      p.price today = some (exp (-r * (n / 365.25)) * p.option.payoff (s * exp (b * (n / 365.25))))) ∧
    (s * exp (b * (n / 365.25)) = p.option.strike → p.price today = none) := by
  obtain ⟨rfl, rfl, rfl, rfl⟩ := hm.eqs
  have hz : p.model.v * √((n : ℝ) / 365.25) = 0 := by
    rcases hn with rfl | hv
    · simp
    · rw [hv, zero_mul]
  have hz2 : p.model.v ^ 2 * ((n : ℝ) / 365.25) = 0 := by
    rcases hn with rfl | hv
    · simp
    · rw [hv]; simp
  unfold price GbsmModel.priceF
  rw [timeLeft_before h, if_pos hz]
  obtain ⟨⟨k, e, f⟩, m⟩ := p
  simp only at hs hk hz2 ⊢
  set t : ℝ := (n : ℝ) / 365.25 with ht
  have hx : log (m.s / k) + (m.b + 0.5 * m.v ^ 2) * t = log (m.s * exp (m.b * t)) - log k := by
    rw [log_div hs.ne' hk.ne', log_mul hs.ne' (exp_pos _).ne', log_exp]
    linear_combination 0.5 * hz2
  have hF : 0 < m.s * exp (m.b * t) := by positivity
  have e1 : m.s * exp ((m.b - m.r) * t) = exp (-m.r * t) * (m.s * exp (m.b * t)) := by
    rw [show (m.b - m.r) * t = m.b * t + -m.r * t by ring, exp_add]; ring
  rw [hx, e1]
  have hd := exp_pos (-m.r * t)
  constructor
  · intro hne
    rcases lt_or_gt_of_ne hne with hlt | hgt
    · have : log (m.s * exp (m.b * t)) < log k := log_lt_log hF hlt
      rw [if_neg (by linarith), if_pos (by linarith)]
      cases f
      · simp only [VanillaOption.payoff, vanillaPayoff]; rw [max_eq_right (by linarith)]; simp
      · simp only [VanillaOption.payoff, vanillaPayoff]; rw [max_eq_left (by linarith)]; congr 1; ring
    · have : log k < log (m.s * exp (m.b * t)) := log_lt_log hk hgt
      rw [if_pos (by linarith)]
      cases f
      · simp only [VanillaOption.payoff, vanillaPayoff]; rw [max_eq_left (by linarith)]; congr 1; ring
      · simp only [VanillaOption.payoff, vanillaPayoff]; rw [max_eq_right (by linarith)]; simp
  · intro heq
    rw [heq, sub_self, if_neg (lt_irrefl _), if_neg (lt_irrefl _)]

example := C77_expiry_day ⟨⟨110, ⟨2025, 1, 1, by decide⟩, .put⟩, .garmanKohlhagen83 100 0.03 0.01 0.2⟩ (.currency _ _ _ _)
  (by norm_num) (by norm_num) (today := ⟨2025, 1, 1, by decide⟩) (n := 0) (.inl rfl) (by rw [Date.addDays_eq_some_iff]; decide)

/-- **C77, defect.** The clock runs backwards after expiry: `n` days after it, every method of every model gives what it gave
`n` days before it. -/
theorem C77_expired_as_alive (o : VanillaOption) {before after : Date} {n : ℕ} (h1 : before.addDays n = some o.expiry)
    (h2 : o.expiry.addDays n = some after) :
    (∀ m, AnalyticPricer.price ⟨o, m⟩ after = AnalyticPricer.price ⟨o, m⟩ before) ∧
    (∀ m g, AnalyticPricer.greek ⟨o, m⟩ after g = AnalyticPricer.greek ⟨o, m⟩ before g) ∧
    (∀ m, bachelierPrice ⟨o, m⟩ after = bachelierPrice ⟨o, m⟩ before ∧
      bachelierAtmPrice ⟨o, m⟩ after = bachelierAtmPrice ⟨o, m⟩ before ∧
      bachelierDelta ⟨o, m⟩ after = bachelierDelta ⟨o, m⟩ before ∧
      bachelierGamma ⟨o, m⟩ after = bachelierGamma ⟨o, m⟩ before ∧
      bachelierTheta ⟨o, m⟩ after = bachelierTheta ⟨o, m⟩ before ∧
      bachelierVega ⟨o, m⟩ after = bachelierVega ⟨o, m⟩ before ∧
      ∀ x, bachelierIv ⟨o, m⟩ x after = bachelierIv ⟨o, m⟩ x before ∧
        bachelierAtmVol ⟨o, m⟩ x after = bachelierAtmVol ⟨o, m⟩ x before) ∧
    (∀ m, hestonPrice ⟨o, m⟩ after = hestonPrice ⟨o, m⟩ before ∧ hestonDelta ⟨o, m⟩ after = hestonDelta ⟨o, m⟩ before ∧
      hestonGamma ⟨o, m⟩ after = hestonGamma ⟨o, m⟩ before ∧ hestonRho ⟨o, m⟩ after = hestonRho ⟨o, m⟩ before) := by
  have h : ∀ (M : Type) (m : M), AnalyticPricer.timeLeft ⟨o, m⟩ after = AnalyticPricer.timeLeft ⟨o, m⟩ before := fun M m => by
    rw [timeLeft_after (p := ⟨o, m⟩) h2, timeLeft_before (p := ⟨o, m⟩) h1]
  simp [price, greek, bachelierPrice, bachelierAtmPrice, bachelierDelta, bachelierGamma, bachelierTheta, bachelierVega,
    bachelierIv, bachelierAtmVol, hestonPrice, hestonDelta, hestonGamma, hestonRho, h]

example := C77_expired_as_alive ⟨110, ⟨2025, 1, 1, by decide⟩, .put⟩ (before := ⟨2024, 12, 21, by decide⟩)
  (after := ⟨2025, 1, 12, by decide⟩) (n := 11) (by rw [Date.addDays_eq_some_iff]; decide) (by rw [Date.addDays_eq_some_iff]; decide)

/-- **C77, defect.** An option that has expired, even worthless, has a positive price on every later day. -/
theorem C77_expired_has_value (p : AnalyticPricer VanillaOption GbsmModel) {s v r b : ℝ} (hm : Assumes p.model s v r b)
    (hs : 0 < s) (hv : 0 < v) (hk : 0 < p.option.strike) {today : Date} {n : ℕ} (hn : 0 < n)
    (h : p.option.expiry.addDays n = some today) : ∃ x, p.price today = some x ∧ 0 < x := by
  obtain ⟨rfl, rfl, rfl, rfl⟩ := hm.eqs
  unfold price GbsmModel.priceF
  rw [timeLeft_after h, if_neg (years_sqrt_ne hn hv)]
  refine ⟨_, rfl, ?_⟩
  obtain ⟨h1, h2, -⟩ := Bsm.C47_bounds (r := p.model.r) (b := p.model.b) hs hk (years_pos hn) hv
  unfold GbsmModel.price
  cases p.option.typeFlag
  · exact (le_max_right _ _).trans_lt h1.1
  · exact (le_max_right _ _).trans_lt h2.1

/-- **C77.** A call on an underlying that grows at least at a non-negative interest rate loses value with every day that
passes before expiry; after expiry it gains value with every day. -/
theorem C77_decay (m : GbsmModel) {s v r b : ℝ} (hm : Assumes m s v r b) (hs : 0 < s) (hv : 0 < v) (hr : 0 ≤ r) (hb : r ≤ b)
    {k : ℝ} (hk : 0 < k) {expiry near far : Date} {i j : ℕ} (hi : 0 < i) (hij : i < j)
    (h : (near.addDays i = some expiry ∧ far.addDays j = some expiry) ∨
      (expiry.addDays i = some near ∧ expiry.addDays j = some far)) :
    ∃ x y, AnalyticPricer.price ⟨⟨k, expiry, .call⟩, m⟩ near = some x ∧
      AnalyticPricer.price ⟨⟨k, expiry, .call⟩, m⟩ far = some y ∧ x < y := by
  obtain ⟨rfl, rfl, rfl, rfl⟩ := hm.eqs
  have hj : 0 < j := hi.trans hij
  have hlt : (i : ℝ) / 365.25 < j / 365.25 := by
    have : (i : ℝ) < j := by exact_mod_cast hij
    exact div_lt_div_of_pos_right this (by norm_num)
  have e : AnalyticPricer.timeLeft ⟨(⟨k, expiry, .call⟩ : VanillaOption), m⟩ near = i / 365.25 ∧
      AnalyticPricer.timeLeft ⟨(⟨k, expiry, .call⟩ : VanillaOption), m⟩ far = j / 365.25 := by
    rcases h with ⟨h1, h2⟩ | ⟨h1, h2⟩
    · exact ⟨timeLeft_before h1, timeLeft_before h2⟩
    · exact ⟨timeLeft_after h1, timeLeft_after h2⟩
  unfold price GbsmModel.priceF
  rw [e.1, e.2, if_neg (years_sqrt_ne hi hv), if_neg (years_sqrt_ne hj hv)]
  exact ⟨_, _, rfl, rfl, call_strictMono hs hk hv hr hb (years_pos hi) (years_pos hj) hlt⟩

/-- **C77.** Before expiry the greeks are the derivatives their names promise: delta and vega of the price in the spot and in
the volatility, gamma, speed of delta and gamma in the spot, vanna, zomma and vomma of delta, gamma and vega in the
volatility, and lambda is the elasticity `spot · delta / price`. -/
theorem C77_greeks (p : AnalyticPricer VanillaOption GbsmModel) {s v r b : ℝ} (hm : Assumes p.model s v r b) (hs : 0 < s)
    (hv : 0 < v) (hk : 0 < p.option.strike) {today : Date} {n : ℕ} (hn : 0 < n)
    (h : today.addDays n = some p.option.expiry) :
    (∃ f : ℝ → ℝ, (∀ x, (p.setModel (p.model.withSpot x)).price today = some (f x)) ∧
      HasDerivAt f (p.greek today .delta) s ∧ p.greek today .lambda = s * p.greek today .delta / f s) ∧
    (∃ f : ℝ → ℝ, (∀ x, 0 < x → (p.setModel (p.model.withVol x)).price today = some (f x)) ∧
      HasDerivAt f (p.greek today .vega) v) ∧
    HasDerivAt (fun x => (p.setModel (p.model.withSpot x)).greek today .delta) (p.greek today .gamma) s ∧
    HasDerivAt (fun x => (p.setModel (p.model.withSpot x)).greek today .gamma) (p.greek today .speed) s ∧
    HasDerivAt (fun x => (p.setModel (p.model.withSpot x)).greek today .vega) (p.greek today .vanna) s ∧
    HasDerivAt (fun x => (p.setModel (p.model.withVol x)).greek today .delta) (p.greek today .vanna) v ∧
    HasDerivAt (fun x => (p.setModel (p.model.withVol x)).greek today .gamma) (p.greek today .zomma) v ∧
    HasDerivAt (fun x => (p.setModel (p.model.withVol x)).greek today .vega) (p.greek today .vomma) v := by
  obtain ⟨rfl, rfl, rfl, rfl⟩ := hm.eqs
  obtain ⟨⟨k, e, f⟩, m⟩ := p
  simp only at hs hk hv h
  have ht := years_pos hn
  have hw := years_sqrt_ne hn hv
  have eT : ∀ m', AnalyticPricer.timeLeft ⟨(⟨k, e, f⟩ : VanillaOption), m'⟩ today = (n : ℝ) / 365.25 :=
    fun (m' : GbsmModel) => timeLeft_before (by exact h)
  obtain ⟨d1, d2⟩ := Bsm.C47_delta (r := m.r) (b := m.b) hs hk ht hv
  obtain ⟨v1, v2, -⟩ := Bsm.C47_vega (r := m.r) (b := m.b) hs hk ht hv
  obtain ⟨⟨g1, g2⟩, ⟨a1, a2⟩, -⟩ := Bsm.C47_delta_derivatives (r := m.r) (b := m.b) hs hk ht hv
  obtain ⟨s1, z1, -⟩ := Bsm.C47_gamma_derivatives (r := m.r) (b := m.b) hs hk ht hv
  obtain ⟨w1, w2, -⟩ := Bsm.C47_vega_derivatives (r := m.r) (b := m.b) hs hk ht hv
  refine ⟨⟨fun x => (m.withSpot x).price k (n / 365.25) f, ?_, ?_, ?_⟩, ⟨fun x => (m.withVol x).price k (n / 365.25) f, ?_, ?_⟩,
    ?_, ?_, ?_, ?_, ?_, ?_⟩
  · intro x
    simp only [price, setModel, GbsmModel.priceF, eT, GbsmModel.withSpot_v]
    rw [if_neg hw]
  · cases f <;> simp only [greek, eT, GbsmModel.price, GbsmModel.delta, GbsmModel.withSpot_s, GbsmModel.withSpot_r,
      GbsmModel.withSpot_b, GbsmModel.withSpot_v] <;> assumption
  · cases f <;> simp only [greek, eT, GbsmModel.price, GbsmModel.delta, GbsmModel.lambda, GbsmModel.withSpot_s,
      GbsmModel.withSpot_r, GbsmModel.withSpot_b, GbsmModel.withSpot_v, Bsm.callLambda, Bsm.putLambda] <;> ring
  · intro x hx
    simp only [price, setModel, GbsmModel.priceF, eT, GbsmModel.withVol_v]
    rw [if_neg (years_sqrt_ne hn hx)]
  · cases f <;> simp only [greek, eT, GbsmModel.price, GbsmModel.vega, GbsmModel.withVol_s, GbsmModel.withVol_r,
      GbsmModel.withVol_b, GbsmModel.withVol_v] <;> assumption
  all_goals
    cases f <;> simp only [greek, eT, setModel, GbsmModel.delta, GbsmModel.vega, GbsmModel.gamma, GbsmModel.speed,
      GbsmModel.vanna, GbsmModel.zomma, GbsmModel.vomma, GbsmModel.withVol_s, GbsmModel.withVol_r,
      GbsmModel.withVol_b, GbsmModel.withVol_v, GbsmModel.withSpot_s, GbsmModel.withSpot_r,
      GbsmModel.withSpot_b, GbsmModel.withSpot_v] <;> assumption

example := C77_greeks ⟨⟨110, ⟨2025, 1, 1, by decide⟩, .put⟩, .garmanKohlhagen83 100 0.03 0.01 0.2⟩ (.currency _ _ _ _)
  (by norm_num) (by norm_num) (by norm_num) (today := ⟨2024, 12, 21, by decide⟩) (n := 11) (by norm_num)
  (by rw [Date.addDays_eq_some_iff]; decide)

/-- **C77.** The greeks in time: theta and color are minus the derivatives of price and gamma in the time to expiry, charm is
the derivative of delta with the opposite sign convention. -/
theorem C77_time_greeks (p : AnalyticPricer VanillaOption GbsmModel) {s v r b : ℝ} (hm : Assumes p.model s v r b) (hs : 0 < s)
    (hv : 0 < v) (hk : 0 < p.option.strike) {today : Date} {n : ℕ} (hn : 0 < n)
    (h : today.addDays n = some p.option.expiry) :
    (∃ f : ℝ → ℝ, (∀ (d : Date) (i : ℕ), 0 < i → d.addDays i = some p.option.expiry → p.price d = some (f (i / 365.25))) ∧
      HasDerivAt f (-p.greek today .theta) (n / 365.25)) ∧
    (∃ f : ℝ → ℝ, (∀ (d : Date) (i : ℕ), 0 < i → d.addDays i = some p.option.expiry → p.greek d .delta = f (i / 365.25)) ∧
      HasDerivAt f (p.greek today .charm) (n / 365.25)) ∧
    (∃ f : ℝ → ℝ, (∀ (d : Date) (i : ℕ), 0 < i → d.addDays i = some p.option.expiry → p.greek d .gamma = f (i / 365.25)) ∧
      HasDerivAt f (-p.greek today .color) (n / 365.25)) := by
  obtain ⟨rfl, rfl, rfl, rfl⟩ := hm.eqs
  have ht := years_pos hn
  obtain ⟨t1, t2⟩ := Bsm.C47_theta (r := p.model.r) (b := p.model.b) hs hk ht hv
  obtain ⟨-, -, c1, c2⟩ := Bsm.C47_delta_derivatives (r := p.model.r) (b := p.model.b) hs hk ht hv
  obtain ⟨-, -, o1⟩ := Bsm.C47_gamma_derivatives (r := p.model.r) (b := p.model.b) hs hk ht hv
  refine ⟨⟨fun t => p.model.price p.option.strike t p.option.typeFlag, ?_, ?_⟩,
    ⟨fun t => p.model.delta p.option.strike t p.option.typeFlag, ?_, ?_⟩,
    ⟨fun t => p.model.gamma p.option.strike t p.option.typeFlag, ?_, ?_⟩⟩
  · intro d i hi hd
    unfold price GbsmModel.priceF
    rw [timeLeft_before hd, if_neg (years_sqrt_ne hi hv)]
  · simp only [greek, timeLeft_before h]
    cases p.option.typeFlag
    · exact t1
    · exact t2
  · intro d i hi hd
    simp only [greek, timeLeft_before hd]
  · simp only [greek, timeLeft_before h]
    cases p.option.typeFlag
    · exact c1
    · exact c2
  · intro d i hi hd
    simp only [greek, timeLeft_before hd]
  · simp only [greek, timeLeft_before h]
    exact o1

example := C77_time_greeks ⟨⟨110, ⟨2025, 1, 1, by decide⟩, .put⟩, .garmanKohlhagen83 100 0.03 0.01 0.2⟩ (.currency _ _ _ _)
  (by norm_num) (by norm_num) (by norm_num) (today := ⟨2024, 12, 21, by decide⟩) (n := 11) (by norm_num)
  (by rw [Date.addDays_eq_some_iff]; decide)

/-- **C77.** With the Bachelier model the price is the discounted expectation of the payoff of a normally distributed
underlying; on the expiry day it is the payoff, or not a number at the money; and the at-the-money price depends on neither
the strike nor the kind of the option. -/
theorem C77_bachelier (p : AnalyticPricer VanillaOption Bachelier) (hv : 0 < p.model.v) {today : Date} {n : ℕ}
    (h : today.addDays n = some p.option.expiry) :
    (0 < n → p.bachelierPrice today = some (exp (-p.model.r * (n / 365.25)) *
      ∫ z, p.option.payoff (p.model.f + p.model.v * √(n / 365.25) * z) ∂gaussianReal 0 1)) ∧
    (n = 0 → p.model.f ≠ p.option.strike → p.bachelierPrice today = some (p.option.payoff p.model.f)) ∧
    (n = 0 → p.model.f = p.option.strike → p.bachelierPrice today = none) ∧
    (∀ k f, (p.setOption ⟨k, p.option.expiry, f⟩).bachelierAtmPrice today = p.model.v * √(n / 365.25 / (2 * π))) := by
  refine ⟨fun hn => ?_, ?_, ?_, ?_⟩
  · unfold bachelierPrice Bachelier.priceF
    rw [timeLeft_before h, if_neg (years_sqrt_ne hn hv), Bachelier.C59_expectation _ _ _ (years_pos hn) hv]
    obtain ⟨⟨k, e, f⟩, m⟩ := p
    cases f <;> rfl
  · rintro rfl hne
    unfold bachelierPrice Bachelier.priceF
    rw [timeLeft_before h]
    obtain ⟨⟨k, e, f⟩, m⟩ := p
    simp only [Nat.cast_zero, zero_div, sqrt_zero, mul_zero, exp_zero, one_mul, if_true] at hne ⊢
    rcases lt_or_gt_of_ne hne with hlt | hgt
    · rw [if_neg (by linarith), if_pos (by linarith)]
      cases f
      · simp only [VanillaOption.payoff, vanillaPayoff]; rw [max_eq_right (by linarith)]
      · simp only [VanillaOption.payoff, vanillaPayoff]; rw [max_eq_left (by linarith)]
    · rw [if_pos (by linarith)]
      cases f
      · simp only [VanillaOption.payoff, vanillaPayoff]; rw [max_eq_left (by linarith)]
      · simp only [VanillaOption.payoff, vanillaPayoff]; rw [max_eq_right (by linarith)]
  · rintro rfl heq
    unfold bachelierPrice Bachelier.priceF
    rw [timeLeft_before h, if_pos (by simp), heq, sub_self, if_neg (lt_irrefl _), if_neg (lt_irrefl _)]
  · intro k f
    unfold bachelierAtmPrice Bachelier.atmPrice
    rw [timeLeft_before (p := p.setOption ⟨k, p.option.expiry, f⟩) h]
    rfl

/-- **C77.** With the Heston model call minus put is the dividend-discounted spot minus the discounted strike. -/
theorem C77_heston_parity (m : Heston93) (k : ℝ) {expiry today : Date} {n : ℕ} (h : today.addDays n = some expiry) :
    hestonPrice ⟨⟨k, expiry, .call⟩, m⟩ today - hestonPrice ⟨⟨k, expiry, .put⟩, m⟩ today =
      m.s * exp (-m.q * (n / 365.25)) - k * exp (-m.r * (n / 365.25)) := by
  unfold hestonPrice
  rw [timeLeft_before (by exact h), timeLeft_before (by exact h)]
  exact (Heston93.C61_parity m k _).1

example := C77_heston_parity ⟨100, 0.04, 0.05, 0, -0.5, 1, 0.04, 0.3⟩ 110 (expiry := ⟨2025, 1, 1, by decide⟩)
  (today := ⟨2024, 12, 21, by decide⟩) (n := 11) (by rw [Date.addDays_eq_some_iff]; decide)

/-- **C77.** After any sequence of `set_option` and `set_model` calls the pricer is a new pricer of the last option and the
last model set. -/
theorem C77_updates {O M : Type} (o : O) (m : M) (us : List (Update O M)) :
    us.foldl Update.apply (⟨o, m⟩ : AnalyticPricer O M) =
      ⟨(us.filterMap Update.option?).getLastD o, (us.filterMap Update.model?).getLastD m⟩ := by
  induction us generalizing o m with
  | nil => rfl
  | cons u us ih =>
    cases u with
    | option o' =>
      simp only [List.foldl_cons, Update.apply, setOption, ih, List.filterMap_cons, Update.option?, Update.model?]
      congr 1
      cases us.filterMap Update.option? <;> rfl
    | model m' =>
      simp only [List.foldl_cons, Update.apply, setModel, ih, List.filterMap_cons, Update.option?, Update.model?]
      congr 1
      cases us.filterMap Update.model? <;> rfl

/-! ## Non-vacuity -/

/-- 2024-12-21, 2025-01-01 and 2025-01-12 are eleven days apart. -/
example : ∃ a b c : Date, Date.ofYMD 2024 12 21 = some a ∧ Date.ofYMD 2025 1 1 = some b ∧ Date.ofYMD 2025 1 12 = some c ∧
    a.addDays (11 : ℕ) = some b ∧ b.addDays (11 : ℕ) = some c := by
  refine ⟨⟨2024, 12, 21, by decide⟩, ⟨2025, 1, 1, by decide⟩, ⟨2025, 1, 12, by decide⟩, rfl, rfl, rfl, ?_, ?_⟩ <;>
  · rw [Date.addDays_eq_some_iff]; decide

/-- An out-of-the-money call that expired on 2025-01-01 has a positive price on 2025-01-12, and a higher one on 2025-01-13;
before expiry it loses value from 2024-12-21 to 2024-12-22. -/
example : ∃ b c d e f : Date, Date.ofYMD 2025 1 1 = some b ∧ Date.ofYMD 2025 1 12 = some c ∧ Date.ofYMD 2025 1 13 = some d ∧
    Date.ofYMD 2024 12 21 = some e ∧ Date.ofYMD 2024 12 22 = some f ∧
    (∃ x y, AnalyticPricer.price ⟨⟨200, b, .call⟩, .merton73 100 0.03 (-0.01) 0.2⟩ c = some x ∧
      AnalyticPricer.price ⟨⟨200, b, .call⟩, .merton73 100 0.03 (-0.01) 0.2⟩ d = some y ∧ x < y) ∧
    (∃ x, AnalyticPricer.price ⟨⟨200, b, .call⟩, .merton73 100 0.03 (-0.01) 0.2⟩ c = some x ∧ 0 < x) ∧
    (∃ x y, AnalyticPricer.price ⟨⟨200, b, .call⟩, .merton73 100 0.03 (-0.01) 0.2⟩ f = some x ∧
      AnalyticPricer.price ⟨⟨200, b, .call⟩, .merton73 100 0.03 (-0.01) 0.2⟩ e = some y ∧ x < y) := by
  refine ⟨⟨2025, 1, 1, by decide⟩, ⟨2025, 1, 12, by decide⟩, ⟨2025, 1, 13, by decide⟩, ⟨2024, 12, 21, by decide⟩,
    ⟨2024, 12, 22, by decide⟩, rfl, rfl, rfl, rfl, rfl, ?_, ?_, ?_⟩
  · refine C77_decay _ (.dividend _ _ _ _) (by norm_num) (by norm_num) (by norm_num) (by norm_num) (by norm_num)
      (i := 11) (j := 12) (by norm_num) (by norm_num) (Or.inr ⟨?_, ?_⟩) <;>
    · rw [Date.addDays_eq_some_iff]; decide
  · refine C77_expired_has_value ⟨⟨200, ⟨2025, 1, 1, by decide⟩, .call⟩, .merton73 100 0.03 (-0.01) 0.2⟩ (.dividend _ _ _ _)
      (by norm_num) (by norm_num) (by norm_num) (n := 11) (by norm_num) ?_
    rw [Date.addDays_eq_some_iff]; decide
  · refine C77_decay _ (.dividend _ _ _ _) (by norm_num) (by norm_num) (by norm_num) (by norm_num) (by norm_num)
      (i := 10) (j := 11) (by norm_num) (by norm_num) (Or.inl ⟨?_, ?_⟩) <;>
    · rw [Date.addDays_eq_some_iff]; decide

end AnalyticPricer

end Verif.Options
