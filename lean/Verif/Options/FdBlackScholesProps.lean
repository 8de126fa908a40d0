import Verif.Options.FdBlackScholesLemmas

/-!
# The finite-difference prices against the Black-Scholes-Merton formula (C82)

For European options the exact value is known: `blackScholes` is the closed formula of C47 (proved there to be the
discounted expectation of the payoff) with cost of carry equal to the interest rate. The theorems bound the difference
between the price of each of the three methods and that value, for the payoff with its kink, and show what is left as
the grid is refined: only the effect of the grid's two ends, five standard deviations away from the spot.
-/

namespace Verif.Options.FdPricer

open Real Verif.Options.Bsm

/-- The Black-Scholes-Merton price of the European option. -/
noncomputable def blackScholes (S K r v T : ℝ) : TypeFlag → ℝ
  | .call => callPrice S K T r r v
  | .put => putPrice S K T r r v

/-- 1 for calls, 0 for puts: the number of forward contracts that make the put into the option. -/
noncomputable def forwards : TypeFlag → ℝ
  | .call => 1
  | .put => 0

theorem forwards_mem (f : TypeFlag) : 0 ≤ forwards f ∧ forwards f ≤ 1 := by
  cases f <;> norm_num [forwards]

/-- The undiscounted value of the option `δ` earlier than `τ` before expiry, with the forward left at `τ`. -/
noncomputable def shifted (o : FdPricer) (δ τ x : ℝ) : ℝ :=
  uu o.strikePrice o.riskFreeRate o.volatility (τ + δ) x +
    forwards o.typeFlag * (exp (x + o.riskFreeRate * τ) - o.strikePrice)

theorem blackScholes_eq (o : FdPricer) (h : o.Ok) :
    blackScholes o.initialPrice o.strikePrice o.riskFreeRate o.volatility o.T o.typeFlag =
      exp (-o.riskFreeRate * o.T) * o.shifted 0 o.T (log o.initialPrice) := by
  have hp := put_eq_uu (r := o.riskFreeRate) h.S h.K h.T h.v
  unfold blackScholes shifted forwards
  cases o.typeFlag
  · simp only
    have := C47_parity o.initialPrice o.strikePrice o.T o.riskFreeRate o.riskFreeRate o.volatility
    rw [sub_self, zero_mul, exp_zero] at this
    have e : exp (-o.riskFreeRate * o.T) * exp (o.riskFreeRate * o.T) = 1 := by rw [← exp_add]; simp
    rw [exp_add, exp_log h.S, add_zero]
    linear_combination this + hp - o.initialPrice * e
  · simpa using hp

theorem exp_bound (o : FdPricer) (h : o.Ok) {τ x : ℝ} (hτ : τ ∈ Set.Icc 0 o.T) (hx : x ≤ o.xMax) :
    exp (x + o.riskFreeRate * τ) ≤ exp (o.xMax + o.riskFreeRate * o.T) :=
  exp_le_exp.mpr (add_le_add hx (mul_le_mul_of_nonneg_left hτ.2 h.r.le))

/-- Bound of the second derivative in time of the shifted value. -/
noncomputable def bound₂ (K r v δ E : ℝ) : ℝ :=
  K * (r ^ 2 + r * (1 / δ + |r - v ^ 2 / 2| / (v * √δ) + v / √δ) +
    v / √δ * (2 / δ + |r - v ^ 2 / 2| / (v * √δ))) + r ^ 2 * E

/-- Bound of the third derivative in the logarithm of the price of the shifted value. -/
noncomputable def bound₃ (K v δ E : ℝ) : ℝ := K * (1 + 1 / (v * √δ) + 1 / (v * √δ) ^ 2) + E

/-- Bound of the fourth derivative in the logarithm of the price of the shifted value. -/
noncomputable def bound₄ (K v δ E : ℝ) : ℝ :=
  K * (1 + 1 / (v * √δ) + 1 / (v * √δ) ^ 2 + 1 / (v * √δ) ^ 3) + E

/-- The shifted value solves the Black-Scholes equation with bounded derivatives. -/
noncomputable def shiftedSolution (o : FdPricer) (h : o.Ok) (δ : ℝ) (hδ : 0 < δ) : Solution o (o.shifted δ)
    (bound₂ o.strikePrice o.riskFreeRate o.volatility δ (exp (o.xMax + o.riskFreeRate * o.T)))
    (bound₃ o.strikePrice o.volatility δ (exp (o.xMax + o.riskFreeRate * o.T)))
    (bound₄ o.strikePrice o.volatility δ (exp (o.xMax + o.riskFreeRate * o.T))) where
  wt τ x := (-o.riskFreeRate * aa o.strikePrice o.riskFreeRate o.volatility (τ + δ) x +
      bb o.strikePrice o.riskFreeRate o.volatility (τ + δ) x * (o.volatility / (2 * √(τ + δ)))) +
    forwards o.typeFlag * (forwardSolution o h).wt τ x
  wtt τ x := uutt o.strikePrice o.riskFreeRate o.volatility (τ + δ) x +
    forwards o.typeFlag * (forwardSolution o h).wtt τ x
  wx τ x := -aa o.strikePrice o.riskFreeRate o.volatility (τ + δ) x +
    forwards o.typeFlag * (forwardSolution o h).wx τ x
  wxx τ x := (-aa o.strikePrice o.riskFreeRate o.volatility (τ + δ) x +
      bb o.strikePrice o.riskFreeRate o.volatility (τ + δ) x / (o.volatility * √(τ + δ))) +
    forwards o.typeFlag * (forwardSolution o h).wxx τ x
  wxxx τ x := (-aa o.strikePrice o.riskFreeRate o.volatility (τ + δ) x +
      bb o.strikePrice o.riskFreeRate o.volatility (τ + δ) x / (o.volatility * √(τ + δ)) -
      dd o.strikePrice o.riskFreeRate o.volatility (τ + δ) x *
        bb o.strikePrice o.riskFreeRate o.volatility (τ + δ) x / (o.volatility * √(τ + δ)) ^ 2) +
    forwards o.typeFlag * (forwardSolution o h).wxxx τ x
  wxxxx τ x := (-aa o.strikePrice o.riskFreeRate o.volatility (τ + δ) x +
      bb o.strikePrice o.riskFreeRate o.volatility (τ + δ) x / (o.volatility * √(τ + δ)) -
      dd o.strikePrice o.riskFreeRate o.volatility (τ + δ) x *
        bb o.strikePrice o.riskFreeRate o.volatility (τ + δ) x / (o.volatility * √(τ + δ)) ^ 2 +
      (dd o.strikePrice o.riskFreeRate o.volatility (τ + δ) x ^ 2 - 1) *
        bb o.strikePrice o.riskFreeRate o.volatility (τ + δ) x / (o.volatility * √(τ + δ)) ^ 3) +
    forwards o.typeFlag * (forwardSolution o h).wxxxx τ x
  hwt τ hτ x hx := ((uu_dt h.K (by have := hτ.1; linarith) h.v).comp_add_const τ δ).add
    (((forwardSolution o h).hwt τ hτ x hx).const_mul _)
  hwtt τ hτ x hx := ((uu_dtt h.K (by have := hτ.1; linarith) h.v).comp_add_const τ δ).add
    (((forwardSolution o h).hwtt τ hτ x hx).const_mul _)
  hwx τ hτ x hx := (uu_dx h.K (by have := hτ.1; linarith) h.v).add
    (((forwardSolution o h).hwx τ hτ x hx).const_mul _)
  hwxx τ hτ x hx := by
    have ht : 0 < τ + δ := by have := hτ.1; linarith
    refine ((aa_dx h.K ht h.v).neg.congr_deriv ?_).add (((forwardSolution o h).hwxx τ hτ x hx).const_mul _)
    ring
  hwxxx τ hτ x hx := by
    have ht : 0 < τ + δ := by have := hτ.1; linarith
    refine (((aa_dx h.K ht h.v).neg.add (bb_dx.div_const _)).congr_deriv ?_).add
      (((forwardSolution o h).hwxxx τ hτ x hx).const_mul _)
    ring
  hwxxxx τ hτ x hx := by
    have ht : 0 < τ + δ := by have := hτ.1; linarith
    have hs : 0 < o.volatility * √(τ + δ) := by have := h.v; positivity
    refine ((((aa_dx h.K ht h.v).neg.add (bb_dx.div_const _)).sub ((dd_dx.mul bb_dx).div_const _)).congr_deriv ?_).add
      (((forwardSolution o h).hwxxxx τ hτ x hx).const_mul _)
    field_simp
    ring
  pde τ hτ x hx := by
    have ht : 0 < τ + δ := by have := hτ.1; linarith
    have hq : 0 < √(τ + δ) := by positivity
    have hv := h.v
    rw [(forwardSolution o h).pde τ hτ x hx]
    field_simp
    ring
  h₂ τ hτ x hx := by
    have h1 := uu_bound2 (x := x) h.K h.r hδ (show δ ≤ τ + δ by have := hτ.1; linarith) h.v
    have h2 := (forwardSolution o h).h₂ τ hτ x hx
    have hc := forwards_mem o.typeFlag
    refine (abs_add_le _ _).trans ?_
    rw [abs_mul, abs_of_nonneg hc.1]
    have := mul_le_mul hc.2 h2 (abs_nonneg _) zero_le_one
    unfold bound₂
    linarith
  h₃ τ hτ x hx := by
    have h1 := uu_bound3 (r := o.riskFreeRate) (x := x) h.K hδ (show δ ≤ τ + δ by have := hτ.1; linarith) h.v
    have h2 := (forwardSolution o h).h₃ τ hτ x hx
    have hc := forwards_mem o.typeFlag
    refine (abs_add_le _ _).trans ?_
    rw [abs_mul, abs_of_nonneg hc.1]
    have := mul_le_mul hc.2 h2 (abs_nonneg _) zero_le_one
    unfold bound₃
    linarith
  h₄ τ hτ x hx := by
    have h1 := uu_bound4 (r := o.riskFreeRate) (x := x) h.K hδ (show δ ≤ τ + δ by have := hτ.1; linarith) h.v
    have h2 := (forwardSolution o h).h₄ τ hτ x hx
    have hc := forwards_mem o.typeFlag
    refine (abs_add_le _ _).trans ?_
    rw [abs_mul, abs_of_nonneg hc.1]
    have := mul_le_mul hc.2 h2 (abs_nonneg _) zero_le_one
    unfold bound₄
    linarith

theorem payoff_eq (o : FdPricer) (x : ℝ) : o.payoff (exp x) =
    max (o.strikePrice - exp x) 0 + forwards o.typeFlag * (exp x - o.strikePrice) := by
  unfold payoff forwards
  cases o.typeFlag
  · simp only [one_mul]
    rcases le_total (exp x) o.strikePrice with h | h
    · rw [max_eq_right (by linarith), max_eq_left (by linarith)]; ring
    · rw [max_eq_left (by linarith), max_eq_right (by linarith)]; ring
  · simp

theorem shifted_mem (o : FdPricer) (h : o.Ok) {δ τ x : ℝ} (hδ : 0 < δ) (hτ : τ ∈ Set.Icc 0 o.T)
    (hx : x ≤ o.xMax) : (o.typeFlag = .put → 0 ≤ o.shifted δ τ x ∧ o.shifted δ τ x ≤ o.strikePrice) ∧
      (o.typeFlag = .call → -o.strikePrice ≤ o.shifted δ τ x ∧
        o.shifted δ τ x ≤ exp (o.xMax + o.riskFreeRate * o.T)) := by
  have ht : 0 < τ + δ := by have := hτ.1; linarith
  have u0 := uu_nonneg (r := o.riskFreeRate) (x := x) h.K ht h.v
  have u1 := uu_le (r := o.riskFreeRate) (v := o.volatility) (t := τ + δ) (x := x) h.K
  have e1 := exp_bound o h hτ hx
  have e0 := exp_pos (x + o.riskFreeRate * τ)
  constructor <;> intro hf <;> simp only [shifted, forwards, hf] <;> constructor <;> linarith

theorem spot_shifted (o : FdPricer) (h : o.Ok) (h3 : 3 ≤ o.priceSteps) {δ : ℝ} (hδ : 0 < δ) :
    |o.spotValue (o.shifted δ o.T) - o.shifted δ o.T (log o.initialPrice)| ≤
      (o.strikePrice + exp (o.xMax + o.riskFreeRate * o.T)) * (o.dx / 2) := by
  have hdx := h.dx_pos
  have hK := h.K
  have ht : 0 < o.T + δ := by have := h.T; linarith
  have hT : o.T ∈ Set.Icc 0 o.T := ⟨h.T.le, le_rfl⟩
  unfold spotValue
  split_ifs
  · simp only [sub_self, abs_zero]
    positivity
  · have hn : (3:ℝ) ≤ o.priceSteps := by exact_mod_cast h3
    have hb : log o.initialPrice + o.dx / 2 ≤ o.xMax := by
      have e : o.xMax - log o.initialPrice = o.priceSteps * (o.dx / 2) := by
        have : (o.priceSteps : ℝ) ≠ 0 := by exact_mod_cast h.n.ne'
        unfold dx xMin xMax; field_simp; ring
      nlinarith
    have side : ∀ x, |x - log o.initialPrice| ≤ o.dx / 2 → |o.shifted δ o.T x - o.shifted δ o.T (log o.initialPrice)| ≤
        (o.strikePrice + exp (o.xMax + o.riskFreeRate * o.T)) * (o.dx / 2) := by
      intro x hx
      have h1 := uu_lipschitz (r := o.riskFreeRate) hK ht h.v x (log o.initialPrice)
      have hxm : x ≤ o.xMax := by have := (abs_le.mp hx).2; linarith
      have h2 : |exp (x + o.riskFreeRate * o.T) - exp (log o.initialPrice + o.riskFreeRate * o.T)| ≤
          exp (o.xMax + o.riskFreeRate * o.T) * |x - log o.initialPrice| := by
        have gen : ∀ a b : ℝ, a ≤ b → b ≤ o.xMax → exp (b + o.riskFreeRate * o.T) - exp (a + o.riskFreeRate * o.T) ≤
            exp (o.xMax + o.riskFreeRate * o.T) * (b - a) := by
          intro a b hab hbm
          have e1 := add_one_le_exp (a - b)
          have e2 : exp (a + o.riskFreeRate * o.T) = exp (b + o.riskFreeRate * o.T) * exp (a - b) := by
            rw [← exp_add]; congr 1; ring
          have e3 := exp_bound o h hT hbm
          have e4 := exp_pos (b + o.riskFreeRate * o.T)
          rw [e2]
          nlinarith [mul_le_mul_of_nonneg_right e3 (sub_nonneg.mpr hab)]
        rcases le_total x (log o.initialPrice) with hle | hle
        · rw [abs_sub_comm, abs_sub_comm x, abs_of_nonneg (sub_nonneg.mpr (exp_le_exp.mpr (by linarith))),
            abs_of_nonneg (by linarith)]
          exact gen _ _ hle (by linarith)
        · rw [abs_of_nonneg (sub_nonneg.mpr (exp_le_exp.mpr (by linarith))), abs_of_nonneg (by linarith)]
          exact gen _ _ hle hxm
      have hc := forwards_mem o.typeFlag
      have e : o.shifted δ o.T x - o.shifted δ o.T (log o.initialPrice) =
          (uu o.strikePrice o.riskFreeRate o.volatility (o.T + δ) x -
            uu o.strikePrice o.riskFreeRate o.volatility (o.T + δ) (log o.initialPrice)) +
          forwards o.typeFlag * (exp (x + o.riskFreeRate * o.T) - exp (log o.initialPrice + o.riskFreeRate * o.T)) := by
        unfold shifted; ring
      rw [e]
      refine (abs_add_le _ _).trans ?_
      rw [abs_mul, abs_of_nonneg hc.1]
      have h3 := mul_le_mul hc.2 h2 (abs_nonneg _) zero_le_one
      have h4 := mul_le_mul_of_nonneg_left hx (show 0 ≤ o.strikePrice + exp (o.xMax + o.riskFreeRate * o.T) by positivity)
      linarith
    have s1 := side (log o.initialPrice + o.dx / 2) (by rw [add_sub_cancel_left, abs_of_pos (by linarith)])
    have s2 := side (log o.initialPrice - o.dx / 2) (by rw [sub_sub_cancel_left, abs_neg, abs_of_pos (by linarith)])
    rw [abs_le] at *
    constructor <;> linarith

/-- The price of each method against the Black-Scholes-Merton value of a European call or put, in the units of the
inputs. For every smoothing time `δ > 0` and every `a ≥ 0` the difference is at most the discounted sum of: the
smoothing of the payoff and of the value over `δ`; half a grid step (for an odd number of price steps); the truncation
error with the derivatives `δ` before expiry; and the damped effect of the two ends of the grid. -/
theorem C82_black_scholes (o : FdPricer) (h : o.Ok) (h3 : 3 ≤ o.priceSteps) (s : Scheme)
    (hE : o.exerciseFlag ≠ .american dateMin dateMax)
    (hdrift : 10 * |o.riskFreeRate - o.volatility ^ 2 / 2| * √o.T ≤ o.volatility * o.priceSteps)
    (htime : (1 - s.theta) * (o.priceSteps : ℝ) ^ 2 ≤ 100 * o.timeSteps)
    (δ a Q E : ℝ) (hδ : 0 < δ) (ha : 0 ≤ a)
    (hQ : Q = (a ^ 2 / 2 + a * |o.riskFreeRate - o.volatility ^ 2 / 2| * √o.T / o.volatility) *
      cosh (10 * a / o.priceSteps)) (hθQ : s.theta * Q < o.timeSteps)
    (hEE : E = o.initialPrice * exp (5 * o.volatility * √o.T + o.riskFreeRate * o.T)) :
    ∃ p, s.price o = some p ∧
      |p - blackScholes o.initialPrice o.strikePrice o.riskFreeRate o.volatility o.T o.typeFlag| ≤
      exp (-o.riskFreeRate * o.T) * (
        o.strikePrice * (|o.riskFreeRate - o.volatility ^ 2 / 2| * δ + o.volatility * √δ) +
        o.strikePrice * (o.riskFreeRate + o.volatility / (4 * √o.T)) * δ +
        (o.strikePrice + E) * (o.dx / 2) +
        o.T * (o.dt * bound₂ o.strikePrice o.riskFreeRate o.volatility δ E / 2 +
          o.dx ^ 2 * (o.volatility ^ 2 * bound₄ o.strikePrice o.volatility δ E / 24 +
            |o.riskFreeRate - o.volatility ^ 2 / 2| * bound₃ o.strikePrice o.volatility δ E / 6)) +
        2 * (o.strikePrice + E) * exp (Q / (1 - s.theta * (Q / o.timeSteps))) *
          exp (-(10 * a / o.priceSteps)) ^ (o.priceSteps / 2)) := by
  have hE' : E = exp (o.xMax + o.riskFreeRate * o.T) := by
    rw [hEE, xMax, add_assoc, exp_add (log o.initialPrice), exp_log h.S]
  subst hE'
  have hK := h.K
  have hr := h.r
  have hex := exp_pos (o.xMax + o.riskFreeRate * o.T)
  have hmm : o.xMin ≤ o.xMax := by
    have := grid_mem o h 0 (by omega)
    exact this.1.trans this.2
  have q1 : ∀ τ ∈ Set.Icc 0 o.T, 0 < exp (-o.riskFreeRate * τ) ∧ exp (-o.riskFreeRate * τ) ≤ 1 := fun τ hτ =>
    ⟨exp_pos _, exp_le_one_iff.mpr (by have := mul_nonneg hr.le hτ.1; linarith)⟩
  have x1 : ∀ x ≤ o.xMax, exp x ≤ exp (o.xMax + o.riskFreeRate * o.T) := fun x hx =>
    exp_le_exp.mpr (by have := mul_nonneg hr.le h.T.le; linarith)
  obtain ⟨p, hp, hb⟩ := ends_damped_scheme o h h3 s hE hdrift htime (o.shifted δ) _ _ _ (shiftedSolution o h δ hδ)
    (o.strikePrice * (|o.riskFreeRate - o.volatility ^ 2 / 2| * δ + o.volatility * √δ))
    (o.strikePrice + exp (o.xMax + o.riskFreeRate * o.T)) a Q ha hQ hθQ
    (fun x hx => by
      rw [payoff_eq, shifted, mul_zero, add_zero, zero_add, add_sub_add_right_eq_sub]
      exact uu_payoff hK hδ h.v)
    (fun τ hτ τ' hτ' _ => by
      obtain ⟨m1, m2⟩ := shifted_mem o h hδ hτ' hmm
      obtain ⟨a1, a2⟩ := q1 τ hτ
      have b1 := x1 _ hmm
      have b2 := exp_pos o.xMin
      rw [abs_le]
      cases hf : o.typeFlag
      · have := m2 hf
        simp only [lowerEdge, hf]
        constructor <;> linarith
      · have := m1 hf
        simp only [lowerEdge, hf]
        constructor <;> nlinarith)
    (fun τ hτ τ' hτ' _ => by
      obtain ⟨m1, m2⟩ := shifted_mem o h hδ hτ' le_rfl
      obtain ⟨a1, a2⟩ := q1 τ hτ
      have b1 := x1 _ le_rfl
      have b2 := exp_pos o.xMax
      rw [abs_le]
      cases hf : o.typeFlag
      · have := m2 hf
        simp only [upperEdge, hf]
        constructor <;> nlinarith
      · have := m1 hf
        simp only [upperEdge, hf]
        constructor <;> linarith)
  refine ⟨p, hp, ?_⟩
  have s1 := spot_shifted o h h3 hδ
  have s2 : |o.shifted δ o.T (log o.initialPrice) - o.shifted 0 o.T (log o.initialPrice)| ≤
      o.strikePrice * (o.riskFreeRate + o.volatility / (4 * √o.T)) * δ := by
    have := uu_shift (x := log o.initialPrice) hK hr h.T hδ.le h.v
    unfold shifted
    rwa [add_zero, add_sub_add_right_eq_sub]
  rw [blackScholes_eq o h]
  have hd := exp_pos (-o.riskFreeRate * o.T)
  have s3 := mul_le_mul_of_nonneg_left (add_le_add s1 s2) hd.le
  have s4 : |exp (-o.riskFreeRate * o.T) * (o.spotValue (o.shifted δ o.T) - o.shifted 0 o.T (log o.initialPrice))| ≤
      exp (-o.riskFreeRate * o.T) * ((o.strikePrice + exp (o.xMax + o.riskFreeRate * o.T)) * (o.dx / 2) +
        o.strikePrice * (o.riskFreeRate + o.volatility / (4 * √o.T)) * δ) := by
    rw [abs_mul, abs_of_pos hd]
    refine mul_le_mul_of_nonneg_left ?_ hd.le
    refine le_trans ?_ (add_le_add s1 s2)
    refine le_trans (le_of_eq ?_) (abs_add_le _ _)
    congr 1; ring
  have e : p - exp (-o.riskFreeRate * o.T) * o.shifted 0 o.T (log o.initialPrice) =
      (p - exp (-o.riskFreeRate * o.T) * o.spotValue (o.shifted δ o.T)) +
      exp (-o.riskFreeRate * o.T) * (o.spotValue (o.shifted δ o.T) - o.shifted 0 o.T (log o.initialPrice)) := by ring
  rw [e]
  refine (abs_add_le _ _).trans ((add_le_add hb s4).trans (le_of_eq ?_))
  ring

theorem pow_half_le (a : ℝ) (ha : 0 ≤ a) (n : ℕ) (hn : 0 < n) :
    exp (-(10 * a / n)) ^ (n / 2) ≤ exp (-5 * a + 5 * a / n) := by
  rw [← exp_nat_mul]
  have hn' : (0:ℝ) < n := by exact_mod_cast hn
  have h : (n:ℝ) - 1 ≤ 2 * (n / 2 : ℕ) := by
    have : n ≤ 2 * (n / 2) + 1 := by omega
    have : (n:ℝ) ≤ 2 * (n / 2 : ℕ) + 1 := by exact_mod_cast this
    linarith
  refine exp_le_exp.mpr ?_
  have h1 := mul_le_mul_of_nonneg_left h (show 0 ≤ 5 * a / n by positivity)
  have e1 : 5 * a / n * (n - 1) = 5 * a - 5 * a / n := by field_simp
  have e2 : ((n / 2 : ℕ) : ℝ) * -(10 * a / n) = -(5 * a / n * (2 * (n / 2 : ℕ))) := by ring
  rw [e2]
  linarith

open Filter Topology in
/-- As the grid is refined the prices of all three methods come within every `ε > 0` of a fixed distance to the
Black-Scholes-Merton value of the European option: the discounted effect of the two ends of the grid, which the code
puts five standard deviations from the spot. With `κ = |r - σ²/2| √T / σ` that distance is at most
`2 (K e^(-rT) + S e^(5 σ √T)) e^(-(5 - κ)²/2)`. The refinement must keep the grid stable: the square of the number of
price steps is at most 100 (explicit) or 200 (Crank-Nicolson) times the number of time steps; the implicit method has no
such limit. -/
theorem C82_converges (S K r v T : ℝ) (hT : 0 < T) (f : TypeFlag) (s : Scheme) (ε : ℝ) (hε : 0 < ε) :
    ∃ n₀ : ℕ, ∀ (m n : ℕ) (e : ExerciseFlag) (o : FdPricer), new S K r v T m n f e = some o →
      e ≠ .american dateMin dateMax → n₀ ≤ n → n₀ ≤ m → (1 - s.theta) * (n : ℝ) ^ 2 ≤ 100 * m →
      ∃ p, s.price o = some p ∧ |p - blackScholes S K r v T f| ≤
        2 * (K * exp (-r * T) + S * exp (5 * v * √T)) *
          exp (-(max (5 - |r - v ^ 2 / 2| * √T / v) 0) ^ 2 / 2) + ε := by
  by_cases hpos : 0 < S ∧ 0 < K ∧ 0 < r ∧ 0 < v
  swap
  · refine ⟨0, fun m n e o ho => ?_⟩
    obtain ⟨-, h1, h2, h3, h4, -, -⟩ := new_some ho
    exact absurd ⟨h1, h2, h3, h4⟩ hpos
  obtain ⟨hS, hK, hr, hv⟩ := hpos
  set κ := |r - v ^ 2 / 2| * √T / v with hκ
  set a := max (5 - κ) 0 with ha
  have ha0 : 0 ≤ a := le_max_right _ _
  set E := S * exp (5 * v * √T + r * T) with hE
  -- the smoothing time
  have hδlim : Tendsto (fun δ : ℝ => K * (|r - v ^ 2 / 2| * δ + v * √δ) + K * (r + v / (4 * √T)) * δ)
      (𝓝[>] 0) (𝓝 (K * (|r - v ^ 2 / 2| * 0 + v * √0) + K * (r + v / (4 * √T)) * 0)) := by
    refine Tendsto.mono_left (Continuous.tendsto ?_ 0) nhdsWithin_le_nhds
    fun_prop
  have hδ0 : K * (|r - v ^ 2 / 2| * 0 + v * √0) + K * (r + v / (4 * √T)) * 0 < ε / 2 := by
    simp; linarith
  obtain ⟨δ, hδ, hδpos⟩ := ((hδlim.eventually_lt_const hδ0).and self_mem_nhdsWithin).exists
  have hδpos : 0 < δ := hδpos
  -- the remaining terms
  set q := a ^ 2 / 2 + a * |r - v ^ 2 / 2| * √T / v with hq
  let Q : ℕ → ℝ := fun n => q * cosh (10 * a / n)
  have tn : ∀ c : ℝ, Tendsto (fun z : ℕ × ℕ => c / (z.1 : ℝ)) (atTop ×ˢ atTop) (𝓝 0) := fun c =>
    (tendsto_const_div_atTop_nhds_zero_nat c).comp tendsto_fst
  have tm : ∀ c : ℝ, Tendsto (fun z : ℕ × ℕ => c / (z.2 : ℝ)) (atTop ×ˢ atTop) (𝓝 0) := fun c =>
    (tendsto_const_div_atTop_nhds_zero_nat c).comp tendsto_snd
  have tQ : Tendsto (fun z : ℕ × ℕ => Q z.1) (atTop ×ˢ atTop) (𝓝 q) := by
    have := ((Real.continuous_cosh.tendsto 0).comp (tn (10 * a))).const_mul q
    simpa [Real.cosh_zero] using this
  have tQm : Tendsto (fun z : ℕ × ℕ => s.theta * (Q z.1 / z.2)) (atTop ×ˢ atTop) (𝓝 0) := by
    have := (tQ.mul (tm 1)).const_mul s.theta
    simpa [div_eq_mul_inv] using this
  let C := v ^ 2 * bound₄ K v δ E / 24 + |r - v ^ 2 / 2| * bound₃ K v δ E / 6
  let F : ℕ × ℕ → ℝ := fun z => (K + E) * (10 * v * √T / z.1 / 2) +
    T * (T / z.2 * bound₂ K r v δ E / 2 + (10 * v * √T / z.1) ^ 2 * C) +
    2 * (K + E) * exp (Q z.1 / (1 - s.theta * (Q z.1 / z.2))) * exp (-5 * a + 5 * a / z.1)
  have tF : Tendsto F (atTop ×ˢ atTop) (𝓝 ((K + E) * (0 / 2) + T * (0 * bound₂ K r v δ E / 2 + 0 ^ 2 * C) +
      2 * (K + E) * exp (q / (1 - 0)) * exp (-5 * a + 0))) := by
    refine Tendsto.add (Tendsto.add ?_ ?_) ?_
    · exact ((tn _).div_const 2).const_mul _
    · exact ((((tm T).mul_const _).div_const 2).add (((tn _).pow 2).mul_const C)).const_mul T
    · refine Tendsto.mul (Tendsto.const_mul _ ?_) ?_
      · exact (Real.continuous_exp.tendsto _).comp (tQ.div (tendsto_const_nhds.sub tQm) (by norm_num))
      · exact (Real.continuous_exp.tendsto _).comp ((tn (5 * a)).const_add (-5 * a))
  have hlim : (K + E) * (0 / 2) + T * (0 * bound₂ K r v δ E / 2 + 0 ^ 2 * C) +
      2 * (K + E) * exp (q / (1 - 0)) * exp (-5 * a + 0) = 2 * (K + E) * exp (-a ^ 2 / 2) := by
    have : q + -5 * a = -a ^ 2 / 2 := by
      have hq' : q = a ^ 2 / 2 + a * κ := by rw [hq, hκ]; ring
      rw [hq']
      rcases max_cases (5 - κ) 0 with ⟨h1, _⟩ | ⟨h1, _⟩
      · have : a = 5 - κ := h1
        rw [this]; ring
      · have : a = 0 := h1
        rw [this]; ring
    rw [sub_zero, div_one, add_zero, mul_assoc (2 * (K + E)), ← exp_add, this]
    ring
  rw [hlim] at tF
  have ev := (tF.eventually_lt_const (show 2 * (K + E) * exp (-a ^ 2 / 2) < 2 * (K + E) * exp (-a ^ 2 / 2) + ε / 2 by
      linarith)).and ((tQm.eventually_lt_const zero_lt_one).and
      ((tn (10 * |r - v ^ 2 / 2| * √T)).eventually_lt_const hv))
  rw [eventually_prod_iff] at ev
  obtain ⟨P1, hP1, P2, hP2, hP⟩ := ev
  obtain ⟨n1, hn1⟩ := eventually_atTop.mp hP1
  obtain ⟨n2, hn2⟩ := eventually_atTop.mp hP2
  refine ⟨max (max n1 n2) 3, fun m n e o ho he hn hm htime => ?_⟩
  have hn3 : 3 ≤ n := (le_max_right _ _).trans hn
  obtain ⟨hF, hqm, hdr⟩ := hP (hn1 n ((le_max_left _ _).trans ((le_max_left _ _).trans hn)))
    (hn2 m ((le_max_right _ _).trans ((le_max_left _ _).trans hm)))
  have hok := ok_of_new ho hT
  obtain ⟨rfl, -, -, -, -, hm0, hn0⟩ := new_some ho
  have hm' : (0:ℝ) < m := by exact_mod_cast hm0
  have hn' : (0:ℝ) < n := by exact_mod_cast hn0
  rw [div_lt_iff₀ hn'] at hdr
  rw [← mul_div_assoc, div_lt_one hm'] at hqm
  obtain ⟨p, hp, hb⟩ := C82_black_scholes _ hok hn3 s he hdr.le htime δ a (Q n) E hδpos ha0 rfl hqm hE
  refine ⟨p, hp, hb.trans ?_⟩
  rw [Ok.dx_eq, dt]
  simp only
  have hpw := pow_half_le a ha0 n hn0
  have hEpos : 0 < E := by positivity
  have hd : exp (-r * T) ≤ 1 := exp_le_one_iff.mpr (by have := mul_pos hr hT; linarith)
  have hd0 := exp_pos (-r * T)
  have hEd : exp (-r * T) * E = S * exp (5 * v * √T) := by
    rw [hE, mul_left_comm, ← exp_add]; congr 2; ring
  have key : K * (|r - v ^ 2 / 2| * δ + v * √δ) + K * (r + v / (4 * √T)) * δ +
      (K + E) * (10 * v * √T / n / 2) + T * (T / m * bound₂ K r v δ E / 2 + (10 * v * √T / n) ^ 2 * C) +
      2 * (K + E) * exp (Q n / (1 - s.theta * (Q n / m))) * exp (-(10 * a / n)) ^ (n / 2) ≤
      2 * (K + E) * exp (-a ^ 2 / 2) + ε := by
    have h1 := mul_le_mul_of_nonneg_left hpw
      (show 0 ≤ 2 * (K + E) * exp (Q n / (1 - s.theta * (Q n / m))) by positivity)
    have hF' : (K + E) * (10 * v * √T / n / 2) + T * (T / m * bound₂ K r v δ E / 2 + (10 * v * √T / n) ^ 2 * C) +
      2 * (K + E) * exp (Q n / (1 - s.theta * (Q n / m))) * exp (-5 * a + 5 * a / n) <
        2 * (K + E) * exp (-a ^ 2 / 2) + ε / 2 := hF
    linarith
  refine (mul_le_mul_of_nonneg_left key hd0.le).trans ?_
  have h2 : exp (-r * T) * ε ≤ ε := by nlinarith
  have h3 : exp (-r * T) * (2 * (K + E) * exp (-a ^ 2 / 2) + ε) =
      2 * (K * exp (-r * T) + S * exp (5 * v * √T)) * exp (-a ^ 2 / 2) + exp (-r * T) * ε := by
    rw [← hEd]; ring
  rw [h3]
  linarith

/-! ### Concrete cases -/

/-- A grid that meets the hypotheses, for a European put at the money. -/
example (s : Scheme) := C82_black_scholes _ (sample_ok 1 one_pos .put (.european 0) 4 (by norm_num)) (by simp [sample]) s
  (by simp [sample]) (by norm_num [sample]) (by
    have := s.theta_mem.1
    norm_num [sample]
    linarith) (1 / 100) 0 _ _ (by norm_num) le_rfl rfl (by simp [sample]) rfl

/-- Arbitrarily fine grids meet the hypotheses. -/
example (s : Scheme) : ∃ o p, new 100 100 0.05 0.2 1 10000 100 .call (.european 0) = some o ∧ s.price o = some p := by
  have ho : new 100 100 0.05 0.2 1 10000 100 .call (.european 0) =
      some ⟨100, 100, 0.05, 0.2, 1, 10000, 100, .call, .european 0⟩ := by
    unfold new; rw [if_pos (by norm_num)]
  have hok := ok_of_new ho one_pos
  obtain ⟨p, hp, -⟩ := C82_black_scholes _ hok (by norm_num) s (by simp) (by norm_num [abs_of_pos]) (by
    have := s.theta_mem.1
    norm_num
    linarith) (1 / 100) 0 _ _ (by norm_num) le_rfl rfl (by norm_num) rfl
  exact ⟨_, p, ho, hp⟩

/-- A call, to the cent, up to the effect of the ends: some grid achieves it. -/
example : ∃ m n o p, new 100 110 0.05 0.2 1 m n .call (.european 0) = some o ∧ o.explicit = some p ∧
    |p - blackScholes 100 110 0.05 0.2 1 .call| ≤ 2 * (110 * exp (-0.05 * 1) + 100 * exp (5 * 0.2 * √1)) *
      exp (-(max (5 - |0.05 - 0.2 ^ 2 / 2| * √1 / 0.2) 0) ^ 2 / 2) + 1 / 100 := by
  obtain ⟨n₀, hn⟩ := C82_converges 100 110 0.05 0.2 1 one_pos .call .explicit (1 / 100) (by norm_num)
  have ho : new 100 110 0.05 0.2 1 ((n₀ + 1) ^ 2) (n₀ + 1) .call (.european 0) =
      some ⟨100, 110, 0.05, 0.2, 1, (n₀ + 1) ^ 2, n₀ + 1, .call, .european 0⟩ := by
    unfold new; rw [if_pos ⟨by norm_num, by norm_num, by norm_num, by norm_num, by positivity, by positivity⟩]
  obtain ⟨p, hp, hb⟩ := hn _ _ _ _ ho (by simp) (by omega) (by nlinarith) (by
    simp only [Scheme.theta]
    push_cast
    nlinarith [sq_nonneg ((n₀:ℝ) + 1)])
  exact ⟨_, _, _, p, ho, hp, hb⟩

end Verif.Options.FdPricer
