import Verif.Stochastics.NelsonSiegel
import Mathlib.Analysis.SpecialFunctions.ExpDeriv
import Mathlib.Analysis.SpecialFunctions.Trigonometric.DerivHyp
import Mathlib.MeasureTheory.Integral.IntervalIntegral.FundThmCalculus
import Mathlib.Analysis.SpecialFunctions.Integrals.Basic
import Mathlib.Tactic.FieldSimp
import Mathlib.Tactic.Linarith
import Mathlib.Tactic.NormNum
import Mathlib.Tactic.Positivity

/-!
# C58: the Nelson-Siegel-Svensson curve
-/

namespace Verif.Stochastics

open Verif.Time MeasureTheory Filter Topology

/-! ## Specification: the instantaneous forward curve of Svensson (1994) and the time of a date -/

/-- The instantaneous forward rate of the Nelson-Siegel-Svensson family, as in the literature. -/
noncomputable def svensson (b0 b1 b2 b3 l1 l2 s : ℝ) : ℝ :=
  b0 + b1 * Real.exp (-(s / l1)) + b2 * ((s / l1) * Real.exp (-(s / l1))) + b3 * ((s / l2) * Real.exp (-(s / l2)))

/-- The forward curve of a parameter set. -/
noncomputable def Nss.curve (m : Nss) : ℝ → ℝ := svensson m.beta0 m.beta1 m.beta2 m.beta3 m.lambda1 m.lambda2

/-- Years (of 365.25 days) from one date to another. -/
noncomputable def years (a b : Date) : ℝ := ((b.dayNum - a.dayNum : ℤ) : ℝ) / 365.25

/-! ## Helper lemmas -/

theorem nssTau_eq (a b : Date) : nssTau a b = some (years a b) := by
  simp only [nssTau, DayCount.factor, wholeDays, years, Option.map]
  push_cast
  norm_num

theorem years_pos {a b : Date} (h : a < b) : 0 < years a b := by
  have : (0 : ℤ) < b.dayNum - a.dayNum := by have := Date.lt_iff.1 h; omega
  unfold years
  have h2 : (0 : ℝ) < ((b.dayNum - a.dayNum : ℤ) : ℝ) := by exact_mod_cast this
  positivity

theorem continuous_curve (m : Nss) : Continuous m.curve := by
  unfold Nss.curve svensson
  fun_prop

/-- The antiderivative of the forward curve vanishing at zero. -/
noncomputable def Nss.anti (m : Nss) (s : ℝ) : ℝ :=
  m.beta0 * s + m.beta1 * (m.lambda1 * (1 - Real.exp (-(s / m.lambda1))))
    + m.beta2 * (m.lambda1 * (1 - Real.exp (-(s / m.lambda1))) - s * Real.exp (-(s / m.lambda1)))
    + m.beta3 * (m.lambda2 * (1 - Real.exp (-(s / m.lambda2))) - s * Real.exp (-(s / m.lambda2)))

theorem hasDerivAt_anti (m : Nss) (h1 : m.lambda1 ≠ 0) (h2 : m.lambda2 ≠ 0) (s : ℝ) :
    HasDerivAt m.anti (m.curve s) s := by
  have e (l : ℝ) : HasDerivAt (fun s : ℝ => Real.exp (-(s / l))) (Real.exp (-(s / l)) * (-(1 / l))) s :=
    (((hasDerivAt_id s).div_const l).fun_neg).exp
  have g (l : ℝ) := ((hasDerivAt_const s (1 : ℝ)).fun_sub (e l)).const_mul l
  have k (l : ℝ) := (g l).fun_sub ((hasDerivAt_id s).fun_mul (e l))
  refine (((((hasDerivAt_id s).const_mul m.beta0).fun_add ((g m.lambda1).const_mul m.beta1)).fun_add
    ((k m.lambda1).const_mul m.beta2)).fun_add ((k m.lambda2).const_mul m.beta3)).congr_deriv ?_
  simp only [Nss.curve, svensson, id]
  field_simp
  ring

theorem integral_curve (m : Nss) (h1 : m.lambda1 ≠ 0) (h2 : m.lambda2 ≠ 0) (a b : ℝ) :
    ∫ s in a..b, m.curve s = m.anti b - m.anti a :=
  intervalIntegral.integral_eq_sub_of_hasDerivAt (fun s _ => hasDerivAt_anti m h1 h2 s)
    ((continuous_curve m).intervalIntegrable a b)

theorem anti_zero (m : Nss) : m.anti 0 = 0 := by simp [Nss.anti]

theorem forwardAt_eq (m : Nss) (h1 : m.lambda1 ≠ 0) (h2 : m.lambda2 ≠ 0) (t : ℝ) :
    m.forwardAt t = some (m.curve t) := by
  simp only [Nss.forwardAt, h1, h2, or_self, if_false, decay, Nss.curve, svensson, neg_div]

theorem spotAt_eq (m : Nss) (h1 : m.lambda1 ≠ 0) (h2 : m.lambda2 ≠ 0) {t : ℝ} (ht : t ≠ 0) :
    t * m.spotAt t = m.anti t := by
  simp only [Nss.spotAt, Nss.anti, decay, h1, h2, if_false, neg_div]
  field_simp

/-! ## Theorems -/

/-- **C58.** For a future date, the forward rate is the value of the Svensson curve at the number of 365.25-day years to
the date. -/
theorem C58_forward (m : Nss) (h1 : m.lambda1 ≠ 0) (h2 : m.lambda2 ≠ 0) (today date : Date) (h : today < date) :
    m.forwardRate today date = some (m.curve (years today date)) := by
  simp [Nss.forwardRate, h, nssTau_eq, forwardAt_eq m h1 h2]

/-- **C58.** For a future date, the spot rate is the average of the forward curve from now to the date. -/
theorem C58_spot_is_average_forward (m : Nss) (h1 : m.lambda1 ≠ 0) (h2 : m.lambda2 ≠ 0) (today date : Date)
    (h : today < date) :
    m.spotRate today date = some ((∫ s in (0 : ℝ)..years today date, m.curve s) / years today date) := by
  have ht := years_pos h
  simp only [Nss.spotRate, h, if_true, nssTau_eq, Option.map_some, integral_curve m h1 h2, anti_zero, sub_zero,
    ← spotAt_eq m h1 h2 ht.ne']
  rw [mul_div_cancel_left₀ _ ht.ne']

/-- **C58.** The discount factor of a future date is the exponential of minus the accumulated forward rate, in percent. -/
theorem C58_discount_factor (m : Nss) (h1 : m.lambda1 ≠ 0) (h2 : m.lambda2 ≠ 0) (today date : Date)
    (h : today < date) :
    m.discountFactor today date = some (Real.exp (-(∫ s in (0 : ℝ)..years today date, m.curve s) / 100)) := by
  have ht := years_pos h
  simp only [Nss.discountFactor, nssTau_eq, Option.bind_some, C58_spot_is_average_forward m h1 h2 today date h,
    Option.map_some, Option.some.injEq]
  congr 1
  field_simp

/-- **C58.** No arbitrage between dates: the ratio of two discount factors is the accumulation of the forward curve
between the two dates. -/
theorem C58_forward_discount (m : Nss) (h1 : m.lambda1 ≠ 0) (h2 : m.lambda2 ≠ 0) (today d1 d2 : Date)
    (h : today < d1) (h' : today < d2) :
    ∃ p1 p2, m.discountFactor today d1 = some p1 ∧ m.discountFactor today d2 = some p2 ∧ 0 < p1 ∧ 0 < p2 ∧
      p1 / p2 = Real.exp ((∫ s in years today d1..years today d2, m.curve s) / 100) := by
  refine ⟨_, _, C58_discount_factor m h1 h2 today d1 h, C58_discount_factor m h1 h2 today d2 h', Real.exp_pos _,
    Real.exp_pos _, ?_⟩
  rw [← Real.exp_sub]
  simp only [integral_curve m h1 h2]
  congr 1
  ring

/-- **C58.** With a non-negative forward curve, discount factors are at most one and do not increase with the date. -/
theorem C58_discount_antitone (m : Nss) (h1 : m.lambda1 ≠ 0) (h2 : m.lambda2 ≠ 0) (hf : ∀ s, 0 ≤ s → 0 ≤ m.curve s)
    (today d1 d2 : Date) (h : today < d1) (h' : d1 ≤ d2) :
    ∃ p1 p2, m.discountFactor today d1 = some p1 ∧ m.discountFactor today d2 = some p2 ∧ p2 ≤ p1 ∧ p1 ≤ 1 := by
  have hn (a b : ℝ) (ha : 0 ≤ a) (hab : a ≤ b) : 0 ≤ ∫ s in a..b, m.curve s :=
    intervalIntegral.integral_nonneg hab fun s hs => hf s (ha.trans hs.1)
  have hy : years today d1 ≤ years today d2 := by
    have : d1.dayNum ≤ d2.dayNum := Date.le_iff.1 h'
    unfold years
    have h3 : ((d1.dayNum - today.dayNum : ℤ) : ℝ) ≤ ((d2.dayNum - today.dayNum : ℤ) : ℝ) := by
      exact_mod_cast (by omega)
    gcongr
  refine ⟨_, _, C58_discount_factor m h1 h2 today d1 h, C58_discount_factor m h1 h2 today d2 (h.trans_le h'), ?_, ?_⟩
  · have := hn _ _ (years_pos h).le hy
    rw [integral_curve m h1 h2] at this
    rw [Real.exp_le_exp, integral_curve m h1 h2, integral_curve m h1 h2]
    linarith
  · have := hn 0 _ le_rfl (years_pos h).le
    rw [Real.exp_le_one_iff]
    linarith

/-- **C58.** Short end: as the time goes to zero, spot and forward rate tend to `β₀ + β₁`. -/
theorem C58_short_end (m : Nss) (h1 : m.lambda1 ≠ 0) (h2 : m.lambda2 ≠ 0) :
    Tendsto m.curve (𝓝[>] 0) (𝓝 (m.beta0 + m.beta1)) ∧ Tendsto m.spotAt (𝓝[>] 0) (𝓝 (m.beta0 + m.beta1)) := by
  have h0 : m.curve 0 = m.beta0 + m.beta1 := by simp [Nss.curve, svensson]
  refine ⟨h0 ▸ (continuous_curve m).continuousAt.tendsto.mono_left nhdsWithin_le_nhds, ?_⟩
  have hd := (hasDerivAt_anti m h1 h2 0).tendsto_slope.mono_left (nhdsWithin_mono 0 (fun x hx => ne_of_gt hx) :
    𝓝[>] (0 : ℝ) ≤ 𝓝[≠] 0)
  rw [h0] at hd
  refine hd.congr' ?_
  filter_upwards [self_mem_nhdsWithin] with t ht
  have ht' : t ≠ 0 := ne_of_gt ht
  rw [slope_def_field, anti_zero, ← spotAt_eq m h1 h2 ht']
  field_simp
  ring

/-- Exponential decay beats a linear factor. -/
theorem tendsto_mul_exp_neg {l : ℝ} (hl : 0 < l) :
    Tendsto (fun s : ℝ => Real.exp (-(s / l))) atTop (𝓝 0) ∧
      Tendsto (fun s : ℝ => s / l * Real.exp (-(s / l))) atTop (𝓝 0) := by
  have hs : Tendsto (fun s : ℝ => s / l) atTop atTop := tendsto_id.atTop_div_const hl
  constructor
  · exact Real.tendsto_exp_neg_atTop_nhds_zero.comp hs
  · have := (Real.tendsto_pow_mul_exp_neg_atTop_nhds_zero 1).comp hs
    simpa [Function.comp_def] using this

/-- **C58.** Long end: with positive `λ`s, as the time grows, spot and forward rate tend to `β₀`. -/
theorem C58_long_end (m : Nss) (h1 : 0 < m.lambda1) (h2 : 0 < m.lambda2) :
    Tendsto m.curve atTop (𝓝 m.beta0) ∧ Tendsto m.spotAt atTop (𝓝 m.beta0) := by
  obtain ⟨e1, g1⟩ := tendsto_mul_exp_neg h1
  obtain ⟨e2, g2⟩ := tendsto_mul_exp_neg h2
  constructor
  · have := ((e1.const_mul m.beta1).const_add m.beta0).add (g1.const_mul m.beta2) |>.add (g2.const_mul m.beta3)
    simp only [mul_zero, add_zero] at this
    exact this
  · have hi (l : ℝ) (e : Tendsto (fun s : ℝ => Real.exp (-(s / l))) atTop (𝓝 0)) :
        Tendsto (fun s : ℝ => l * (1 - Real.exp (-(s / l))) / s) atTop (𝓝 0) := by
      have := ((e.const_sub 1).const_mul l).mul tendsto_inv_atTop_zero
      simpa [div_eq_mul_inv] using this
    have := (((hi _ e1).const_mul m.beta1).const_add m.beta0).add (((hi _ e1).sub e1).const_mul m.beta2) |>.add
      (((hi _ e2).sub e2).const_mul m.beta3)
    have he : m.spotAt = fun t => m.spotAt t := rfl
    rw [he]
    simpa [Nss.spotAt, decay, h1.ne', h2.ne', neg_div] using this

/-- **C58.** A parallel shift of the curve by `δ` shifts the forward and spot rates by `δ` and multiplies the discount
factor by `exp(-δ τ / 100)`. -/
theorem C58_parallel_shift (m : Nss) (h1 : m.lambda1 ≠ 0) (h2 : m.lambda2 ≠ 0) (δ : ℝ) (today date : Date)
    (h : today < date) :
    let m' : Nss := { m with beta0 := m.beta0 + δ }
    m'.forwardRate today date = (m.forwardRate today date).map (· + δ) ∧
    m'.spotRate today date = (m.spotRate today date).map (· + δ) ∧
    m'.discountFactor today date = (m.discountFactor today date).map (· * Real.exp (-δ * years today date / 100)) := by
  intro m'
  have ht := years_pos h
  have hs (t : ℝ) : m'.spotAt t = m.spotAt t + δ := by simp only [Nss.spotAt, m']; ring
  refine ⟨?_, ?_, ?_⟩
  · rw [C58_forward m h1 h2 today date h, C58_forward m' h1 h2 today date h]
    simp only [Nss.curve, svensson, m', Option.map_some, Option.some.injEq]
    ring
  · simp [Nss.spotRate, h, nssTau_eq, hs]
  · simp only [Nss.discountFactor, Nss.spotRate, h, if_true, nssTau_eq, Option.map_some, Option.bind_some, hs,
      Option.some.injEq, ← Real.exp_add]
    congr 1
    ring

/-- **C58.** With `β₃ = 0` the curve is the Nelson-Siegel (1987) curve: the second hump's `λ₂` has no effect. -/
theorem C58_nelson_siegel (m : Nss) (h1 : m.lambda1 ≠ 0) (h2 : m.lambda2 ≠ 0) (h3 : m.beta3 = 0) (l : ℝ) (hl : l ≠ 0)
    (today date : Date) :
    m.forwardRate today date = { m with lambda2 := l }.forwardRate today date ∧
    m.spotRate today date = { m with lambda2 := l }.spotRate today date ∧
    m.discountFactor today date = { m with lambda2 := l }.discountFactor today date := by
  have hs (t : ℝ) : m.spotAt t = { m with lambda2 := l }.spotAt t := by simp [Nss.spotAt, h3]
  have hs' : m.spotRate today date = { m with lambda2 := l }.spotRate today date := by
    simp only [Nss.spotRate, nssTau_eq, Option.map_some, hs]
  refine ⟨?_, hs', ?_⟩
  · simp [Nss.forwardRate, nssTau_eq, Nss.forwardAt, h1, h2, hl, h3]
  · simp only [Nss.discountFactor, hs']

/-- **C58.** All three functions panic for today and for past dates, in particular the discount factor of today is not one
but a panic. -/
theorem C58_panics (m : Nss) (today date : Date) (h : date ≤ today) :
    m.forwardRate today date = none ∧ m.spotRate today date = none ∧ m.discountFactor today date = none := by
  have hn : ¬ today < date := not_lt.2 h
  simp [Nss.forwardRate, Nss.spotRate, Nss.discountFactor, hn]

/-- **C58.** With `λ₁ = 0` or `λ₂ = 0` (the values of the `Default` model) the forward rate is NaN, although the spot rate
and the discount factor are numbers. -/
theorem C58_zero_lambda (m : Nss) (h0 : m.lambda1 = 0 ∨ m.lambda2 = 0) (today date : Date) (h : today < date) :
    m.forwardRate today date = none ∧ (∃ s, m.spotRate today date = some s) ∧
      ∃ p, m.discountFactor today date = some p := by
  refine ⟨?_, ?_, ?_⟩
  · simp [Nss.forwardRate, h, nssTau_eq, Nss.forwardAt, h0]
  · exact ⟨_, by simp only [Nss.spotRate, h, if_true, nssTau_eq, Option.map_some]; rfl⟩
  · exact ⟨_, by simp only [Nss.discountFactor, Nss.spotRate, h, if_true, nssTau_eq, Option.map_some,
      Option.bind_some]; rfl⟩

/-! ## The cost function -/

theorem log_cosh_nonneg (x : ℝ) : 0 ≤ Real.log (Real.cosh x) := Real.log_nonneg (Real.one_le_cosh x)

theorem log_cosh_eq_zero {x : ℝ} : Real.log (Real.cosh x) = 0 ↔ x = 0 := by
  constructor
  · intro h
    by_contra hx
    have := Real.log_pos (Real.one_lt_cosh.2 hx)
    linarith
  · rintro rfl; simp

theorem logCoshSum_spec (t : CurveType) (m : Nss) (today : Date) (f : Date → ℝ) :
    ∀ nodes : List (Date × ℝ), (∀ x ∈ nodes, t.model m today x.1 = some (f x.1)) →
      logCoshSum t m today nodes = some ((nodes.map fun x => Real.log (Real.cosh (f x.1 - x.2))).sum)
  | [], _ => rfl
  | (d, o) :: l, h => by
    have h1 := h (d, o) (by simp)
    have h2 := logCoshSum_spec t m today f l fun x hx => h x (by simp [hx])
    simp only at h1
    simp [logCoshSum, h1, h2]

theorem model_isSome (t : CurveType) (ht : t ≠ .flat) (m : Nss) (h1 : m.lambda1 ≠ 0) (h2 : m.lambda2 ≠ 0)
    (today d : Date) (h : today < d) : ∃ v, t.model m today d = some v := by
  cases t with
  | flat => exact absurd rfl ht
  | spot => exact ⟨_, C58_spot_is_average_forward m h1 h2 today d h⟩
  | forward => exact ⟨_, C58_forward m h1 h2 today d h⟩
  | discount => exact ⟨_, C58_discount_factor m h1 h2 today d h⟩

theorem sum_log_cosh_eq_zero (f : Date → ℝ) : ∀ l : List (Date × ℝ),
    0 ≤ (l.map fun x => Real.log (Real.cosh (f x.1 - x.2))).sum ∧
      ((l.map fun x => Real.log (Real.cosh (f x.1 - x.2))).sum = 0 ↔ ∀ x ∈ l, f x.1 = x.2)
  | [] => by simp
  | y :: l => by
    obtain ⟨ih1, ih2⟩ := sum_log_cosh_eq_zero f l
    have := log_cosh_nonneg (f y.1 - y.2)
    simp only [List.map_cons, List.sum_cons, List.forall_mem_cons]
    refine ⟨by linarith, ?_⟩
    rw [← ih2, ← sub_eq_zero (a := f y.1), ← log_cosh_eq_zero (x := f y.1 - y.2)]
    constructor
    · intro h; exact ⟨by linarith, by linarith⟩
    · rintro ⟨h, h'⟩; linarith

/-- **C58.** The cost minimised by the fit: for a non-empty set of future nodes and a non-flat curve it is a non-negative
number, and it is zero exactly when the model reproduces every node. -/
theorem C58_cost (t : CurveType) (ht : t ≠ .flat) (m : Nss) (h1 : m.lambda1 ≠ 0) (h2 : m.lambda2 ≠ 0) (today : Date)
    (nodes : List (Date × ℝ)) (hne : nodes ≠ []) (hfut : ∀ x ∈ nodes, today < x.1) :
    ∃ c, nssCost t nodes today m = some c ∧ 0 ≤ c ∧
      (c = 0 ↔ ∀ x ∈ nodes, t.model m today x.1 = some x.2) := by
  have hf : ∀ x ∈ nodes, t.model m today x.1 = some ((t.model m today x.1).getD 0) := by
    intro x hx
    obtain ⟨v, hv⟩ := model_isSome t ht m h1 h2 today x.1 (hfut x hx)
    simp [hv]
  obtain ⟨hs1, hs2⟩ := sum_log_cosh_eq_zero (fun d => (t.model m today d).getD 0) nodes
  have hlen : (0 : ℝ) < nodes.length := by
    have := List.length_pos_iff.2 hne
    exact_mod_cast this
  refine ⟨_, by
    simp only [nssCost, ht, hne, or_self, if_false]
    rw [logCoshSum_spec t m today (fun d => (t.model m today d).getD 0) nodes hf, Option.map_some], by positivity, ?_⟩
  rw [div_eq_zero_iff, or_iff_left hlen.ne', hs2]
  refine forall₂_congr fun x hx => ?_
  constructor
  · intro h; rw [hf x hx, h]
  · intro h; simp [h]

/-- **C58.** The cost cannot be evaluated (the fit panics) if some node is not in the future, if the curve is flat, and
gives NaN without nodes. -/
theorem C58_cost_panics (t : CurveType) (m : Nss) (today : Date) (nodes : List (Date × ℝ))
    (h : t = .flat ∨ nodes = [] ∨ ∃ x ∈ nodes, x.1 ≤ today) : nssCost t nodes today m = none := by
  have key : ∀ l : List (Date × ℝ), (∃ x ∈ l, x.1 ≤ today) → logCoshSum t m today l = none := by
    intro l
    induction l with
    | nil => simp
    | cons y l ih =>
      rintro ⟨x, hx, hle⟩
      obtain ⟨d, o⟩ := y
      rcases List.mem_cons.1 hx with rfl | hx
      · obtain ⟨a, b, c⟩ := C58_panics m today d hle
        have : t.model m today d = none := by cases t <;> simp [CurveType.model, a, b, c]
        simp [logCoshSum, this]
      · simp [logCoshSum, ih ⟨x, hx, hle⟩]
  rcases h with h | h | h
  · simp [nssCost, h]
  · simp [nssCost, h]
  · simp [nssCost, key nodes h]

/-- **C58, units.** Discount factors treat the rates as percentages while the fit searches `β₀ ∈ [ε, 0.3]`,
`|β₁| ≤ 0.3`, `|β₂|, |β₃| ≤ 1` (curves.rs 350-357): every discount factor in the search box is above
`exp(-0.026 τ)`, so no discount curve with rates above 2.6 percent a year can be fitted. -/
theorem C58_fit_box (m : Nss) (hl1 : 0 < m.lambda1) (hl2 : 0 < m.lambda2) (hb0 : m.beta0 ≤ 0.3) (hb1 : |m.beta1| ≤ 0.3)
    (hb2 : |m.beta2| ≤ 1) (hb3 : |m.beta3| ≤ 1) (today date : Date) (h : today < date) :
    ∃ p, m.discountFactor today date = some p ∧ Real.exp (-(0.026 * years today date)) ≤ p := by
  have ht := years_pos h
  refine ⟨_, C58_discount_factor m hl1.ne' hl2.ne' today date h, ?_⟩
  rw [Real.exp_le_exp]
  have hle : ∀ s ∈ Set.Icc (0 : ℝ) (years today date), m.curve s ≤ 2.6 := by
    intro s hs
    have e1 (l : ℝ) (hl : 0 < l) : 0 ≤ Real.exp (-(s / l)) ∧ Real.exp (-(s / l)) ≤ 1 := by
      refine ⟨(Real.exp_pos _).le, Real.exp_le_one_iff.2 ?_⟩
      have : 0 ≤ s / l := div_nonneg hs.1 hl.le
      linarith
    have e2 (l : ℝ) (hl : 0 < l) : 0 ≤ s / l * Real.exp (-(s / l)) ∧ s / l * Real.exp (-(s / l)) ≤ 1 := by
      have hx : 0 ≤ s / l := div_nonneg hs.1 hl.le
      refine ⟨mul_nonneg hx (Real.exp_pos _).le, ?_⟩
      rw [Real.exp_neg, ← div_eq_mul_inv, div_le_one (Real.exp_pos _)]
      linarith [Real.add_one_le_exp (s / l)]
    have hm (b x B : ℝ) (hb : |b| ≤ B) (hx : 0 ≤ x ∧ x ≤ 1) : b * x ≤ B := by
      have h1 : b * x ≤ |b| * x := mul_le_mul_of_nonneg_right (le_abs_self b) hx.1
      have h2 : |b| * x ≤ |b| * 1 := mul_le_mul_of_nonneg_left hx.2 (abs_nonneg b)
      linarith
    have a1 := hm _ _ _ hb1 (e1 _ hl1)
    have a2 := hm _ _ _ hb2 (e2 _ hl1)
    have a3 := hm _ _ _ hb3 (e2 _ hl2)
    simp only [Nss.curve, svensson]
    norm_num at *
    linarith
  have := intervalIntegral.integral_mono_on ht.le ((continuous_curve m).intervalIntegrable 0 _)
    (intervalIntegrable_const (μ := volume) (c := (2.6 : ℝ))) hle
  rw [intervalIntegral.integral_const, smul_eq_mul] at this
  norm_num at this ⊢
  linarith

/-! ## Non-vacuity -/

/-- A usual upward-sloping curve. -/
noncomputable def nssExample : Nss := ⟨5, -2, 1, 1 / 2, 3 / 2, 4⟩

example : ∃ p1 p2, nssExample.discountFactor ⟨2024, 2, 29, by decide⟩ ⟨2024, 12, 31, by decide⟩ = some p1 ∧
    nssExample.discountFactor ⟨2024, 2, 29, by decide⟩ ⟨2030, 1, 1, by decide⟩ = some p2 ∧ p2 ≤ p1 ∧ p1 ≤ 1 := by
  refine C58_discount_antitone nssExample (by norm_num [nssExample]) (by norm_num [nssExample]) ?_ _ _ _ (by decide)
    (by decide)
  intro s hs
  have h1 : Real.exp (-(s / (3 / 2))) ≤ 1 := Real.exp_le_one_iff.2 (by have : 0 ≤ s / (3 / 2) := by positivity
                                                                       linarith)
  have h2 : 0 ≤ s / (3 / 2) * Real.exp (-(s / (3 / 2))) := by positivity
  have h3 : 0 ≤ s / 4 * Real.exp (-(s / 4)) := by positivity
  simp only [Nss.curve, svensson, nssExample]
  linarith

example : nssExample.forwardRate ⟨2024, 2, 29, by decide⟩ ⟨2024, 2, 29, by decide⟩ = none :=
  (C58_panics nssExample _ _ le_rfl).1

example : ∃ c, nssCost .spot [(⟨2025, 1, 1, by decide⟩, 3), (⟨2026, 1, 1, by decide⟩, 4)] ⟨2024, 2, 29, by decide⟩ nssExample
    = some c ∧ 0 ≤ c ∧ (c = 0 ↔ ∀ x ∈ [((⟨2025, 1, 1, by decide⟩ : Date), (3 : ℝ)), (⟨2026, 1, 1, by decide⟩, 4)],
      CurveType.spot.model nssExample ⟨2024, 2, 29, by decide⟩ x.1 = some x.2) :=
  C58_cost .spot (by decide) nssExample (by norm_num [nssExample]) (by norm_num [nssExample]) _ _ (by simp)
    (by simp only [List.mem_cons, List.not_mem_nil, or_false, forall_eq_or_imp, forall_eq]; decide)

theorem nssExample_ne : nssExample.lambda1 ≠ 0 ∧ nssExample.lambda2 ≠ 0 := by norm_num [nssExample]

example := C58_forward nssExample nssExample_ne.1 nssExample_ne.2 ⟨2024, 2, 29, by decide⟩ ⟨2030, 1, 1, by decide⟩
  (by decide)

example := C58_spot_is_average_forward nssExample nssExample_ne.1 nssExample_ne.2 ⟨2024, 2, 29, by decide⟩
  ⟨2030, 1, 1, by decide⟩ (by decide)

example := C58_discount_factor nssExample nssExample_ne.1 nssExample_ne.2 ⟨2024, 2, 29, by decide⟩
  ⟨2030, 1, 1, by decide⟩ (by decide)

example := C58_forward_discount nssExample nssExample_ne.1 nssExample_ne.2 ⟨2024, 2, 29, by decide⟩
  ⟨2025, 1, 1, by decide⟩ ⟨2030, 1, 1, by decide⟩ (by decide) (by decide)

example : Tendsto nssExample.spotAt (𝓝[>] 0) (𝓝 3) := by
  have := (C58_short_end nssExample nssExample_ne.1 nssExample_ne.2).2
  norm_num [nssExample] at this ⊢
  exact this

example : Tendsto nssExample.spotAt atTop (𝓝 5) :=
  (C58_long_end nssExample (by norm_num [nssExample]) (by norm_num [nssExample])).2

example := C58_parallel_shift nssExample nssExample_ne.1 nssExample_ne.2 (1 / 2) ⟨2024, 2, 29, by decide⟩
  ⟨2030, 1, 1, by decide⟩ (by decide)

example := C58_nelson_siegel ⟨5, -2, 1, 0, 3 / 2, 4⟩ (by norm_num) (by norm_num) rfl 7 (by norm_num)
  ⟨2024, 2, 29, by decide⟩ ⟨2030, 1, 1, by decide⟩

example := C58_zero_lambda ⟨5, -2, 1, 0, 0, 4⟩ (Or.inl rfl) ⟨2024, 2, 29, by decide⟩ ⟨2030, 1, 1, by decide⟩ (by decide)

example : nssCost .spot [(⟨2024, 2, 29, by decide⟩, 3)] ⟨2024, 2, 29, by decide⟩ nssExample = none :=
  C58_cost_panics .spot nssExample _ _ (Or.inr (Or.inr ⟨_, List.mem_singleton.2 rfl, le_rfl⟩))

end Verif.Stochastics
