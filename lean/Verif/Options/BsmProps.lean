import Verif.Options.BsmLemmas

/-!
# C47: Black-Scholes-Merton prices and Greeks

The specification is independent of the closed formulas:
* the price is the discounted expectation of the payoff when the underlying at expiry is
  `spotAt z = s e^{(b - v²/2) t + v √t z}` with `z` standard normal;
* each Greek is the partial derivative (`HasDerivAt`) of the price or of a lower Greek.
Throughout `s, k, t, v > 0`; the rates `r, b` are arbitrary reals.
-/

namespace Verif.Options

open Real MeasureTheory ProbabilityTheory Verif.Distributions

/-- The underlying at expiry, driven by a standard normal variate `z`, in the generalised
Black-Scholes model with cost of carry `b`. -/
noncomputable def spotAt (s t b v z : ℝ) : ℝ := s * exp ((b - v ^ 2 / 2) * t + v * √t * z)

namespace Bsm

variable {s k t r b v : ℝ}

/-- Put-call parity: `call - put = s e^{(b-r)t} - k e^{-rt}` for all inputs. -/
theorem C47_parity (s k t r b v : ℝ) :
    callPrice s k t r b v - putPrice s k t r b v = s * exp ((b - r) * t) - k * exp (-r * t) := by
  rw [parity]; ring

/-- The formulas price the payoff: discounted expectation of `max(S - k, 0)` and `max(k - S, 0)`. -/
theorem C47_expectation (hs : 0 < s) (hk : 0 < k) (ht : 0 < t) (hv : 0 < v) :
    callPrice s k t r b v = exp (-r * t) * ∫ z, max (spotAt s t b v z - k) 0 ∂gaussianReal 0 1 ∧
    putPrice s k t r b v = exp (-r * t) * ∫ z, max (k - spotAt s t b v z) 0 ∂gaussianReal 0 1 := by
  have hw : (0:ℝ) < √t := by positivity
  have h2 : √t * √t = t := Real.mul_self_sqrt ht.le
  have hc : callPrice s k t r b v
      = exp (-r * t) * ∫ z, max (spotAt s t b v z - k) 0 ∂gaussianReal 0 1 := by
    simp only [spotAt]
    rw [call_integral s k ((b - v ^ 2 / 2) * t) (v * √t) hs hk (by positivity)]
    have e2 : (log (s / k) + (b - v ^ 2 / 2) * t) / (v * √t) = d2 s k t b v := by
      rw [d2, d1, eq_sub_iff_add_eq, div_add' _ _ _ (by positivity)]
      congr 1
      linear_combination v ^ 2 * h2
    have e1 : d2 s k t b v + v * √t = d1 s k t b v := by rw [d2]; ring
    rw [e2, e1, callPrice, show (b - v ^ 2 / 2) * t + (v * √t) ^ 2 / 2 = b * t by
      linear_combination v ^ 2 / 2 * h2, show (b - r) * t = b * t + -r * t by ring, exp_add]
    ring
  refine ⟨hc, ?_⟩
  have e : ∀ z, max (k - spotAt s t b v z) 0 =
      max (spotAt s t b v z - k) 0 - spotAt s t b v z + k := by
    intro z
    rcases le_total k (spotAt s t b v z) with h | h
    · rw [max_eq_right (by linarith), max_eq_left (by linarith)]; ring
    · rw [max_eq_left (by linarith), max_eq_right (by linarith)]; ring
  have hi : Integrable (spotAt s t b v) (gaussianReal 0 1) := lognormal_integrable _ _ _
  have hi2 : Integrable (fun z => max (spotAt s t b v z - k) 0) (gaussianReal 0 1) :=
    (hi.sub (integrable_const k)).sup (integrable_const 0)
  simp only [e]
  rw [integral_add (f := fun z => max (spotAt s t b v z - k) 0 - spotAt s t b v z) (hi2.sub hi)
    (integrable_const _), integral_sub hi2 hi, parity, hc]
  have hm : ∫ z, spotAt s t b v z ∂gaussianReal 0 1 = s * exp (b * t) := by
    simp only [spotAt]
    rw [lognormal_mean, show (b - v ^ 2 / 2) * t + (v * √t) ^ 2 / 2 = b * t by
      linear_combination v ^ 2 / 2 * h2]
  rw [hm, integral_const, probReal_univ, one_smul, show (b - r) * t = b * t + -r * t by ring, exp_add]
  ring

example := C47_expectation (s := 100) (k := 110) (t := 1 / 2) (r := 0.05) (b := 0.02) (v := 0.3) (by norm_num) (by norm_num) (by norm_num)
  (by norm_num)

/-- Delta is the derivative in the spot. -/
theorem C47_delta (hs : 0 < s) (hk : 0 < k) (ht : 0 < t) (hv : 0 < v) :
    HasDerivAt (fun s => callPrice s k t r b v) (callDelta s k t r b v) s ∧
    HasDerivAt (fun s => putPrice s k t r b v) (putDelta s k t r b v) s := by
  have h := price_deriv (A_ds (s := s) (b := b) (r := r) (t := t))
    (hasDerivAt_const s (k * exp (-r * t))) (d1_ds (t := t) (b := b) (v := v) hs hk)
    (hasDerivAt_const s (v * √t)) (key hs hk ht hv)
  have hc : HasDerivAt (fun s => callPrice s k t r b v) (callDelta s k t r b v) s :=
    h.congr_deriv (by rw [callDelta]; ring)
  refine ⟨hc, ?_⟩
  simp only [parity]
  refine ((hc.fun_sub A_ds).add_const _).congr_deriv ?_
  rw [callDelta, putDelta]; ring

example := C47_delta (s := 100) (k := 110) (t := 1 / 2) (r := 0.05) (b := 0.02) (v := 0.3) (by norm_num) (by norm_num) (by norm_num)
  (by norm_num)

/-- Vega is the derivative in the volatility. -/
theorem C47_vega (hs : 0 < s) (hk : 0 < k) (ht : 0 < t) (hv : 0 < v) :
    HasDerivAt (fun v => callPrice s k t r b v) (vega s k t r b v) v ∧
    HasDerivAt (fun v => putPrice s k t r b v) (vega s k t r b v) v ∧ 0 < vega s k t r b v := by
  have h := price_deriv (hasDerivAt_const v (s * exp ((b - r) * t)))
    (hasDerivAt_const v (k * exp (-r * t))) (d1_dv (s := s) (k := k) (b := b) ht hv)
    (w_dv (t := t)) (key hs hk ht hv)
  have hc : HasDerivAt (fun v => callPrice s k t r b v) (vega s k t r b v) v :=
    h.congr_deriv (by rw [vega]; ring)
  refine ⟨hc, ?_, ?_⟩
  · simp only [parity]
    exact (hc.sub_const _).add_const _
  · have := n_pos (d1 s k t b v)
    unfold vega; positivity

example := C47_vega (s := 100) (k := 110) (t := 1 / 2) (r := 0.05) (b := 0.02) (v := 0.3) (by norm_num) (by norm_num) (by norm_num)
  (by norm_num)

/-- Both prices are strictly increasing in the volatility, and run from the discounted intrinsic
value (volatility to zero) to the discounted forward, respectively strike (volatility to infinity). -/
theorem C47_volatility (hs : 0 < s) (hk : 0 < k) (ht : 0 < t) :
    StrictMonoOn (fun v => callPrice s k t r b v) (Set.Ioi 0) ∧
    StrictMonoOn (fun v => putPrice s k t r b v) (Set.Ioi 0) ∧
    Filter.Tendsto (fun v => callPrice s k t r b v) (nhdsWithin 0 (Set.Ioi 0))
      (nhds (max (s * exp ((b - r) * t) - k * exp (-r * t)) 0)) ∧
    Filter.Tendsto (fun v => putPrice s k t r b v) (nhdsWithin 0 (Set.Ioi 0))
      (nhds (max (k * exp (-r * t) - s * exp ((b - r) * t)) 0)) ∧
    Filter.Tendsto (fun v => callPrice s k t r b v) Filter.atTop (nhds (s * exp ((b - r) * t))) ∧
    Filter.Tendsto (fun v => putPrice s k t r b v) Filter.atTop (nhds (k * exp (-r * t))) := by
  have hm : StrictMonoOn (fun v => callPrice s k t r b v) (Set.Ioi 0) := by
    refine strictMonoOn_of_deriv_pos (convex_Ioi 0) ?_ ?_
    · exact fun v hv => (C47_vega hs hk ht hv).1.continuousAt.continuousWithinAt
    · intro v hv
      rw [interior_Ioi] at hv
      rw [(C47_vega hs hk ht hv).1.deriv]; exact (C47_vega hs hk ht hv).2.2
  refine ⟨hm, ?_, callPrice_zero hs hk ht, ?_, callPrice_atTop ht, ?_⟩
  · intro x hx y hy hxy
    have := hm hx hy hxy
    simp only [parity] at this ⊢
    linarith
  · simp only [parity]
    have := ((callPrice_zero (r := r) (b := b) hs hk ht).sub_const (s * exp ((b - r) * t))).add_const
      (k * exp (-r * t))
    convert this using 2
    rcases le_total (s * exp ((b - r) * t)) (k * exp (-r * t)) with h | h
    · rw [max_eq_left (by linarith), max_eq_right (by linarith)]; ring
    · rw [max_eq_right (by linarith), max_eq_left (by linarith)]; ring
  · simp only [parity]
    have := ((callPrice_atTop (s := s) (k := k) (r := r) (b := b) ht).sub_const (s * exp ((b - r) * t))).add_const
      (k * exp (-r * t))
    simpa using this

example := C47_volatility (s := 100) (k := 110) (t := 1 / 2) (r := 0.05) (b := 0.02) (by norm_num) (by norm_num) (by norm_num)

theorem lt_of_strictMono_tendsto {f : ℝ → ℝ} {a v : ℝ} (hm : StrictMonoOn f (Set.Ioi 0))
    (h0 : Filter.Tendsto f (nhdsWithin 0 (Set.Ioi 0)) (nhds a)) (hv : 0 < v) : a < f v := by
  have h1 : a ≤ f (v / 2) := by
    refine le_of_tendsto h0 ?_
    have : Set.Ioo 0 (v / 2) ∈ nhdsWithin (0:ℝ) (Set.Ioi 0) := Ioo_mem_nhdsGT (by positivity)
    filter_upwards [this] with x hx
    exact (hm hx.1 (show 0 < v / 2 by positivity) hx.2).le
  exact h1.trans_lt (hm (show 0 < v / 2 by positivity) hv (by linarith))

theorem gt_of_strictMono_tendsto {f : ℝ → ℝ} {a v : ℝ} (hm : StrictMonoOn f (Set.Ioi 0))
    (h0 : Filter.Tendsto f Filter.atTop (nhds a)) (hv : 0 < v) : f v < a := by
  have h1 : f (v + 1) ≤ a := by
    refine ge_of_tendsto h0 ?_
    filter_upwards [Filter.eventually_gt_atTop (v + 1)] with x hx
    exact (hm (show 0 < v + 1 by positivity) (show 0 < x by linarith) hx).le
  exact (hm hv (show 0 < v + 1 by positivity) (by linarith)).trans_le h1

/-- No-arbitrage bounds: the call lies strictly between its discounted intrinsic value and the
discounted forward, the put strictly between its discounted intrinsic value and the discounted
strike; delta lies strictly between `0` and `e^{(b-r)t}` (call), `-e^{(b-r)t}` and `0` (put). -/
theorem C47_bounds (hs : 0 < s) (hk : 0 < k) (ht : 0 < t) (hv : 0 < v) :
    (max (s * exp ((b - r) * t) - k * exp (-r * t)) 0 < callPrice s k t r b v ∧
      callPrice s k t r b v < s * exp ((b - r) * t)) ∧
    (max (k * exp (-r * t) - s * exp ((b - r) * t)) 0 < putPrice s k t r b v ∧
      putPrice s k t r b v < k * exp (-r * t)) ∧
    (0 < callDelta s k t r b v ∧ callDelta s k t r b v < exp ((b - r) * t)) ∧
    (-exp ((b - r) * t) < putDelta s k t r b v ∧ putDelta s k t r b v < 0) := by
  obtain ⟨m1, m2, z1, z2, t1, t2⟩ := C47_volatility (r := r) (b := b) hs hk ht
  have h0 := N_pos (d1 s k t b v)
  have h1 := N_lt_one (d1 s k t b v)
  have he := exp_pos ((b - r) * t)
  refine ⟨⟨lt_of_strictMono_tendsto m1 z1 hv, gt_of_strictMono_tendsto m1 t1 hv⟩,
    ⟨lt_of_strictMono_tendsto m2 z2 hv, gt_of_strictMono_tendsto m2 t2 hv⟩, ⟨?_, ?_⟩, ⟨?_, ?_⟩⟩
  · unfold callDelta; positivity
  · unfold callDelta; nlinarith
  · unfold putDelta; nlinarith
  · unfold putDelta; nlinarith

example := C47_bounds (s := 100) (k := 110) (t := 1 / 2) (r := 0.05) (b := 0.02) (v := 0.3) (by norm_num) (by norm_num) (by norm_num)
  (by norm_num)

/-- Implied volatility is well defined: a call price is attained by exactly one positive
volatility if and only if it lies strictly between the discounted intrinsic value and the
discounted forward (and likewise for puts). -/
theorem C47_implied_volatility (hs : 0 < s) (hk : 0 < k) (ht : 0 < t) (p : ℝ) :
    ((∃! v, 0 < v ∧ callPrice s k t r b v = p) ↔
      max (s * exp ((b - r) * t) - k * exp (-r * t)) 0 < p ∧ p < s * exp ((b - r) * t)) ∧
    ((∃! v, 0 < v ∧ putPrice s k t r b v = p) ↔
      max (k * exp (-r * t) - s * exp ((b - r) * t)) 0 < p ∧ p < k * exp (-r * t)) := by
  obtain ⟨m1, m2, z1, z2, t1, t2⟩ := C47_volatility (r := r) (b := b) hs hk ht
  have main : ∀ (f : ℝ → ℝ) (lo hi : ℝ), StrictMonoOn f (Set.Ioi 0) → ContinuousOn f (Set.Ioi 0) →
      Filter.Tendsto f (nhdsWithin 0 (Set.Ioi 0)) (nhds lo) → Filter.Tendsto f Filter.atTop (nhds hi) →
      ((∃! v, 0 < v ∧ f v = p) ↔ lo < p ∧ p < hi) := by
    intro f lo hi hm hc h0 h1
    constructor
    · rintro ⟨v, ⟨hv, rfl⟩, _⟩
      exact ⟨lt_of_strictMono_tendsto hm h0 hv, gt_of_strictMono_tendsto hm h1 hv⟩
    · rintro ⟨hl, hh⟩
      obtain ⟨a, ha0, ha⟩ := ((h0.eventually (gt_mem_nhds hl)).and self_mem_nhdsWithin).exists
      obtain ⟨c, hc0, hc1⟩ := ((h1.eventually (lt_mem_nhds hh)).and (Filter.eventually_gt_atTop 0)).exists
      have hac : a < c := by
        by_contra hn
        rcases (not_lt.mp hn).eq_or_lt with h | h
        · rw [h] at hc0; linarith
        · have := hm hc1 ha h; linarith
      obtain ⟨v, hv, hvp⟩ := intermediate_value_Icc hac.le
        (hc.mono fun x hx => lt_of_lt_of_le ha hx.1) ⟨ha0.le, hc0.le⟩
      have hv0 : 0 < v := lt_of_lt_of_le ha hv.1
      exact ⟨v, ⟨hv0, hvp⟩, fun y hy => hm.injOn hy.1 hv0 (hy.2.trans hvp.symm)⟩
  exact ⟨main _ _ _ m1 (fun v hv => (C47_vega hs hk ht hv).1.continuousAt.continuousWithinAt) z1 t1,
    main _ _ _ m2 (fun v hv => (C47_vega hs hk ht hv).2.1.continuousAt.continuousWithinAt) z2 t2⟩

/-- Theta is the derivative in calendar time: minus the derivative in time to expiry. -/
theorem C47_theta (hs : 0 < s) (hk : 0 < k) (ht : 0 < t) (hv : 0 < v) :
    HasDerivAt (fun t => callPrice s k t r b v) (-callTheta s k t r b v) t ∧
    HasDerivAt (fun t => putPrice s k t r b v) (-putTheta s k t r b v) t := by
  have h := price_deriv (A_dt (s := s) (b := b) (r := r) (t := t))
    (B_dt (k := k) (r := r) (t := t)) (d1_dt (s := s) (k := k) (b := b) ht hv)
    (w_dt (v := v) ht) (key hs hk ht hv)
  have hc : HasDerivAt (fun t => callPrice s k t r b v) (-callTheta s k t r b v) t :=
    h.congr_deriv (by rw [callTheta, d2]; ring)
  refine ⟨hc, ?_⟩
  simp only [parity]
  refine ((hc.fun_sub A_dt).fun_add B_dt).congr_deriv ?_
  rw [callTheta, putTheta, N_neg, N_neg]; ring

example := C47_theta (s := 100) (k := 110) (t := 1 / 2) (r := 0.05) (b := 0.02) (v := 0.3) (by norm_num) (by norm_num) (by norm_num)
  (by norm_num)

/-- Rho is the derivative in the interest rate when the cost of carry moves with it
(`b = r - q` with fixed yield `q`: Black-Scholes, Merton, Garman-Kohlhagen). -/
theorem C47_rho (q : ℝ) (hs : 0 < s) (hk : 0 < k) (ht : 0 < t) (hv : 0 < v) :
    HasDerivAt (fun r => callPrice s k t r (r - q) v) (callRho s k t r (r - q) v) r ∧
    HasDerivAt (fun r => putPrice s k t r (r - q) v) (putRho s k t r (r - q) v) r := by
  have hd : HasDerivAt (fun r => d1 s k t (r - q) v) (√t / v) r := by
    have := (d1_db (s := s) (k := k) (v := v) (b := r - q) ht).comp r ((hasDerivAt_id r).sub_const q)
    refine this.congr_deriv ?_
    ring
  have hA : HasDerivAt (fun r => s * exp ((r - q - r) * t)) 0 r := by
    have : (fun r : ℝ => s * exp ((r - q - r) * t)) = fun _ => s * exp (-q * t) := by
      funext r; ring_nf
    rw [this]; exact hasDerivAt_const _ _
  have h := price_deriv hA (B_dr (k := k) (r := r) (t := t)) hd
    (hasDerivAt_const r (v * √t)) (key hs hk ht hv)
  have hc : HasDerivAt (fun r => callPrice s k t r (r - q) v) (callRho s k t r (r - q) v) r :=
    h.congr_deriv (by rw [callRho, d2]; ring)
  refine ⟨hc, ?_⟩
  simp only [parity]
  refine ((hc.fun_sub hA).fun_add B_dr).congr_deriv ?_
  rw [callRho, putRho, N_neg]; ring

example := C47_rho (s := 100) (k := 110) (t := 1 / 2) (r := 0.05) (q := 0.02) (v := 0.3) (by norm_num) (by norm_num) (by norm_num)
  (by norm_num)

/-- Defect: for a fixed cost of carry (in particular Black 1976, `b = 0`) the derivative in the
interest rate is `-t * price`, so `rho` has the wrong sign for calls: it is positive while the
price falls in `r`. -/
theorem C47_rho_fixed_carry (hs : 0 < s) (hk : 0 < k) (ht : 0 < t) (hv : 0 < v) :
    HasDerivAt (fun r => callPrice s k t r b v) (-t * callPrice s k t r b v) r ∧
    HasDerivAt (fun r => putPrice s k t r b v) (-t * putPrice s k t r b v) r ∧
    -t * callPrice s k t r b v < 0 ∧ 0 < callRho s k t r b v ∧
    ¬ HasDerivAt (fun r => callPrice s k t r b v) (callRho s k t r b v) r := by
  have e : ∀ r, callPrice s k t r b v = exp (-r * t) * callPrice s k t 0 b v := by
    intro r
    simp only [callPrice, show (b - r) * t = b * t + -r * t by ring, exp_add]
    simp; ring
  have e' : ∀ r, putPrice s k t r b v = exp (-r * t) * putPrice s k t 0 b v := by
    intro r
    simp only [putPrice, show (b - r) * t = b * t + -r * t by ring, exp_add]
    simp; ring
  have hE : HasDerivAt (fun r => exp (-r * t)) (-t * exp (-r * t)) r := by
    refine ((hasDerivAt_id r).neg.mul_const t).exp.congr_deriv ?_
    simp only [id, Pi.neg_apply]; ring
  have h1 : HasDerivAt (fun r => callPrice s k t r b v) (-t * callPrice s k t r b v) r := by
    rw [show (fun r => callPrice s k t r b v) = fun r => exp (-r * t) * callPrice s k t 0 b v from
      funext e, e r]
    refine (hE.mul_const _).congr_deriv (by ring)
  have hpos : 0 < callPrice s k t r b v :=
    (le_max_right _ _).trans_lt (C47_bounds hs hk ht hv).1.1
  have hrho : 0 < callRho s k t r b v := by
    have := N_pos (d2 s k t b v); unfold callRho; positivity
  refine ⟨h1, ?_, by nlinarith, hrho, fun h => ?_⟩
  · rw [show (fun r => putPrice s k t r b v) = fun r => exp (-r * t) * putPrice s k t 0 b v from
      funext e', e' r]
    refine (hE.mul_const _).congr_deriv (by ring)
  · have := h.unique h1
    nlinarith

example := C47_rho_fixed_carry (s := 100) (k := 110) (t := 1 / 2) (r := 0.05) (b := 0.02) (v := 0.3) (by norm_num) (by norm_num) (by norm_num)
  (by norm_num)

/-- Phi is the derivative in the dividend yield `q` (with `b = r - q`). -/
theorem C47_phi (q : ℝ) (hs : 0 < s) (hk : 0 < k) (ht : 0 < t) (hv : 0 < v) :
    HasDerivAt (fun q => callPrice s k t r (r - q) v)
      (-t * s * exp (-q * t) * N (d1 s k t (r - q) v)) q ∧
    HasDerivAt (fun q => putPrice s k t r (r - q) v)
      (t * s * exp (-q * t) * N (-d1 s k t (r - q) v)) q := by
  have hd : HasDerivAt (fun q => d1 s k t (r - q) v) (-(√t / v)) q := by
    have := (d1_db (s := s) (k := k) (v := v) (b := r - q) ht).comp q ((hasDerivAt_id q).const_sub r)
    refine this.congr_deriv ?_
    ring
  have hA : HasDerivAt (fun q => s * exp ((r - q - r) * t)) (-t * s * exp (-q * t)) q := by
    have : (fun q : ℝ => s * exp ((r - q - r) * t)) = fun q => s * exp (-q * t) := by
      funext r; ring_nf
    rw [this]
    refine (B_dr (k := s) (r := q) (t := t)).congr_deriv (by ring)
  have h := price_deriv hA (hasDerivAt_const q (k * exp (-r * t))) hd
    (hasDerivAt_const q (v * √t)) (key hs hk ht hv)
  have hc : HasDerivAt (fun q => callPrice s k t r (r - q) v)
      (-t * s * exp (-q * t) * N (d1 s k t (r - q) v)) q :=
    h.congr_deriv (by ring)
  refine ⟨hc, ?_⟩
  simp only [parity]
  refine ((hc.fun_sub hA).add_const _).congr_deriv ?_
  rw [N_neg]; ring

example := C47_phi (s := 100) (k := 110) (t := 1 / 2) (r := 0.05) (q := 0.02) (v := 0.3) (by norm_num) (by norm_num) (by norm_num)
  (by norm_num)

/-- Strike delta and strike gamma: first and second derivative in the strike. -/
theorem C47_strike (hs : 0 < s) (hk : 0 < k) (ht : 0 < t) (hv : 0 < v) :
    HasDerivAt (fun k => callPrice s k t r b v) (-exp (-r * t) * N (d2 s k t b v)) k ∧
    HasDerivAt (fun k => putPrice s k t r b v) (exp (-r * t) * N (-d2 s k t b v)) k ∧
    HasDerivAt (fun k => -exp (-r * t) * N (d2 s k t b v))
      (n (d2 s k t b v) * exp (-r * t) / (k * v * √t)) k ∧
    HasDerivAt (fun k => exp (-r * t) * N (-d2 s k t b v))
      (n (d2 s k t b v) * exp (-r * t) / (k * v * √t)) k := by
  have h := price_deriv (hasDerivAt_const k (s * exp ((b - r) * t)))
    (B_dk (k := k) (r := r) (t := t)) (d1_dk (t := t) (b := b) (v := v) hs hk)
    (hasDerivAt_const k (v * √t)) (key hs hk ht hv)
  have hc : HasDerivAt (fun k => callPrice s k t r b v) (-exp (-r * t) * N (d2 s k t b v)) k :=
    h.congr_deriv (by rw [d2]; ring)
  have hd2 : HasDerivAt (fun k => d2 s k t b v) (-(1 / (k * v * √t))) k :=
    (d1_dk hs hk).sub_const _
  have hg : HasDerivAt (fun k => -exp (-r * t) * N (d2 s k t b v))
      (n (d2 s k t b v) * exp (-r * t) / (k * v * √t)) k := by
    refine (((N_deriv _).comp k hd2).const_mul _).congr_deriv ?_
    ring
  refine ⟨hc, ?_, hg, ?_⟩
  · simp only [parity]
    refine ((hc.sub_const _).fun_add B_dk).congr_deriv ?_
    rw [N_neg]; ring
  · simp only [N_neg]
    refine (hg.add_const (exp (-r * t))).congr_of_eventuallyEq (Filter.Eventually.of_forall ?_)
    intro k; ring

example := C47_strike (s := 100) (k := 110) (t := 1 / 2) (r := 0.05) (b := 0.02) (v := 0.3) (by norm_num) (by norm_num) (by norm_num)
  (by norm_num)

/-- Gamma, vanna and charm: the derivatives of delta in spot, volatility and time to expiry
(the same for call and put except charm). -/
theorem C47_delta_derivatives (hs : 0 < s) (hk : 0 < k) (ht : 0 < t) (hv : 0 < v) :
    (HasDerivAt (fun s => callDelta s k t r b v) (gamma s k t r b v) s ∧
     HasDerivAt (fun s => putDelta s k t r b v) (gamma s k t r b v) s) ∧
    (HasDerivAt (fun v => callDelta s k t r b v) (vanna s k t r b v) v ∧
     HasDerivAt (fun v => putDelta s k t r b v) (vanna s k t r b v) v) ∧
    (HasDerivAt (fun t => callDelta s k t r b v) (callCharm s k t r b v) t ∧
     HasDerivAt (fun t => putDelta s k t r b v) (putCharm s k t r b v) t) := by
  have hE : HasDerivAt (fun t => exp ((b - r) * t)) ((b - r) * exp ((b - r) * t)) t := by
    refine ((hasDerivAt_id t).const_mul (b - r)).exp.congr_deriv ?_
    simp only [id]; ring
  have hNs := (N_deriv _).comp s (d1_ds (t := t) (b := b) (v := v) hs hk)
  have hNv := (N_deriv _).comp v (d1_dv (s := s) (k := k) (b := b) ht hv)
  have hNt := (N_deriv _).comp t (d1_dt (s := s) (k := k) (b := b) ht hv)
  refine ⟨⟨?_, ?_⟩, ⟨?_, ?_⟩, ⟨?_, ?_⟩⟩
  · exact (hNs.const_mul _).congr_deriv (by rw [gamma]; ring)
  · exact ((hNs.sub_const 1).const_mul _).congr_deriv (by rw [gamma]; ring)
  · exact (hNv.const_mul _).congr_deriv (by rw [vanna]; ring)
  · exact ((hNv.sub_const 1).const_mul _).congr_deriv (by rw [vanna]; ring)
  · exact (hE.fun_mul hNt).congr_deriv (by simp only [callCharm, Function.comp]; ring)
  · refine (hE.fun_mul (hNt.sub_const 1)).congr_deriv ?_
    simp only [putCharm, Function.comp, N_neg]; ring

example := C47_delta_derivatives (s := 100) (k := 110) (t := 1 / 2) (r := 0.05) (b := 0.02) (v := 0.3) (by norm_num) (by norm_num) (by norm_num)
  (by norm_num)

/-- Speed, zomma and colour: the derivatives of gamma in spot, volatility and calendar time. -/
theorem C47_gamma_derivatives (hs : 0 < s) (hk : 0 < k) (ht : 0 < t) (hv : 0 < v) :
    HasDerivAt (fun s => gamma s k t r b v) (speed s k t r b v) s ∧
    HasDerivAt (fun v => gamma s k t r b v) (zomma s k t r b v) v ∧
    HasDerivAt (fun t => gamma s k t r b v) (-color s k t r b v) t := by
  have hw : (0:ℝ) < √t := by positivity
  have h2 : √t * √t = t := Real.mul_self_sqrt ht.le
  have hE : HasDerivAt (fun t => exp ((b - r) * t)) ((b - r) * exp ((b - r) * t)) t := by
    refine ((hasDerivAt_id t).const_mul (b - r)).exp.congr_deriv ?_
    simp only [id]; ring
  have hns := (n_deriv _).comp s (d1_ds (t := t) (b := b) (v := v) hs hk)
  have hnv := (n_deriv _).comp v (d1_dv (s := s) (k := k) (b := b) ht hv)
  have hnt := (n_deriv _).comp t (d1_dt (s := s) (k := k) (b := b) ht hv)
  refine ⟨?_, ?_, ?_⟩
  · have := (hns.const_mul (exp ((b - r) * t))).fun_div
      (((hasDerivAt_id s).mul_const v).mul_const (√t)) (by simp only [id]; positivity)
    refine this.congr_deriv ?_
    simp only [speed, gamma, Function.comp, id]
    field_simp
    ring
  · have := (hnv.const_mul (exp ((b - r) * t))).fun_div
      (((hasDerivAt_id v).const_mul s).mul_const (√t)) (by simp only [id]; positivity)
    refine this.congr_deriv ?_
    simp only [zomma, gamma, Function.comp, id]
    field_simp
  · have := (hE.fun_mul hnt).fun_div
      ((Real.hasDerivAt_sqrt ht.ne').const_mul (s * v)) (by positivity)
    refine this.congr_deriv ?_
    simp only [color, gamma, Function.comp]
    generalize d1 s k t b v = D1
    generalize d2 s k t b v = D2
    generalize exp ((b - r) * t) = E
    generalize n D1 = n1
    generalize √t = w at hw h2
    subst h2
    field_simp
    ring

example := C47_gamma_derivatives (s := 100) (k := 110) (t := 1 / 2) (r := 0.05) (b := 0.02) (v := 0.3) (by norm_num) (by norm_num) (by norm_num)
  (by norm_num)

/-- Vanna and vomma are also the derivatives of vega in spot and volatility; the code's
`vega_bleed` formula is its derivative in calendar time. -/
theorem C47_vega_derivatives (hs : 0 < s) (hk : 0 < k) (ht : 0 < t) (hv : 0 < v) :
    HasDerivAt (fun s => vega s k t r b v) (vanna s k t r b v) s ∧
    HasDerivAt (fun v => vega s k t r b v) (vomma s k t r b v) v ∧
    HasDerivAt (fun t => vega s k t r b v) (-(vega s k t r b v * (r - b + b * d1 s k t b v / (v * √t)
      - (d1 s k t b v * d2 s k t b v + 1) / (2 * t)))) t := by
  have hw : (0:ℝ) < √t := by positivity
  have h2 : √t * √t = t := Real.mul_self_sqrt ht.le
  have hns := (n_deriv _).comp s (d1_ds (t := t) (b := b) (v := v) hs hk)
  have hnv := (n_deriv _).comp v (d1_dv (s := s) (k := k) (b := b) ht hv)
  have hnt := (n_deriv _).comp t (d1_dt (s := s) (k := k) (b := b) ht hv)
  refine ⟨?_, ?_, ?_⟩
  · refine (((A_ds (s := s) (b := b) (r := r) (t := t)).fun_mul hns).mul_const (√t)).congr_deriv ?_
    simp only [vanna, Function.comp, d2]
    field_simp
    ring
  · refine ((hnv.const_mul (s * exp ((b - r) * t))).mul_const (√t)).congr_deriv ?_
    simp only [vomma, vega]
    field_simp
  · refine (((A_dt (s := s) (b := b) (r := r) (t := t)).fun_mul hnt).fun_mul
      (Real.hasDerivAt_sqrt ht.ne')).congr_deriv ?_
    simp only [vega, Function.comp]
    generalize d1 s k t b v = D1
    generalize d2 s k t b v = D2
    generalize exp ((b - r) * t) = E
    generalize n D1 = n1
    generalize √t = w at hw h2
    subst h2
    field_simp
    ring

example := C47_vega_derivatives (s := 100) (k := 110) (t := 1 / 2) (r := 0.05) (b := 0.02) (v := 0.3) (by norm_num) (by norm_num) (by norm_num)
  (by norm_num)

/-- Defect: `ultima` is documented as the derivative of vomma in the volatility; it is off by
`2 (vomma/v) d2/d1`, so it is wrong whenever `d1` and `d2` are not zero. -/
theorem C47_ultima_wrong (hs : 0 < s) (hk : 0 < k) (ht : 0 < t) (hv : 0 < v)
    (h1 : d1 s k t b v ≠ 0) (h2 : d2 s k t b v ≠ 0) :
    HasDerivAt (fun v => vomma s k t r b v)
      (ultima s k t r b v - 2 * (vomma s k t r b v / v) * (d2 s k t b v / d1 s k t b v)) v ∧
    ¬ HasDerivAt (fun v => vomma s k t r b v) (ultima s k t r b v) v := by
  have hw : (0:ℝ) < √t := by positivity
  have hvg := (C47_vega_derivatives (r := r) (b := b) hs hk ht hv).2.1
  have hd1 := d1_dv (s := s) (k := k) (b := b) ht hv
  have hd2 : HasDerivAt (fun v => d2 s k t b v) (-(d1 s k t b v / v)) v := by
    refine (hd1.fun_sub (w_dv (t := t))).congr_deriv ?_
    rw [d2]; field_simp; ring
  have hm := ((hvg.fun_mul hd1).fun_mul hd2).fun_div (hasDerivAt_id v) hv.ne'
  have hd : HasDerivAt (fun v => vomma s k t r b v)
      (ultima s k t r b v - 2 * (vomma s k t r b v / v) * (d2 s k t b v / d1 s k t b v)) v := by
    refine hm.congr_deriv ?_
    simp only [ultima, vomma, id]
    field_simp
    ring
  refine ⟨hd, fun h => ?_⟩
  have := h.unique hd
  have hne : vomma s k t r b v ≠ 0 := by
    unfold vomma
    have := (C47_vega (r := r) (b := b) hs hk ht hv).2.2
    exact div_ne_zero (mul_ne_zero (mul_ne_zero this.ne' h1) h2) hv.ne'
  have : 2 * (vomma s k t r b v / v) * (d2 s k t b v / d1 s k t b v) ≠ 0 :=
    mul_ne_zero (mul_ne_zero two_ne_zero (div_ne_zero hne hv.ne')) (div_ne_zero h2 h1)
  exact this (by linarith)

/-- The Black-Scholes equation: `theta + ½ v² s² gamma + b s delta = r price`. -/
theorem C47_pde (s k r b v : ℝ) (ht : 0 < t) :
    callTheta s k t r b v + v ^ 2 * s ^ 2 / 2 * gamma s k t r b v + b * s * callDelta s k t r b v
      = r * callPrice s k t r b v ∧
    putTheta s k t r b v + v ^ 2 * s ^ 2 / 2 * gamma s k t r b v + b * s * putDelta s k t r b v
      = r * putPrice s k t r b v := by
  have hw : (0:ℝ) < √t := by positivity
  constructor
  · simp only [callTheta, gamma, callDelta, callPrice]; field_simp; ring
  · simp only [putTheta, gamma, putDelta, putPrice, N_neg]; field_simp; ring

example := C47_pde (t := 1 / 2) 100 110 0.05 0.02 0.3 (by norm_num)

/-- Lambda is the elasticity: the derivative of the logarithm of the price in the logarithm of the
spot. -/
theorem C47_lambda (hs : 0 < s) (hk : 0 < k) (ht : 0 < t) (hv : 0 < v) :
    HasDerivAt (fun x => log (callPrice (exp x) k t r b v)) (callLambda s k t r b v) (log s) ∧
    HasDerivAt (fun x => log (putPrice (exp x) k t r b v)) (putLambda s k t r b v) (log s) := by
  have hb := C47_bounds (r := r) (b := b) hs hk ht hv
  have hcp : 0 < callPrice s k t r b v := (le_max_right _ _).trans_lt hb.1.1
  have hpp : 0 < putPrice s k t r b v := (le_max_right _ _).trans_lt hb.2.1.1
  have hd := C47_delta (r := r) (b := b) hs hk ht hv
  have he : exp (log s) = s := exp_log hs
  have hE := Real.hasDerivAt_exp (log s)
  constructor
  · have h1 : HasDerivAt (fun s => callPrice s k t r b v) (callDelta s k t r b v) (exp (log s)) := by
      rw [he]; exact hd.1
    refine ((h1.comp (log s) hE).log (by simp only [Function.comp, he]; exact hcp.ne')).congr_deriv ?_
    simp only [Function.comp, he, callLambda]
  · have h1 : HasDerivAt (fun s => putPrice s k t r b v) (putDelta s k t r b v) (exp (log s)) := by
      rw [he]; exact hd.2
    refine ((h1.comp (log s) hE).log (by simp only [Function.comp, he]; exact hpp.ne')).congr_deriv ?_
    simp only [Function.comp, he, putLambda]

example := C47_lambda (s := 100) (k := 110) (t := 1 / 2) (r := 0.05) (b := 0.02) (v := 0.3) (by norm_num) (by norm_num) (by norm_num)
  (by norm_num)

/-- Zeta, the in-the-money probability: `N(d2)` is the probability that the underlying ends above
the strike and `N(-d2)` that it ends below. -/
theorem C47_zeta (hs : 0 < s) (hk : 0 < k) (ht : 0 < t) (hv : 0 < v) :
    N (d2 s k t b v) = (gaussianReal 0 1).real {z | k < spotAt s t b v z} ∧
    N (-d2 s k t b v) = (gaussianReal 0 1).real {z | spotAt s t b v z < k} := by
  have hw : (0:ℝ) < √t := by positivity
  have h2 : √t * √t = t := Real.mul_self_sqrt ht.le
  have e2 : d2 s k t b v = (log s - log k + (b - v ^ 2 / 2) * t) / (v * √t) := by
    rw [d2, d1, log_div hs.ne' hk.ne', sub_eq_iff_eq_add, div_add' _ _ _ (by positivity)]
    congr 1
    linear_combination (-v ^ 2) * h2
  have hle : {z | spotAt s t b v z ≤ k} = Set.Iic (-d2 s k t b v) := by
    ext z
    simp only [Set.mem_ofPred_eq, Set.mem_Iic, spotAt]
    rw [← le_div_iff₀' hs, ← Real.le_log_iff_exp_le (by positivity), log_div hk.ne' hs.ne', e2,
      ← neg_div, le_div_iff₀ (by positivity)]
    constructor <;> intro h <;> nlinarith
  have hge : {z | k ≤ spotAt s t b v z} = Set.Ici (-d2 s k t b v) := by
    ext z
    simp only [Set.mem_ofPred_eq, Set.mem_Ici, spotAt]
    rw [← div_le_iff₀' hs, ← Real.log_le_iff_le_exp (by positivity), log_div hk.ne' hs.ne', e2,
      ← neg_div, div_le_iff₀ (by positivity)]
    constructor <;> intro h <;> nlinarith
  have hN : ∀ x, N x = (gaussianReal 0 1).real (Set.Iic x) := by
    intro x
    rw [N, Gaussian.std_cdf_law, ProbabilityTheory.cdf_eq_real]
  have : NullSingletonClass (gaussianReal 0 1) := nullSingletonClass_gaussianReal one_ne_zero
  constructor
  · have hlt : {z | k < spotAt s t b v z} = (Set.Iic (-d2 s k t b v))ᶜ := by
      rw [← hle]; ext z; simp
    rw [hlt, probReal_compl_eq_one_sub measurableSet_Iic, ← hN, N_neg]; ring
  · have hgt : {z | spotAt s t b v z < k} = Set.Iio (-d2 s k t b v) := by
      rw [← Set.compl_Ici, ← hge]; ext z; simp
    rw [hgt, hN, measureReal_def, measureReal_def, Iio_ae_eq_Iic.measure_eq]

example := C47_zeta (s := 100) (k := 110) (t := 1 / 2) (b := 0.02) (v := 0.3) (by norm_num) (by norm_num) (by norm_num)
  (by norm_num)

end Bsm

/-! ### The five model structs and the instrument -/

namespace GbsmModel

/-- Put-call parity for all five models, in their own parameters. -/
theorem C47_models_parity (k t : ℝ) :
    (∀ s r v, price (blackScholes73 s r v) k t .call - price (blackScholes73 s r v) k t .put
      = s - k * exp (-r * t)) ∧
    (∀ s r q v, price (merton73 s r q v) k t .call - price (merton73 s r q v) k t .put
      = s * exp (-q * t) - k * exp (-r * t)) ∧
    (∀ f r v, price (black76 f r v) k t .call - price (black76 f r v) k t .put
      = exp (-r * t) * (f - k)) ∧
    (∀ f v, price (asay82 f v) k t .call - price (asay82 f v) k t .put = f - k) ∧
    (∀ s rd rf v, price (garmanKohlhagen83 s rd rf v) k t .call
      - price (garmanKohlhagen83 s rd rf v) k t .put = s * exp (-rf * t) - k * exp (-rd * t)) := by
  refine ⟨fun s r v => ?_, fun s r q v => ?_, fun f r v => ?_, fun f v => ?_, fun s rd rf v => ?_⟩
  all_goals simp only [price, GbsmModel.s, GbsmModel.r, GbsmModel.b, GbsmModel.v, Bsm.C47_parity]
  · simp
  · simp [sub_sub_cancel_left]
  · rw [zero_sub]; ring
  · simp
  · simp [sub_sub_cancel_left]

/-- The models price the payoff under the carry they document: growth at `r` (Black-Scholes),
`r - q` (Merton), `0` (futures), `r_d - r_f` (currencies), discounted at `r` (`0` for margined
futures options). -/
theorem C47_models_expectation (k t : ℝ) (hk : 0 < k) (ht : 0 < t) :
    (∀ s r v, 0 < s → 0 < v → price (blackScholes73 s r v) k t .call
      = exp (-r * t) * ∫ z, max (spotAt s t r v z - k) 0 ∂gaussianReal 0 1) ∧
    (∀ s r q v, 0 < s → 0 < v → price (merton73 s r q v) k t .call
      = exp (-r * t) * ∫ z, max (spotAt s t (r - q) v z - k) 0 ∂gaussianReal 0 1) ∧
    (∀ f r v, 0 < f → 0 < v → price (black76 f r v) k t .call
      = exp (-r * t) * ∫ z, max (spotAt f t 0 v z - k) 0 ∂gaussianReal 0 1) ∧
    (∀ f v, 0 < f → 0 < v → price (asay82 f v) k t .call
      = ∫ z, max (spotAt f t 0 v z - k) 0 ∂gaussianReal 0 1) ∧
    (∀ s rd rf v, 0 < s → 0 < v → price (garmanKohlhagen83 s rd rf v) k t .call
      = exp (-rd * t) * ∫ z, max (spotAt s t (rd - rf) v z - k) 0 ∂gaussianReal 0 1) := by
  refine ⟨fun s r v hs hv => ?_, fun s r q v hs hv => ?_, fun f r v hs hv => ?_,
    fun f v hs hv => ?_, fun s rd rf v hs hv => ?_⟩
  · exact (Bsm.C47_expectation hs hk ht hv).1
  · exact (Bsm.C47_expectation hs hk ht hv).1
  · exact (Bsm.C47_expectation hs hk ht hv).1
  · have := (Bsm.C47_expectation (r := 0) (b := 0) hs hk ht hv).1
    simpa [price, GbsmModel.s, GbsmModel.r, GbsmModel.b, GbsmModel.v] using this
  · exact (Bsm.C47_expectation hs hk ht hv).1

example := C47_models_expectation 110 (1 / 2) (by norm_num) (by norm_num)

/-- Rho of the structs is the derivative of their price in their own rate for Black-Scholes,
Merton and Garman-Kohlhagen; for Black 1976 it is not. -/
theorem C47_models_rho (k t : ℝ) (hk : 0 < k) (ht : 0 < t) :
    (∀ s r v f, 0 < s → 0 < v → HasDerivAt (fun r => price (blackScholes73 s r v) k t f)
      (rho (blackScholes73 s r v) k t f) r) ∧
    (∀ s r q v f, 0 < s → 0 < v → HasDerivAt (fun r => price (merton73 s r q v) k t f)
      (rho (merton73 s r q v) k t f) r) ∧
    (∀ s rd rf v f, 0 < s → 0 < v → HasDerivAt (fun rd => price (garmanKohlhagen83 s rd rf v) k t f)
      (rho (garmanKohlhagen83 s rd rf v) k t f) rd) ∧
    (∀ f r v, 0 < f → 0 < v → ¬ HasDerivAt (fun r => price (black76 f r v) k t .call)
      (rho (black76 f r v) k t .call) r) := by
  refine ⟨?_, ?_, ?_, ?_⟩
  · intro s r v f hs hv
    have h := Bsm.C47_rho (r := r) 0 hs hk ht hv
    simp only [sub_zero] at h
    cases f
    · exact h.1
    · exact h.2
  · intro s r q v f hs hv
    have h := Bsm.C47_rho (r := r) q hs hk ht hv
    cases f
    · exact h.1
    · exact h.2
  · intro s r q v f hs hv
    have h := Bsm.C47_rho (r := r) q hs hk ht hv
    cases f
    · exact h.1
    · exact h.2
  · intro f r v hs hv
    exact (Bsm.C47_rho_fixed_carry (r := r) (b := 0) hs hk ht hv).2.2.2.2

example := C47_models_rho 110 (1 / 2) (by norm_num) (by norm_num)

end GbsmModel

namespace BlackScholesMerton

open Bsm

/-- Every method of the instrument `BlackScholesMerton` agrees with the functions above at
`(S, K, T, r, b, v)`, so all theorems about prices and Greeks apply to it as well. -/
theorem C47_instrument (S K T r b v : ℝ) :
    (∀ o : BlackScholesMerton, o = ⟨b, S, K, v, r, T, .call⟩ →
      o.price = callPrice S K T r b v ∧ o.delta = callDelta S K T r b v ∧
      o.theta = callTheta S K T r b v ∧ o.rho = callRho S K T r b v ∧
      o.charm = callCharm S K T r b v ∧ o.lambda = callLambda S K T r b v ∧
      o.zeta = N (d2 S K T b v) ∧ o.strikeDelta = -exp (-r * T) * N (d2 S K T b v) ∧
      o.phi = -T * S * exp ((b - r) * T) * N (d1 S K T b v)) ∧
    (∀ o : BlackScholesMerton, o = ⟨b, S, K, v, r, T, .put⟩ →
      o.price = putPrice S K T r b v ∧ o.delta = putDelta S K T r b v ∧
      o.theta = putTheta S K T r b v ∧ o.rho = putRho S K T r b v ∧
      o.charm = putCharm S K T r b v ∧ o.lambda = putLambda S K T r b v ∧
      o.zeta = N (-d2 S K T b v) ∧ o.strikeDelta = exp (-r * T) * N (-d2 S K T b v) ∧
      o.phi = T * S * exp ((b - r) * T) * N (-d1 S K T b v)) ∧
    (∀ (f : TypeFlag) (o : BlackScholesMerton), o = ⟨b, S, K, v, r, T, f⟩ →
      o.gamma = Bsm.gamma S K T r b v ∧ o.vega = Bsm.vega S K T r b v ∧ o.vanna = Bsm.vanna S K T r b v ∧
      o.zomma = Bsm.zomma S K T r b v ∧ o.speed = Bsm.speed S K T r b v ∧ o.colour = Bsm.color S K T r b v ∧
      o.vomma = Bsm.vomma S K T r b v ∧ o.ultima = Bsm.ultima S K T r b v ∧
      o.vegaBleed = Bsm.vega S K T r b v * (r - b + b * d1 S K T b v / (v * √T)
        - (d1 S K T b v * d2 S K T b v + 1) / (2 * T)) ∧
      o.strikeGamma = n (d2 S K T b v) * exp (-r * T) / (K * v * √T) ∧
      o.gammaPercent = Bsm.gamma S K T r b v * S / 100 ∧
      o.zommaPercent = Bsm.zomma S K T r b v * S / 100) := by
  have e : ∀ f : TypeFlag, d1d2 ⟨b, S, K, v, r, T, f⟩ = (d1 S K T b v, d2 S K T b v) := by
    intro f
    simp only [d1d2, d1, d2]
    rw [one_div, inv_mul_eq_div]
  refine ⟨?_, ?_, ?_⟩
  · rintro o rfl
    simp only [price, delta, theta, rho, charm, lambda, zeta, strikeDelta, phi, e]
    refine ⟨?_, ?_, ?_, ?_, ?_, ?_, ?_, ?_, ?_⟩ <;> first | rfl | trivial
  · rintro o rfl
    simp only [price, delta, theta, rho, charm, lambda, zeta, strikeDelta, phi, e]
    refine ⟨?_, ?_, ?_, ?_, ?_, ?_, ?_, ?_, ?_⟩ <;> first | rfl | trivial
  · rintro f o rfl
    simp only [BlackScholesMerton.gamma, BlackScholesMerton.vega, BlackScholesMerton.vanna,
      BlackScholesMerton.zomma, BlackScholesMerton.speed, BlackScholesMerton.colour,
      BlackScholesMerton.vomma, BlackScholesMerton.ultima, vegaBleed, strikeGamma, gammaPercent,
      zommaPercent, e]
    refine ⟨?_, ?_, ?_, ?_, ?_, ?_, ?_, ?_, ?_, ?_, ?_, ?_⟩ <;> first | rfl | trivial

/-- An exact inverter of the undiscounted Black formula: on every price the formula attains it
returns a volatility attaining it. -/
def ExactInverter (inv : ℝ → ℝ → ℝ → ℝ → TypeFlag → ℝ) : Prop :=
  ∀ F K T, 0 < F → 0 < K → 0 < T → ∀ u, 0 < u →
    (0 < inv (callPrice F K T 0 0 u) F K T .call ∧
      callPrice F K T 0 0 (inv (callPrice F K T 0 0 u) F K T .call) = callPrice F K T 0 0 u) ∧
    (0 < inv (putPrice F K T 0 0 u) F K T .put ∧
      putPrice F K T 0 0 (inv (putPrice F K T 0 0 u) F K T .put) = putPrice F K T 0 0 u)

theorem undiscount (S K T r v : ℝ) (hS : 0 < S) (hK : 0 < K) :
    callPrice S K T r r v * exp (r * T) = callPrice (S * exp (r * T)) K T 0 0 v ∧
    putPrice S K T r r v * exp (r * T) = putPrice (S * exp (r * T)) K T 0 0 v := by
  have e1 : d1 (S * exp (r * T)) K T 0 v = d1 S K T r v := by
    have : log (S * exp (r * T) / K) = log (S / K) + r * T := by
      rw [mul_div_right_comm, log_mul (by positivity) (exp_pos _).ne', log_exp]
    unfold d1; rw [this]; congr 1; ring
  have e2 : d2 (S * exp (r * T)) K T 0 v = d2 S K T r v := by unfold d2; rw [e1]
  have he : exp (-r * T) * exp (r * T) = 1 := by rw [← exp_add]; simp
  simp only [callPrice, putPrice, e1, e2, sub_self, zero_mul, neg_zero, exp_zero, mul_one]
  constructor
  · linear_combination (-K * N (d2 S K T r v)) * he
  · linear_combination (K * N (-d2 S K T r v)) * he

theorem ExactInverter.call_unique {inv : ℝ → ℝ → ℝ → ℝ → TypeFlag → ℝ} (h : ExactInverter inv)
    {S K T r v : ℝ} (hS : 0 < S) (hK : 0 < K) (hT : 0 < T) (hv : 0 < v) :
    impliedVolatilityFn inv (callPrice S K T r r v) S K T r .call = v ∧
    impliedVolatilityFn inv (putPrice S K T r r v) S K T r .put = v := by
  have hF : 0 < S * exp (r * T) := by positivity
  obtain ⟨⟨a1, a2⟩, a3, a4⟩ := h _ K T hF hK hT v hv
  obtain ⟨m1, m2, -⟩ := C47_volatility (r := 0) (b := 0) hF hK hT
  unfold impliedVolatilityFn
  rw [(undiscount S K T r v hS hK).1, (undiscount S K T r v hS hK).2]
  exact ⟨m1.injOn a1 hv a2, m2.injOn a3 hv a4⟩

/-- With an exact inverter, `implied_volatility` of an option whose cost of carry is the interest
rate returns the volatility that produced the price. Defect: it ignores the cost of carry; when
`b ≠ r` it never returns the option's volatility for a price it can invert at all. -/
theorem C47_implied_roundtrip {inv : ℝ → ℝ → ℝ → ℝ → TypeFlag → ℝ} (h : ExactInverter inv)
    (o : BlackScholesMerton) (hS : 0 < o.underlyingPrice) (hK : 0 < o.strikePrice) (hT : 0 < o.T)
    (hv : 0 < o.volatility) :
    (o.costOfCarry = o.riskFreeRate → o.impliedVolatility inv o.price = o.volatility) ∧
    (o.costOfCarry ≠ o.riskFreeRate →
      (∃ o' : BlackScholesMerton, o' = { o with costOfCarry := o.riskFreeRate, volatility := o'.volatility }
        ∧ 0 < o'.volatility ∧ o'.price = o.price) →
      o.impliedVolatility inv o.price ≠ o.volatility) := by
  obtain ⟨b, S, K, v, r, T, f⟩ := o
  simp only at hS hK hT hv
  obtain ⟨ic, ip, -⟩ := C47_instrument S K T r b v
  have anti : StrictAnti (fun q => callPrice S K T r (r - q) v) ∧
      StrictMono (fun q => putPrice S K T r (r - q) v) := by
    constructor
    · refine strictAnti_of_deriv_neg fun q => ?_
      rw [(C47_phi q hS hK hT hv).1.deriv]
      have := N_pos (d1 S K T (r - q) v)
      have : 0 < T * S * exp (-q * T) * N (d1 S K T (r - q) v) := by positivity
      linarith
    · refine strictMono_of_deriv_pos fun q => ?_
      rw [(C47_phi q hS hK hT hv).2.deriv]
      have := N_pos (-d1 S K T (r - q) v)
      positivity
  cases f
  · have hp := (ic _ rfl).1
    constructor
    · intro hbr
      simp only at hbr
      subst hbr
      rw [hp]
      exact (h.call_unique hS hK hT hv).1
    · rintro hbr ⟨⟨b', S', K', u, r', T', f'⟩, ho, hu, hpe⟩ hiv
      simp only [BlackScholesMerton.mk.injEq] at ho hu hbr
      obtain ⟨rfl, rfl, rfl, -, rfl, rfl, rfl⟩ := ho
      rw [((C47_instrument S' K' T' r' r' u).1 _ rfl).1] at hpe
      rw [impliedVolatility, ← hpe] at hiv
      simp only [(h.call_unique hS hK hT hu).1] at hiv
      subst hiv
      rw [hp] at hpe
      have := anti.1.injective (a₁ := 0) (a₂ := r' - b) (by simpa using hpe)
      exact hbr (by linarith)
  · have hp := (ip _ rfl).1
    constructor
    · intro hbr
      simp only at hbr
      subst hbr
      rw [hp]
      exact (h.call_unique hS hK hT hv).2
    · rintro hbr ⟨⟨b', S', K', u, r', T', f'⟩, ho, hu, hpe⟩ hiv
      simp only [BlackScholesMerton.mk.injEq] at ho hu hbr
      obtain ⟨rfl, rfl, rfl, -, rfl, rfl, rfl⟩ := ho
      rw [((C47_instrument S' K' T' r' r' u).2.1 _ rfl).1] at hpe
      rw [impliedVolatility, ← hpe] at hiv
      simp only [(h.call_unique hS hK hT hu).2] at hiv
      subst hiv
      rw [hp] at hpe
      have := anti.2.injective (a₁ := 0) (a₂ := r' - b) (by simpa using hpe)
      exact hbr (by linarith)

/-- Exact inverters exist. -/
theorem exactInverter_exists : ∃ inv, ExactInverter inv := by
  classical
  refine ⟨fun p F K T f => match f with
    | .call => if h : ∃ u, 0 < u ∧ callPrice F K T 0 0 u = p then h.choose else 0
    | .put => if h : ∃ u, 0 < u ∧ putPrice F K T 0 0 u = p then h.choose else 0, ?_⟩
  intro F K T _ _ _ u hu
  constructor
  · have h : ∃ w, 0 < w ∧ callPrice F K T 0 0 w = callPrice F K T 0 0 u := ⟨u, hu, rfl⟩
    simp only [dif_pos h]
    exact h.choose_spec
  · have h : ∃ w, 0 < w ∧ putPrice F K T 0 0 w = putPrice F K T 0 0 u := ⟨u, hu, rfl⟩
    simp only [dif_pos h]
    exact h.choose_spec

/-- The hypotheses `s, k, t, v > 0` are met, e.g. by an at-the-money one-year option. -/
example : ∃ v, 0 < v ∧ Bsm.callPrice 100 100 1 0 0 v = 10 := by
  have h := (Bsm.C47_implied_volatility (s := 100) (k := 100) (t := 1) (r := 0) (b := 0)
    (by norm_num) (by norm_num) (by norm_num) 10).1.mpr (by norm_num)
  obtain ⟨v, hv, _⟩ := h
  exact ⟨v, hv⟩

/-- `d1` and `d2` are not zero e.g. for a deep in-the-money option, so `ultima` is wrong there. -/
example : ¬ HasDerivAt (fun v => Bsm.vomma (exp 1) 1 1 0 0 v) (Bsm.ultima (exp 1) 1 1 0 0 1) 1 :=
  (Bsm.C47_ultima_wrong (exp_pos 1) one_pos one_pos one_pos
    (by simp [d1]; norm_num) (by simp [d2, d1]; norm_num)).2

end BlackScholesMerton

end Verif.Options
