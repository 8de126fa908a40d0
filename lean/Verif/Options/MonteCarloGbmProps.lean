import Verif.Options.MonteCarloGbm

/-!
# C76: how near the Monte-Carlo price is to the analytic price

For a geometric Brownian motion simulated by Euler-Maruyama: the bias against the Black-Scholes price is at most a multiple of
`1/√n` in the number `n` of steps, and the probability of a larger error falls with the number of paths.
-/

namespace Verif.Options

open Real Classical Stochastics MeasureTheory ProbabilityTheory

variable {Ω : Type} [MeasurableSpace Ω]

theorem exp_sub_sq_le {x : ℝ} (hx : -(1 / 2) ≤ x) : exp (x - x ^ 2) ≤ 1 + x := by
  have h1 : exp (x - x ^ 2) * exp (x ^ 2 - x) = 1 := by rw [← exp_add]; simp
  have hp := exp_pos (x - x ^ 2)
  suffices 1 ≤ (1 + x) * exp (x ^ 2 - x) by
    calc exp (x - x ^ 2) = exp (x - x ^ 2) * 1 := (mul_one _).symm
      _ ≤ exp (x - x ^ 2) * ((1 + x) * exp (x ^ 2 - x)) := mul_le_mul_of_nonneg_left this hp.le
      _ = 1 + x := by linear_combination (1 + x) * h1
  rcases le_total 0 x with h | h
  · have := add_one_le_exp (x ^ 2 - x)
    have h3 : (1 + x) * (x ^ 2 - x + 1) ≤ (1 + x) * exp (x ^ 2 - x) := mul_le_mul_of_nonneg_left this (by linarith)
    have : (0:ℝ) ≤ x ^ 3 := by positivity
    nlinarith
  · have hy : 0 ≤ x ^ 2 - x := by nlinarith
    have := quadratic_le_exp_of_nonneg hy
    have h3 : (1 + x) * (1 + (x ^ 2 - x) + (x ^ 2 - x) ^ 2 / 2) ≤ (1 + x) * exp (x ^ 2 - x) :=
      mul_le_mul_of_nonneg_left this (by linarith)
    have h4 : 0 ≤ x ^ 2 * (1 + x - x ^ 2 + x ^ 3) := by
      apply mul_nonneg (sq_nonneg _)
      nlinarith [mul_nonneg (neg_nonneg.2 h) (neg_nonneg.2 h), mul_nonneg (mul_nonneg (neg_nonneg.2 h) (neg_nonneg.2 h)) (by linarith : 0 ≤ 1/2 + x)]
    nlinarith

theorem gbmGap_le (mu sigma T : ℝ) (hT : 0 ≤ T) (n : ℕ) (hn : 0 < n) (h1 : 2 * (|mu| + sigma ^ 2) * T ≤ n) (h2 : (mu * T) ^ 2 ≤ n) :
    gbmGap mu sigma T n ≤ 2 * exp ((2 * mu + sigma ^ 2) * T) * (mu ^ 2 + (mu + sigma ^ 2) ^ 2) * T ^ 2 / n := by
  have hn' : (0:ℝ) < n := by exact_mod_cast hn
  set L := exp ((2 * mu + sigma ^ 2) * T) with hL
  have hLp : 0 < L := exp_pos _
  have e3 : exp ((2 * mu + sigma ^ 2) * (T / n)) ^ n = L := by
    rw [← exp_nat_mul, hL]; congr 1; field_simp
  have hP : ((1 + mu * (T / n)) ^ 2 + sigma ^ 2 * (T / n)) ^ n ≤ L * (1 + 2 * (mu ^ 2 * T ^ 2 / n)) := by
    have a1 : (1 + mu * (T / n)) ^ 2 + sigma ^ 2 * (T / n) ≤ exp ((2 * mu + sigma ^ 2) * (T / n) + mu ^ 2 * (T / n) ^ 2) := by
      have := add_one_le_exp ((2 * mu + sigma ^ 2) * (T / n) + mu ^ 2 * (T / n) ^ 2)
      linarith [show (1 + mu * (T / n)) ^ 2 + sigma ^ 2 * (T / n) = (2 * mu + sigma ^ 2) * (T / n) + mu ^ 2 * (T / n) ^ 2 + 1 by ring]
    have a0 : 0 ≤ (1 + mu * (T / n)) ^ 2 + sigma ^ 2 * (T / n) := by positivity
    refine (pow_le_pow_left₀ a0 a1 n).trans ?_
    rw [← exp_nat_mul, show (n : ℝ) * ((2 * mu + sigma ^ 2) * (T / n) + mu ^ 2 * (T / n) ^ 2) =
      (2 * mu + sigma ^ 2) * T + mu ^ 2 * T ^ 2 / n by field_simp, exp_add]
    refine mul_le_mul_of_nonneg_left ?_ hLp.le
    have hy0 : 0 ≤ mu ^ 2 * T ^ 2 / n := by positivity
    have hy1 : mu ^ 2 * T ^ 2 / n ≤ 1 := by rw [div_le_one hn']; linarith [mul_pow mu T 2]
    have q := (abs_le.1 (Real.abs_exp_sub_one_le (x := mu ^ 2 * T ^ 2 / n) (by rw [abs_of_nonneg hy0]; exact hy1))).2
    rw [abs_of_nonneg hy0] at q
    linarith
  have hQ : L * (1 - (mu + sigma ^ 2) ^ 2 * T ^ 2 / n) ≤ (exp (mu * (T / n)) * (1 + mu * (T / n) + sigma ^ 2 * (T / n))) ^ n := by
    set c := mu + sigma ^ 2 with hc
    have hcT : -(1 / 2) ≤ c * (T / n) := by
      have : -(|mu| + sigma ^ 2) ≤ c := by
        have := neg_abs_le mu; have := sq_nonneg sigma; rw [hc]; linarith
      have h3 : -(|mu| + sigma ^ 2) * (T / n) ≤ c * (T / n) := mul_le_mul_of_nonneg_right this (by positivity)
      have h4 : (|mu| + sigma ^ 2) * (T / n) ≤ 1 / 2 := by
        rw [← mul_div_assoc, div_le_iff₀ hn']; linarith
      linarith
    have b1 := exp_sub_sq_le hcT
    rw [mul_pow, show 1 + mu * (T / n) + sigma ^ 2 * (T / n) = 1 + c * (T / n) by rw [hc]; ring]
    have b2 : exp (c * (T / n) - (c * (T / n)) ^ 2) ^ n ≤ (1 + c * (T / n)) ^ n := pow_le_pow_left₀ (exp_pos _).le b1 n
    have b3 : exp (mu * (T / n)) ^ n = exp (mu * T) := by rw [← exp_nat_mul]; congr 1; field_simp
    have b4 : exp (c * (T / n) - (c * (T / n)) ^ 2) ^ n = exp (c * T) * exp (-(c ^ 2 * T ^ 2 / n)) := by
      rw [← exp_nat_mul, ← exp_add]; congr 1; field_simp; ring
    rw [b3]
    rw [b4] at b2
    have b5 := add_one_le_exp (-(c ^ 2 * T ^ 2 / n))
    calc L * (1 - c ^ 2 * T ^ 2 / n) ≤ L * exp (-(c ^ 2 * T ^ 2 / n)) := mul_le_mul_of_nonneg_left (by linarith) hLp.le
      _ = exp (mu * T) * (exp (c * T) * exp (-(c ^ 2 * T ^ 2 / n))) := by
        rw [← mul_assoc, ← exp_add (mu * T), hL, hc]; congr 2; ring
      _ ≤ _ := mul_le_mul_of_nonneg_left b2 (exp_pos _).le
  unfold gbmGap
  rw [e3]
  have e5 : 2 * L * (mu ^ 2 + (mu + sigma ^ 2) ^ 2) * T ^ 2 / n =
      L * (1 + 2 * (mu ^ 2 * T ^ 2 / n)) - 2 * (L * (1 - (mu + sigma ^ 2) ^ 2 * T ^ 2 / n)) + L := by ring
  rw [e5]
  linarith

/-- The end of an Euler-Maruyama path of a geometric Brownian motion. -/
theorem gbm_terminal {env : Env} {mu sigma : ℝ} (hsig : 0 ≤ sigma) {c : Config} {sched : List ℕ}
    (hs : c.parallel = true → ValidSched c sched) (hc : c.scheme = .eulerMaruyama) {s : ℕ} (hseed : c.seed = some s)
    {T : Trajectories} (h : generate env (geometricBrownianMotion (fun _ => mu) (fun _ => sigma)) c sched = some T)
    {i : ℕ} (hi : i < c.mPaths) :
    T.val i c.nSteps = c.x0 * ∏ k ∈ Finset.range c.nSteps,
      eulerFactor mu sigma ((c.tn - c.t0) / c.nSteps) (env.normals ((s + i) % 2 ^ 64) k) := by
  have key : ∀ t, t ≤ c.nSteps → T.val i t = c.x0 * ∏ k ∈ Finset.range t,
      eulerFactor mu sigma ((c.tn - c.t0) / c.nSteps) (env.normals ((s + i) % 2 ^ 64) k) := by
    intro t
    induction t with
    | zero => intro _; simp [((simulate_val hs h).2.choose_spec.2 i hi).1]
    | succ t ih =>
      intro ht
      obtain ⟨a, b, ha, hb, h1⟩ := C49_euler env _ c sched hs hc s hseed T h i hi t (by omega)
      simp only [geometricBrownianMotion, assertNonneg, hsig, if_true, Option.some.injEq] at ha hb
      rw [h1, ← ha, ← hb, ih (by omega), Finset.prod_range_succ, eulerFactor]
      ring
  exact key _ le_rfl

/-- The runs behind the prices, and what a price is. -/
theorem price_runs {P : Process} (ρ : Measure Ω) [IsProbabilityMeasure ρ] (env : Ω → Env) (rate k : ℝ)
    (c : Config) (sched : List ℕ) (hs : c.parallel = true → ValidSched c sched) (f : TypeFlag) (v : Ω → ℝ)
    (hv : ∀ ω, (McInstrument.vanilla k f).price (generate (env ω) P c sched) c rate = some (v ω)) :
    ∃ T : Ω → Trajectories, (∀ ω, generate (env ω) P c sched = some (T ω)) ∧ 0 < c.tn - c.t0 ∧ 0 < c.mPaths ∧
      ∀ ω, v ω = exp (-(rate * (c.tn - c.t0))) *
        ((∑ i ∈ Finset.range c.mPaths, Spec.gain f ((T ω).val i c.nSteps) k) / c.mPaths) := by
  obtain ⟨T, hT⟩ : ∃ T : Ω → Trajectories, ∀ ω, generate (env ω) P c sched = some (T ω) := by
    refine Classical.axiomOfChoice (r := fun ω t => generate (env ω) P c sched = some t) fun ω => ?_
    cases hg : generate (env ω) P c sched with
    | none => have := hv ω; rw [hg] at this; simp [McInstrument.price, priceMonteCarlo] at this
    | some t => exact ⟨t, rfl⟩
  obtain ⟨ω₀⟩ : Nonempty Ω := nonempty_of_isProbabilityMeasure ρ
  have hm : 0 < c.mPaths := by
    obtain ⟨-, h0, -⟩ := (C76_price _ _ _ c sched hs _ (hT ω₀) rate _).1 (hv ω₀)
    rwa [(generate_terminal hs (hT ω₀)).1] at h0
  exact ⟨T, hT, sub_pos.2 (simulate_val hs (hT ω₀)).1, hm, fun ω =>
    (Option.some.inj ((C76_vanilla (env ω) _ c sched hs (T ω) (hT ω) hm k rate f).symm.trans (hv ω))).symm⟩

/-- The price the code's closed formula gives a European option: spot `s`, strike `k`, expiry `t`, rate `r`, carry `b`. -/
noncomputable def blackScholes (f : TypeFlag) (s k t r b v : ℝ) : ℝ :=
  if f = .call then Bsm.callPrice s k t r b v else Bsm.putPrice s k t r b v

theorem blackScholes_eq (f : TypeFlag) {s k t r b v : ℝ} (hs : 0 < s) (hk : 0 < k) (ht : 0 < t) (hv : 0 < v) :
    blackScholes f s k t r b v = exp (-(r * t)) * ∫ z, Spec.gain f (spotAt s t b v z) k ∂gaussianReal 0 1 := by
  have h := Bsm.C47_expectation (r := r) (b := b) hs hk ht hv
  cases f <;> simp only [blackScholes, Spec.gain, if_true, reduceCtorEq, if_false]
  · rw [h.1, neg_mul]
  · rw [h.2, neg_mul]

/-- C76: the bias of the Monte-Carlo price of a European option on a geometric Brownian motion simulated by Euler-Maruyama. In `n`
steps (enough against drift and volatility) the expected price differs from the Black-Scholes price with cost of carry `mu` by at
most `e^{-rT} x0 T √(2 e^{(2μ+σ²)T} (μ² + (μ+σ²)²) / n)`, whatever the number of paths and strike. -/
theorem C76_gbm_error (ρ : Measure Ω) [IsProbabilityMeasure ρ] (env : Ω → Env) (mu sigma rate k : ℝ) (hsig : 0 < sigma)
    (hk : 0 < k) (c : Config) (hx : 0 < c.x0) (sched : List ℕ) (hs : c.parallel = true → ValidSched c sched)
    (hc : c.scheme = .eulerMaruyama) (hn : 0 < c.nSteps) (hn1 : 2 * (|mu| + sigma ^ 2) * (c.tn - c.t0) ≤ c.nSteps)
    (hn2 : (mu * (c.tn - c.t0)) ^ 2 ≤ c.nSteps) (s : ℕ) (hseed : c.seed = some s)
    (hZ : ∀ i < c.mPaths, StdNormals ρ fun k ω => (env ω).normals ((s + i) % 2 ^ 64) k) (f : TypeFlag) (v : Ω → ℝ)
    (hv : ∀ ω, (McInstrument.vanilla k f).price
      (generate (env ω) (geometricBrownianMotion (fun _ => mu) (fun _ => sigma)) c sched) c rate = some (v ω)) :
    |∫ ω, v ω ∂ρ - blackScholes f c.x0 k (c.tn - c.t0) rate mu sigma| ≤ exp (-(rate * (c.tn - c.t0))) * (c.x0 * (c.tn - c.t0) *
      √(2 * exp ((2 * mu + sigma ^ 2) * (c.tn - c.t0)) * (mu ^ 2 + (mu + sigma ^ 2) ^ 2) / c.nSteps)) := by
  obtain ⟨T, hT, ht, hm, e⟩ := price_runs ρ env rate k c sched hs f v hv
  have hm' : (c.mPaths : ℝ) ≠ 0 := by exact_mod_cast hm.ne'
  rw [blackScholes_eq f hx hk ht hsig]
  set D := exp (-(rate * (c.tn - c.t0))) with hD
  have hD0 : 0 ≤ D := (exp_pos _).le
  set B := ∫ z, Spec.gain f (spotAt c.x0 (c.tn - c.t0) mu sigma z) k ∂gaussianReal 0 1 with hB
  have hter : ∀ i < c.mPaths, (fun ω => Spec.gain f ((T ω).val i c.nSteps) k) = fun ω => Spec.gain f (c.x0 *
      ∏ j ∈ Finset.range c.nSteps, eulerFactor mu sigma ((c.tn - c.t0) / c.nSteps) ((env ω).normals ((s + i) % 2 ^ 64) j)) k :=
    fun i hi => funext fun ω => by rw [gbm_terminal hsig.le hs hc hseed (hT ω) hi]
  have hint : ∀ i ∈ Finset.range c.mPaths, Integrable (fun ω => Spec.gain f ((T ω).val i c.nSteps) k) ρ := by
    intro i hi
    have hi := Finset.mem_range.1 hi
    rw [hter i hi]
    exact (gain_memLp ((prod_memLp (hZ i hi) (eulerFactor_measurable _ _ _) (euler_memLp _ _ _) _).const_mul c.x0) f k).integrable
      (by norm_num)
  have hbias : ∀ i ∈ Finset.range c.mPaths, |∫ ω, Spec.gain f ((T ω).val i c.nSteps) k ∂ρ - B| ≤
      c.x0 * (c.tn - c.t0) * √(2 * exp ((2 * mu + sigma ^ 2) * (c.tn - c.t0)) * (mu ^ 2 + (mu + sigma ^ 2) ^ 2) / c.nSteps) := by
    intro i hi
    have hi := Finset.mem_range.1 hi
    rw [hter i hi]
    refine (payoff_gap (hZ i hi) c.x0 mu sigma _ ht.le c.nSteps hn f k).trans ?_
    rw [abs_of_pos hx, mul_assoc]
    refine mul_le_mul_of_nonneg_left ?_ hx.le
    rw [show (c.tn - c.t0) * √(2 * exp ((2 * mu + sigma ^ 2) * (c.tn - c.t0)) * (mu ^ 2 + (mu + sigma ^ 2) ^ 2) / c.nSteps) =
      √(2 * exp ((2 * mu + sigma ^ 2) * (c.tn - c.t0)) * (mu ^ 2 + (mu + sigma ^ 2) ^ 2) * (c.tn - c.t0) ^ 2 / c.nSteps) by
      rw [mul_div_right_comm _ ((c.tn - c.t0) ^ 2), Real.sqrt_mul' _ (sq_nonneg _), sqrt_sq ht.le, mul_comm]]
    exact sqrt_le_sqrt (gbmGap_le mu sigma _ ht.le c.nSteps hn hn1 hn2)
  simp only [e]
  rw [integral_const_mul, integral_div, integral_finsetSum _ hint, ← mul_sub, abs_mul, abs_of_nonneg hD0]
  refine mul_le_mul_of_nonneg_left ?_ hD0
  have e2 : (∑ i ∈ Finset.range c.mPaths, ∫ ω, Spec.gain f ((T ω).val i c.nSteps) k ∂ρ) / c.mPaths - B =
      (∑ i ∈ Finset.range c.mPaths, (∫ ω, Spec.gain f ((T ω).val i c.nSteps) k ∂ρ - B)) / c.mPaths := by
    rw [Finset.sum_sub_distrib, Finset.sum_const, Finset.card_range, nsmul_eq_mul]
    field_simp
  rw [e2, abs_div, Nat.abs_cast, div_le_iff₀ (by positivity)]
  refine (Finset.abs_sum_le_sum_abs _ _).trans ((Finset.sum_le_sum hbias).trans_eq ?_)
  rw [Finset.sum_const, Finset.card_range, nsmul_eq_mul, mul_comm]

/-- The mean of discounted payoffs of pairwise independent points: Chebyshev's inequality. -/
theorem estimate_chebyshev (ρ : Measure Ω) [IsProbabilityMeasure ρ] (m : ℕ) (hm : 0 < m) (X : ℕ → Ω → ℝ) (D k V : ℝ)
    (f : TypeFlag) (hX : ∀ i < m, MemLp (X i) 2 ρ) (hV : ∀ i < m, ∫ ω, (X i ω - k) ^ 2 ∂ρ ≤ V)
    (hind : ∀ i < m, ∀ j < m, i ≠ j → IndepFun (X i) (X j) ρ) (v : Ω → ℝ)
    (hv : ∀ ω, v ω = D * ((∑ i ∈ Finset.range m, Spec.gain f (X i ω) k) / m)) {ε : ℝ} (hε : 0 < ε) :
    ρ {ω | ε ≤ |v ω - ∫ ω, v ω ∂ρ|} ≤ ENNReal.ofReal (D ^ 2 * V / (m * ε ^ 2)) := by
  have hm' : (0:ℝ) < m := by exact_mod_cast hm
  have hl : ∀ i ∈ Finset.range m, MemLp (fun ω => Spec.gain f (X i ω) k) 2 ρ :=
    fun i hi => gain_memLp (hX i (Finset.mem_range.1 hi)) f k
  have e : v = fun ω => D / m * (∑ i ∈ Finset.range m, fun ω => Spec.gain f (X i ω) k) ω := by
    funext ω
    rw [hv ω, Finset.sum_apply]
    ring
  have hvm : MemLp v 2 ρ := by
    rw [e]
    exact (memLp_finsetSum' _ hl).const_mul _
  refine (meas_ge_le_variance_div_sq hvm hε).trans (ENNReal.ofReal_le_ofReal ?_)
  rw [← div_div]
  refine div_le_div_of_nonneg_right ?_ (sq_nonneg _)
  have hone : ∀ i ∈ Finset.range m, Var[fun ω => Spec.gain f (X i ω) k; ρ] ≤ V := by
    intro i hi
    have hi' := Finset.mem_range.1 hi
    refine (variance_le_expectation_sq (hl i hi).1).trans (le_trans ?_ (hV i hi'))
    refine integral_mono (hl i hi).integrable_sq ((hX i hi').sub (memLp_const k)).integrable_sq fun ω => ?_
    simp only [Pi.pow_apply]
    exact sq_le_sq.2 (gain_abs_le f (X i ω) k)
  rw [e, variance_const_mul, IndepFun.variance_sum hl fun i hi j hj hij => ?_]
  · have : ∑ i ∈ Finset.range m, Var[fun ω => Spec.gain f (X i ω) k; ρ] ≤ m * V := by
      refine (Finset.sum_le_sum hone).trans_eq ?_
      rw [Finset.sum_const, Finset.card_range, nsmul_eq_mul]
    refine (mul_le_mul_of_nonneg_left this (sq_nonneg _)).trans_eq ?_
    field_simp
  · exact (hind i (Finset.mem_range.1 hi) j (Finset.mem_range.1 hj) hij).comp (measurable_gain f k) (measurable_gain f k)

/-- C76: with independent generators for the paths the Monte-Carlo price is within the bias and `ε` of the Black-Scholes price except
with a probability of at most `e^{-2rT} E(X - k)² / (m ε²)`, `m` the number of paths and `X` the end of an Euler-Maruyama path. -/
theorem C76_gbm_confidence (ρ : Measure Ω) [IsProbabilityMeasure ρ] (env : Ω → Env) (mu sigma rate k : ℝ) (hsig : 0 < sigma)
    (hk : 0 < k) (c : Config) (hx : 0 < c.x0) (sched : List ℕ) (hs : c.parallel = true → ValidSched c sched)
    (hc : c.scheme = .eulerMaruyama) (hn : 0 < c.nSteps) (hn1 : 2 * (|mu| + sigma ^ 2) * (c.tn - c.t0) ≤ c.nSteps)
    (hn2 : (mu * (c.tn - c.t0)) ^ 2 ≤ c.nSteps) (s : ℕ) (hseed : c.seed = some s)
    (hZ : ∀ i < c.mPaths, StdNormals ρ fun k ω => (env ω).normals ((s + i) % 2 ^ 64) k)
    (hind : ∀ i < c.mPaths, ∀ j < c.mPaths, i ≠ j → IndepFun (fun ω => (env ω).normals ((s + i) % 2 ^ 64))
      (fun ω => (env ω).normals ((s + j) % 2 ^ 64)) ρ) (f : TypeFlag) (v : Ω → ℝ)
    (hv : ∀ ω, (McInstrument.vanilla k f).price
      (generate (env ω) (geometricBrownianMotion (fun _ => mu) (fun _ => sigma)) c sched) c rate = some (v ω))
    {ε : ℝ} (hε : 0 < ε) :
    ρ {ω | exp (-(rate * (c.tn - c.t0))) * (c.x0 * (c.tn - c.t0) * √(2 * exp ((2 * mu + sigma ^ 2) * (c.tn - c.t0)) *
        (mu ^ 2 + (mu + sigma ^ 2) ^ 2) / c.nSteps)) + ε ≤ |v ω - blackScholes f c.x0 k (c.tn - c.t0) rate mu sigma|} ≤
      ENNReal.ofReal (exp (-(rate * (c.tn - c.t0))) ^ 2 *
        (c.x0 ^ 2 * ((1 + mu * ((c.tn - c.t0) / c.nSteps)) ^ 2 + sigma ^ 2 * ((c.tn - c.t0) / c.nSteps)) ^ c.nSteps -
          2 * k * (c.x0 * (1 + mu * ((c.tn - c.t0) / c.nSteps)) ^ c.nSteps) + k ^ 2) / (c.mPaths * ε ^ 2)) := by
  have hbias := C76_gbm_error ρ env mu sigma rate k hsig hk c hx sched hs hc hn hn1 hn2 s hseed hZ f v hv
  obtain ⟨T, hT, ht, hm, e⟩ := price_runs ρ env rate k c sched hs f v hv
  set dt := (c.tn - c.t0) / c.nSteps with hdt
  have hdt0 : 0 ≤ dt := by positivity
  have hter : ∀ i < c.mPaths, (fun ω => (T ω).val i c.nSteps) = fun ω => c.x0 *
      ∏ j ∈ Finset.range c.nSteps, eulerFactor mu sigma dt ((env ω).normals ((s + i) % 2 ^ 64) j) :=
    fun i hi => funext fun ω => gbm_terminal hsig.le hs hc hseed (hT ω) hi
  have hcheb := estimate_chebyshev ρ c.mPaths hm (fun i ω => (T ω).val i c.nSteps) _ k
    (c.x0 ^ 2 * ((1 + mu * dt) ^ 2 + sigma ^ 2 * dt) ^ c.nSteps - 2 * k * (c.x0 * (1 + mu * dt) ^ c.nSteps) + k ^ 2) f
    (fun i hi => by
      rw [hter i hi]
      exact (prod_memLp (hZ i hi) (eulerFactor_measurable _ _ _) (euler_memLp _ _ _) _).const_mul c.x0)
    (fun i hi => by
      have h1 := fun ω => congrFun (hter i hi) ω
      simp only [h1]
      have l1 := prod_memLp (hZ i hi) (eulerFactor_measurable mu sigma dt) (euler_memLp mu sigma dt) c.nSteps
      have i1 := prod_integrable (hZ i hi) ((eulerFactor_measurable mu sigma dt).pow_const 2) (euler_memLp mu sigma dt).integrable_sq
        c.nSteps
      have i2 := l1.integrable (by norm_num)
      have ex : ∀ ω, (c.x0 * ∏ j ∈ Finset.range c.nSteps, eulerFactor mu sigma dt ((env ω).normals ((s + i) % 2 ^ 64) j) - k) ^ 2 =
          c.x0 ^ 2 * (∏ j ∈ Finset.range c.nSteps, eulerFactor mu sigma dt ((env ω).normals ((s + i) % 2 ^ 64) j) ^ 2) -
          2 * k * c.x0 * (∏ j ∈ Finset.range c.nSteps, eulerFactor mu sigma dt ((env ω).normals ((s + i) % 2 ^ 64) j)) + k ^ 2 := by
        intro ω
        rw [Finset.prod_pow]
        ring
      simp only [ex]
      have i12 := (i1.const_mul (c.x0 ^ 2)).sub (i2.const_mul (2 * k * c.x0))
      simp only [Pi.sub_def] at i12
      rw [integral_add i12 (integrable_const _), integral_sub (i1.const_mul _) (i2.const_mul _), integral_const_mul,
        integral_const_mul, prod_integral (hZ i hi) ((eulerFactor_measurable mu sigma dt).pow_const 2) c.nSteps,
        prod_integral (hZ i hi) (eulerFactor_measurable mu sigma dt) c.nSteps, euler_sq _ _ _ hdt0, euler_mean, integral_const,
        probReal_univ, one_smul]
      exact le_of_eq (by ring))
    (fun i hi j hj hij => by
      rw [hter i hi, hter j hj]
      have hφ : Measurable fun z : ℕ → ℝ => c.x0 * ∏ l ∈ Finset.range c.nSteps, eulerFactor mu sigma dt (z l) :=
        (Finset.measurable_fun_prod _ fun l _ => (eulerFactor_measurable mu sigma dt).comp (measurable_pi_apply l)).const_mul _
      exact (hind i hi j hj hij).comp hφ hφ)
    v e hε
  refine le_trans (measure_mono fun ω hω => ?_) hcheb
  simp only [Set.mem_setOf_eq] at hω ⊢
  have := abs_sub_le (v ω) (∫ ω, v ω ∂ρ) (blackScholes f c.x0 k (c.tn - c.t0) rate mu sigma)
  linarith

/-- C76: for an arithmetic Brownian motion and independent generators the Monte-Carlo price is within `ε` of the Bachelier price
except with a probability of at most `e^{-2rT} ((F - k)² + σ² T) / (m ε²)`, `F` the forward and `m` the number of paths. -/
theorem C76_bachelier_confidence (ρ : Measure Ω) [IsProbabilityMeasure ρ] (env : Ω → Env) (mu sigma rate k : ℝ) (hsig : 0 < sigma)
    (c : Config) (sched : List ℕ) (hs : c.parallel = true → ValidSched c sched) (hc : c.scheme = .eulerMaruyama)
    (hn : 0 < c.nSteps) (s : ℕ) (hseed : c.seed = some s)
    (hZ : ∀ i < c.mPaths, StdNormals ρ fun k ω => (env ω).normals ((s + i) % 2 ^ 64) k)
    (hind : ∀ i < c.mPaths, ∀ j < c.mPaths, i ≠ j → IndepFun (fun ω => (env ω).normals ((s + i) % 2 ^ 64))
      (fun ω => (env ω).normals ((s + j) % 2 ^ 64)) ρ) (f : TypeFlag) (v : Ω → ℝ)
    (hv : ∀ ω, (McInstrument.vanilla k f).price
      (generate (env ω) (arithmeticBrownianMotion (fun _ => mu) (fun _ => sigma)) c sched) c rate = some (v ω))
    {ε : ℝ} (hε : 0 < ε) :
    ρ {ω | ε ≤ |v ω - Bachelier.price ⟨c.x0 + mu * (c.tn - c.t0), rate, sigma⟩ k (c.tn - c.t0) f|} ≤
      ENNReal.ofReal (exp (-(rate * (c.tn - c.t0))) ^ 2 *
        ((c.x0 + mu * (c.tn - c.t0) - k) ^ 2 + sigma ^ 2 * (c.tn - c.t0)) / (c.mPaths * ε ^ 2)) := by
  rw [← C76_bachelier ρ env mu sigma rate k hsig c sched hs hc hn s hseed hZ f v hv]
  obtain ⟨T, hT, ht, hm, e⟩ := price_runs ρ env rate k c sched hs f v hv
  have hlaw := abm_law ρ env mu sigma hsig.le c sched hs hn s hseed T hT hZ (sigma * √(c.tn - c.t0))
    (by rw [if_pos hc, mul_pow, sq_sqrt ht.le])
  refine estimate_chebyshev ρ c.mPaths hm (fun i ω => (T ω).val i c.nSteps) _ k _ f (fun i hi => (hlaw i hi).1) (fun i hi => ?_)
    (fun i hi j hj hij => ?_) v e hε
  · have h1 := integral_map (μ := ρ) (f := fun x : ℝ => (x - k) ^ 2) (hlaw i hi).1.1.aemeasurable (by fun_prop)
    rw [← h1, (hlaw i hi).2, integral_map (by fun_prop) (by fun_prop)]
    have ex : ∀ z : ℝ, (c.x0 + mu * (c.tn - c.t0) + sigma * √(c.tn - c.t0) * z - k) ^ 2 = (c.x0 + mu * (c.tn - c.t0) - k) ^ 2 +
        ((2 * (c.x0 + mu * (c.tn - c.t0) - k) * (sigma * √(c.tn - c.t0))) * z + (sigma ^ 2 * (c.tn - c.t0)) * z ^ 2) := by
      intro z
      have := mul_self_sqrt ht.le
      linear_combination sigma ^ 2 * z ^ 2 * this
    simp only [ex]
    rw [integral_add (integrable_const _), integral_add (gauss_id_integrable.const_mul _) (gauss_memLp_id.integrable_sq.const_mul _),
      integral_const_mul, integral_const_mul, gauss_mean, gauss_sq]
    · simp
    · exact (gauss_id_integrable.const_mul _).add (gauss_memLp_id.integrable_sq.const_mul _)
  · rw [show (fun ω => (T ω).val i c.nSteps) = (fun z : ℕ → ℝ => (c.x0 + mu * (c.tn - c.t0)) + ∑ k ∈ Finset.range c.nSteps,
        (if c.scheme = .eulerMaruyama then sigma * √((c.tn - c.t0) / c.nSteps) else sigma) * z k) ∘
          fun ω => (env ω).normals ((s + i) % 2 ^ 64) from funext fun ω => abm_terminal hsig.le hs hn hseed (hT ω) hi,
      show (fun ω => (T ω).val j c.nSteps) = (fun z : ℕ → ℝ => (c.x0 + mu * (c.tn - c.t0)) + ∑ k ∈ Finset.range c.nSteps,
        (if c.scheme = .eulerMaruyama then sigma * √((c.tn - c.t0) / c.nSteps) else sigma) * z k) ∘
          fun ω => (env ω).normals ((s + j) % 2 ^ 64) from funext fun ω => abm_terminal hsig.le hs hn hseed (hT ω) hj]
    exact (hind i hi j hj hij).comp (by fun_prop) (by fun_prop)

/-- Example: three paths of four steps of a geometric Brownian motion meet the hypotheses of `C76_gbm_error` and
`C76_gbm_confidence`. -/
example : ∃ (ρ : Measure (ℕ → ℕ → ℝ)) (env : (ℕ → ℕ → ℝ) → Env) (v : (ℕ → ℕ → ℝ) → ℝ), IsProbabilityMeasure ρ ∧
    (∀ ω, (McInstrument.vanilla 100 .call).price (generate (env ω) (geometricBrownianMotion (fun _ => 1 / 20) (fun _ => 1 / 5))
      ⟨100, 0, 1, 4, .eulerMaruyama, 3, false, some 5⟩ []) ⟨100, 0, 1, 4, .eulerMaruyama, 3, false, some 5⟩ (1 / 20)
        = some (v ω)) ∧
    |∫ ω, v ω ∂ρ - Bsm.callPrice 100 100 1 (1 / 20) (1 / 20) (1 / 5)| ≤ exp (-(1 / 20)) * (100 * √(2 * exp (7 / 50) *
      ((1 / 20) ^ 2 + (9 / 100) ^ 2) / 4)) ∧
    ρ {ω | exp (-(1 / 20)) * (100 * √(2 * exp (7 / 50) * ((1 / 20) ^ 2 + (9 / 100) ^ 2) / 4)) + 30 ≤
      |v ω - Bsm.callPrice 100 100 1 (1 / 20) (1 / 20) (1 / 5)|} ≤ ENNReal.ofReal (exp (-(1 / 20)) ^ 2 *
        (100 ^ 2 * ((1 + 1 / 80) ^ 2 + 1 / 100) ^ 4 - 2 * 100 * (100 * (1 + 1 / 80) ^ 4) + 100 ^ 2) / (3 * 30 ^ 2)) := by
  obtain ⟨ρ, hρ, hZ, hind⟩ := exists_streams
  set c : Config := ⟨100, 0, 1, 4, .eulerMaruyama, 3, false, some 5⟩ with hcdef
  set env : (ℕ → ℕ → ℝ) → Env := fun ω => ⟨ω, 0, fun _ _ _ _ _ => [], fun _ _ _ _ => [], fun _ _ => [], fun _ _ => 0⟩
  have hs : c.parallel = true → ValidSched c [] := by simp [hcdef]
  have hT : ∀ ω, ∃ T, generate (env ω) (geometricBrownianMotion (fun _ => 1 / 20) (fun _ => 1 / 5)) c [] = some T := fun ω =>
    C49_total _ _ _ _ hs (by norm_num [hcdef]) (fun _ _ => by simp [geometricBrownianMotion])
      (fun _ _ => by simp [geometricBrownianMotion, assertNonneg])
  choose T hT using hT
  have hv := fun ω => C76_vanilla (env ω) _ c [] hs (T ω) (hT ω) (by norm_num [hcdef]) 100 (1 / 20) .call
  have hZ' : ∀ i < c.mPaths, StdNormals ρ fun k ω => (env ω).normals ((5 + i) % 2 ^ 64) k := fun i _ => hZ _
  have hind' : ∀ i < c.mPaths, ∀ j < c.mPaths, i ≠ j → IndepFun (fun ω => (env ω).normals ((5 + i) % 2 ^ 64))
      (fun ω => (env ω).normals ((5 + j) % 2 ^ 64)) ρ := fun i hi j hj hij => hind _ _ (by
    have : c.mPaths = 3 := rfl
    omega)
  refine ⟨ρ, env, _, hρ, hv, ?_, ?_⟩
  · have := C76_gbm_error ρ env (1 / 20) (1 / 5) (1 / 20) 100 (by norm_num) (by norm_num) c (by norm_num [hcdef]) [] hs rfl
      (by norm_num [hcdef]) (by norm_num [hcdef, abs_of_pos]) (by norm_num [hcdef]) 5 rfl hZ' .call _ hv
    simp only [blackScholes, if_true] at this
    norm_num [hcdef] at this ⊢
    exact this
  · have := C76_gbm_confidence ρ env (1 / 20) (1 / 5) (1 / 20) 100 (by norm_num) (by norm_num) c (by norm_num [hcdef]) [] hs rfl
      (by norm_num [hcdef]) (by norm_num [hcdef, abs_of_pos]) (by norm_num [hcdef]) 5 rfl hZ' hind' .call _ hv
      (show (0:ℝ) < 30 by norm_num)
    simp only [blackScholes, if_true] at this
    norm_num [hcdef] at this ⊢
    exact this

/-- Example: the same for `C76_bachelier_confidence`. -/
example : ∃ (ρ : Measure (ℕ → ℕ → ℝ)) (env : (ℕ → ℕ → ℝ) → Env) (v : (ℕ → ℕ → ℝ) → ℝ), IsProbabilityMeasure ρ ∧
    (∀ ω, (McInstrument.vanilla 100 .call).price (generate (env ω) (arithmeticBrownianMotion (fun _ => 1) (fun _ => 20))
      ⟨100, 0, 1, 4, .eulerMaruyama, 3, false, some 5⟩ []) ⟨100, 0, 1, 4, .eulerMaruyama, 3, false, some 5⟩ (1 / 20)
        = some (v ω)) ∧
    ρ {ω | 30 ≤ |v ω - Bachelier.price ⟨101, 1 / 20, 20⟩ 100 1 .call|} ≤
      ENNReal.ofReal (exp (-(1 / 20)) ^ 2 * 401 / (3 * 30 ^ 2)) := by
  obtain ⟨ρ, hρ, hZ, hind⟩ := exists_streams
  set c : Config := ⟨100, 0, 1, 4, .eulerMaruyama, 3, false, some 5⟩ with hcdef
  set env : (ℕ → ℕ → ℝ) → Env := fun ω => ⟨ω, 0, fun _ _ _ _ _ => [], fun _ _ _ _ => [], fun _ _ => [], fun _ _ => 0⟩
  have hs : c.parallel = true → ValidSched c [] := by simp [hcdef]
  have hT : ∀ ω, ∃ T, generate (env ω) (arithmeticBrownianMotion (fun _ => 1) (fun _ => 20)) c [] = some T := fun ω =>
    C49_total _ _ _ _ hs (by norm_num [hcdef]) (fun _ _ => by simp [arithmeticBrownianMotion])
      (fun _ _ => by simp [arithmeticBrownianMotion, assertNonneg])
  choose T hT using hT
  have hv := fun ω => C76_vanilla (env ω) _ c [] hs (T ω) (hT ω) (by norm_num [hcdef]) 100 (1 / 20) .call
  have hind' : ∀ i < c.mPaths, ∀ j < c.mPaths, i ≠ j → IndepFun (fun ω => (env ω).normals ((5 + i) % 2 ^ 64))
      (fun ω => (env ω).normals ((5 + j) % 2 ^ 64)) ρ := fun i hi j hj hij => hind _ _ (by
    have : c.mPaths = 3 := rfl
    omega)
  refine ⟨ρ, env, _, hρ, hv, ?_⟩
  have := C76_bachelier_confidence ρ env 1 20 (1 / 20) 100 (by norm_num) c [] hs rfl (by norm_num [hcdef]) 5 rfl
    (fun i _ => hZ _) hind' .call _ hv (show (0:ℝ) < 30 by norm_num)
  norm_num [hcdef] at this ⊢
  exact this

end Verif.Options
