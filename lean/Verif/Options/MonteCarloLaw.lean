import Verif.Options.MonteCarloProps
import Verif.Options.BachelierProps
import Verif.Options.LongstaffSchwartzLaw

/-!
# C76: what the Monte-Carlo price estimates

The generators are random: the normals of the generator of every path are independent standard normals.
-/

namespace Verif.Options

open Real Classical Stochastics MeasureTheory ProbabilityTheory

variable {Ω : Type} [MeasurableSpace Ω]

theorem measurable_gain (f : TypeFlag) (k : ℝ) : Measurable fun x => Spec.gain f x k := by
  cases f <;> simp only [Spec.gain, if_true, reduceCtorEq, if_false] <;> fun_prop

theorem gain_abs_le (f : TypeFlag) (x k : ℝ) : |Spec.gain f x k| ≤ |x - k| := by
  rw [abs_of_nonneg (le_max_right _ _)]
  cases f <;> simp only [Spec.gain, if_true, reduceCtorEq, if_false]
  · exact max_le (le_abs_self _) (abs_nonneg _)
  · exact max_le (by rw [abs_sub_comm]; exact le_abs_self _) (abs_nonneg _)

theorem gain_memLp {ρ : Measure Ω} [IsProbabilityMeasure ρ] {X : Ω → ℝ} (hX : MemLp X 2 ρ) (f : TypeFlag) (k : ℝ) :
    MemLp (fun ω => Spec.gain f (X ω) k) 2 ρ := by
  refine (hX.sub (memLp_const k)).mono
    ((measurable_gain f k).comp_aemeasurable hX.1.aemeasurable).aestronglyMeasurable (ae_of_all _ fun ω => ?_)
  exact gain_abs_le f (X ω) k

theorem gaussian_shift (m s : ℝ) (V : ℝ) (hV : V = s ^ 2) :
    gaussianReal m V.toNNReal = (gaussianReal 0 1).map fun z => m + s * z := by
  have h1 : (fun z : ℝ => m + s * z) = (fun y => m + y) ∘ fun z => s * z := rfl
  rw [h1, ← Measure.map_map (by fun_prop) (by fun_prop), gaussianReal_map_const_mul, gaussianReal_map_const_add]
  congr 1
  · simp
  · rw [mul_one, hV]; exact NNReal.eq (by simp [Real.coe_toNNReal _ (sq_nonneg s)])

/-- What is needed of the last points `X i` of the paths: all have the law of `a + b z`. -/
theorem estimate_mean (ρ : Measure Ω) [IsProbabilityMeasure ρ] (m : ℕ) (hm : 0 < m) (X : ℕ → Ω → ℝ) (a b D k : ℝ)
    (f : TypeFlag) (hX : ∀ i < m, MemLp (X i) 2 ρ)
    (hlaw : ∀ i < m, ρ.map (X i) = (gaussianReal 0 1).map fun z => a + b * z) :
    ∫ ω, D * ((∑ i ∈ Finset.range m, Spec.gain f (X i ω) k) / m) ∂ρ =
      D * ∫ z, Spec.gain f (a + b * z) k ∂gaussianReal 0 1 := by
  have hm' : (m : ℝ) ≠ 0 := by exact_mod_cast hm.ne'
  have hval : ∀ i ∈ Finset.range m, ∫ ω, Spec.gain f (X i ω) k ∂ρ = ∫ z, Spec.gain f (a + b * z) k ∂gaussianReal 0 1 := by
    intro i hi
    have hi := Finset.mem_range.1 hi
    rw [← integral_map (φ := X i) (f := fun x => Spec.gain f x k) (hX i hi).1.aemeasurable
      (measurable_gain f k).aestronglyMeasurable, hlaw i hi,
      integral_map (by fun_prop) (measurable_gain f k).aestronglyMeasurable]
  rw [integral_const_mul, integral_div, integral_finsetSum _ fun i hi =>
    (gain_memLp (hX i (Finset.mem_range.1 hi)) f k).integrable (by norm_num), Finset.sum_congr rfl hval, Finset.sum_const,
    Finset.card_range, nsmul_eq_mul, mul_div_cancel_left₀ _ hm']

theorem intrinsic_eq_gain (x k : ℝ) (f : TypeFlag) : Bachelier.intrinsic x k f = Spec.gain f x k := by
  cases f <;> simp [Bachelier.intrinsic, Spec.gain]

theorem abm_terminal {env : Env} {mu sigma : ℝ} (hsig : 0 ≤ sigma) {c : Config} {sched : List ℕ}
    (hs : c.parallel = true → ValidSched c sched) (hn : 0 < c.nSteps) {s : ℕ} (hseed : c.seed = some s)
    {T : Trajectories} (h : generate env (arithmeticBrownianMotion (fun _ => mu) (fun _ => sigma)) c sched = some T)
    {i : ℕ} (hi : i < c.mPaths) :
    T.val i c.nSteps = (c.x0 + mu * (c.tn - c.t0)) + ∑ k ∈ Finset.range c.nSteps,
      (if c.scheme = .eulerMaruyama then sigma * √((c.tn - c.t0) / c.nSteps) else sigma) *
        env.normals ((s + i) % 2 ^ 64) k := by
  have hn' : (c.nSteps : ℝ) ≠ 0 := by exact_mod_cast hn.ne'
  have key : ∀ t, t ≤ c.nSteps → T.val i t = c.x0 + mu * ((c.tn - c.t0) / c.nSteps) * t +
      ∑ k ∈ Finset.range t, (if c.scheme = .eulerMaruyama then sigma * √((c.tn - c.t0) / c.nSteps) else sigma) *
        env.normals ((s + i) % 2 ^ 64) k := by
    intro t
    induction t with
    | zero => intro _; simp [((simulate_val hs h).2.choose_spec.2 i hi).1]
    | succ t ih =>
      intro ht
      rw [Finset.sum_range_succ]
      by_cases hc : c.scheme = .eulerMaruyama
      · obtain ⟨a, b, ha, hb, h1⟩ := C49_euler env _ c sched hs hc s hseed T h i hi t (by omega)
        simp only [arithmeticBrownianMotion, assertNonneg, hsig, if_true, Option.some.injEq] at ha hb
        rw [h1, ih (by omega), ← ha, ← hb]
        simp only [hc, if_true]
        push_cast; ring
      · have hc' : c.scheme = .milstein ∨ c.scheme = .strangSplitting := by
          cases hsch : c.scheme <;> simp_all
        rw [C49_unscaled_noise env mu sigma hsig c sched hs hc' s hseed T h i hi t (by omega), ih (by omega)]
        simp only [hc, if_false]
        push_cast; ring
  rw [key _ le_rfl, mul_assoc, div_mul_cancel₀ _ hn']

theorem StdNormals.affine_memLp {ρ : Measure Ω} [IsProbabilityMeasure ρ] {Z : ℕ → Ω → ℝ} (h : StdNormals ρ Z) (c : ℝ)
    (a : ℕ → ℝ) (n : ℕ) : MemLp (fun ω => c + ∑ k ∈ Finset.range n, a k * Z k ω) 2 ρ :=
  (memLp_const c).add (memLp_finsetSum _ fun k _ => (h.memLp k).const_mul (a k))

/-- The last point of a path: square integrable, with the law of `x0 + μT + w z`. -/
theorem abm_law (ρ : Measure Ω) [IsProbabilityMeasure ρ] (env : Ω → Env) (mu sigma : ℝ) (hsig : 0 ≤ sigma)
    (c : Config) (sched : List ℕ) (hs : c.parallel = true → ValidSched c sched) (hn : 0 < c.nSteps) (s : ℕ)
    (hseed : c.seed = some s) (T : Ω → Trajectories)
    (h : ∀ ω, generate (env ω) (arithmeticBrownianMotion (fun _ => mu) (fun _ => sigma)) c sched = some (T ω))
    (hZ : ∀ i < c.mPaths, StdNormals ρ fun k ω => (env ω).normals ((s + i) % 2 ^ 64) k) (w : ℝ)
    (hw : w ^ 2 = if c.scheme = .eulerMaruyama then sigma ^ 2 * (c.tn - c.t0) else sigma ^ 2 * c.nSteps)
    (i : ℕ) (hi : i < c.mPaths) :
    MemLp (fun ω => (T ω).val i c.nSteps) 2 ρ ∧ ρ.map (fun ω => (T ω).val i c.nSteps) =
      (gaussianReal 0 1).map fun z => (c.x0 + mu * (c.tn - c.t0)) + w * z := by
  have hn' : (0:ℝ) < c.nSteps := by exact_mod_cast hn
  have ht : c.t0 < c.tn := by
    obtain ⟨ω⟩ : Nonempty Ω := nonempty_of_isProbabilityMeasure ρ
    exact (simulate_val hs (h ω)).1
  have hdt : 0 ≤ (c.tn - c.t0) / c.nSteps := div_nonneg (by linarith) hn'.le
  have e : (fun ω => (T ω).val i c.nSteps) = fun ω => (c.x0 + mu * (c.tn - c.t0)) + ∑ k ∈ Finset.range c.nSteps,
      (fun _ => if c.scheme = .eulerMaruyama then sigma * √((c.tn - c.t0) / c.nSteps) else sigma) k *
        (env ω).normals ((s + i) % 2 ^ 64) k := funext fun ω => abm_terminal hsig hs hn hseed (h ω) hi
  rw [e]
  refine ⟨StdNormals.affine_memLp (hZ i hi) _ _ _, ?_⟩
  rw [law_affine (hZ i hi)]
  refine gaussian_shift _ w _ ?_
  rw [hw, Finset.sum_const, Finset.card_range, nsmul_eq_mul]
  split_ifs
  · rw [mul_pow, sq_sqrt hdt]; field_simp
  · ring

/-- C76: for an arithmetic Brownian motion simulated by Euler-Maruyama the expected Monte-Carlo price is exactly the
Bachelier price at the forward `x0 + μT`: the estimate has no bias, for every number of steps and paths. -/
theorem C76_bachelier (ρ : Measure Ω) [IsProbabilityMeasure ρ] (env : Ω → Env) (mu sigma rate k : ℝ) (hsig : 0 < sigma)
    (c : Config) (sched : List ℕ) (hs : c.parallel = true → ValidSched c sched) (hc : c.scheme = .eulerMaruyama)
    (hn : 0 < c.nSteps) (s : ℕ) (hseed : c.seed = some s)
    (hZ : ∀ i < c.mPaths, StdNormals ρ fun k ω => (env ω).normals ((s + i) % 2 ^ 64) k) (f : TypeFlag) (v : Ω → ℝ)
    (hv : ∀ ω, (McInstrument.vanilla k f).price
      (generate (env ω) (arithmeticBrownianMotion (fun _ => mu) (fun _ => sigma)) c sched) c rate = some (v ω)) :
    ∫ ω, v ω ∂ρ = Bachelier.price ⟨c.x0 + mu * (c.tn - c.t0), rate, sigma⟩ k (c.tn - c.t0) f := by
  obtain ⟨T, hT⟩ : ∃ T : Ω → Trajectories, ∀ ω,
      generate (env ω) (arithmeticBrownianMotion (fun _ => mu) (fun _ => sigma)) c sched = some (T ω) := by
    refine Classical.axiomOfChoice (r := fun ω t =>
      generate (env ω) (arithmeticBrownianMotion (fun _ => mu) (fun _ => sigma)) c sched = some t) fun ω => ?_
    cases hg : generate (env ω) (arithmeticBrownianMotion (fun _ => mu) (fun _ => sigma)) c sched with
    | none => have := hv ω; rw [hg] at this; simp [McInstrument.price, priceMonteCarlo] at this
    | some t => exact ⟨t, rfl⟩
  obtain ⟨ω₀⟩ : Nonempty Ω := nonempty_of_isProbabilityMeasure ρ
  have ht : c.t0 < c.tn := (simulate_val hs (hT ω₀)).1
  have hm : 0 < c.mPaths := by
    obtain ⟨-, h0, -⟩ := (C76_price _ _ _ c sched hs _ (hT ω₀) rate _).1 (hv ω₀)
    rwa [(generate_terminal hs (hT ω₀)).1] at h0
  have hlaw := abm_law ρ env mu sigma hsig.le c sched hs hn s hseed T hT hZ (sigma * √(c.tn - c.t0))
    (by rw [if_pos hc, mul_pow, sq_sqrt (by linarith)])
  have e : ∀ ω, v ω = exp (-(rate * (c.tn - c.t0))) *
      ((∑ i ∈ Finset.range c.mPaths, Spec.gain f ((T ω).val i c.nSteps) k) / c.mPaths) := fun ω =>
    (Option.some.inj ((C76_vanilla (env ω) _ c sched hs (T ω) (hT ω) hm k rate f).symm.trans (hv ω))).symm
  simp only [e]
  rw [estimate_mean ρ c.mPaths hm (fun i ω => (T ω).val i c.nSteps) _ _ _ k f (fun i hi => (hlaw i hi).1)
    fun i hi => (hlaw i hi).2, Bachelier.C59_expectation _ k _ (by linarith) hsig f]
  simp only [intrinsic_eq_gain, neg_mul]

/-- C76 (defect): under Milstein and Strang splitting the expected price is the Bachelier price with volatility
`σ√(n/T)`: it depends on the number of steps and grows without bound with it. -/
theorem C76_unscaled (ρ : Measure Ω) [IsProbabilityMeasure ρ] (env : Ω → Env) (mu sigma rate k : ℝ) (hsig : 0 < sigma)
    (c : Config) (sched : List ℕ) (hs : c.parallel = true → ValidSched c sched) (hc : c.scheme ≠ .eulerMaruyama)
    (hn : 0 < c.nSteps) (s : ℕ) (hseed : c.seed = some s)
    (hZ : ∀ i < c.mPaths, StdNormals ρ fun k ω => (env ω).normals ((s + i) % 2 ^ 64) k) (f : TypeFlag) (v : Ω → ℝ)
    (hv : ∀ ω, (McInstrument.vanilla k f).price
      (generate (env ω) (arithmeticBrownianMotion (fun _ => mu) (fun _ => sigma)) c sched) c rate = some (v ω)) :
    ∫ ω, v ω ∂ρ = Bachelier.price ⟨c.x0 + mu * (c.tn - c.t0), rate, sigma * √(c.nSteps / (c.tn - c.t0))⟩ k
      (c.tn - c.t0) f := by
  obtain ⟨T, hT⟩ : ∃ T : Ω → Trajectories, ∀ ω,
      generate (env ω) (arithmeticBrownianMotion (fun _ => mu) (fun _ => sigma)) c sched = some (T ω) := by
    refine Classical.axiomOfChoice (r := fun ω t =>
      generate (env ω) (arithmeticBrownianMotion (fun _ => mu) (fun _ => sigma)) c sched = some t) fun ω => ?_
    cases hg : generate (env ω) (arithmeticBrownianMotion (fun _ => mu) (fun _ => sigma)) c sched with
    | none => have := hv ω; rw [hg] at this; simp [McInstrument.price, priceMonteCarlo] at this
    | some t => exact ⟨t, rfl⟩
  obtain ⟨ω₀⟩ : Nonempty Ω := nonempty_of_isProbabilityMeasure ρ
  have ht : 0 < c.tn - c.t0 := sub_pos.2 (simulate_val hs (hT ω₀)).1
  have hn' : (0:ℝ) < c.nSteps := by exact_mod_cast hn
  have hm : 0 < c.mPaths := by
    obtain ⟨-, h0, -⟩ := (C76_price _ _ _ c sched hs _ (hT ω₀) rate _).1 (hv ω₀)
    rwa [(generate_terminal hs (hT ω₀)).1] at h0
  have hlaw := abm_law ρ env mu sigma hsig.le c sched hs hn s hseed T hT hZ
    (sigma * √(c.nSteps / (c.tn - c.t0)) * √(c.tn - c.t0))
    (by rw [if_neg hc, mul_pow, mul_pow, sq_sqrt (by positivity), sq_sqrt ht.le]; field_simp)
  have e : ∀ ω, v ω = exp (-(rate * (c.tn - c.t0))) *
      ((∑ i ∈ Finset.range c.mPaths, Spec.gain f ((T ω).val i c.nSteps) k) / c.mPaths) := fun ω =>
    (Option.some.inj ((C76_vanilla (env ω) _ c sched hs (T ω) (hT ω) hm k rate f).symm.trans (hv ω))).symm
  simp only [e]
  rw [estimate_mean ρ c.mPaths hm (fun i ω => (T ω).val i c.nSteps) _ _ _ k f (fun i hi => (hlaw i hi).1)
    fun i hi => (hlaw i hi).2, Bachelier.C59_expectation _ k _ ht (by positivity) f]
  simp only [intrinsic_eq_gain, neg_mul]

/-- C76: if the generators of different paths are independent, the variance of the price is that of one discounted
payoff divided by the number of paths. -/
theorem C76_variance (ρ : Measure Ω) [IsProbabilityMeasure ρ] (env : Ω → Env) (mu sigma rate k : ℝ) (hsig : 0 < sigma)
    (c : Config) (sched : List ℕ) (hs : c.parallel = true → ValidSched c sched) (hc : c.scheme = .eulerMaruyama)
    (hn : 0 < c.nSteps) (s : ℕ) (hseed : c.seed = some s)
    (hZ : ∀ i < c.mPaths, StdNormals ρ fun k ω => (env ω).normals ((s + i) % 2 ^ 64) k)
    (hind : ∀ i < c.mPaths, ∀ j < c.mPaths, i ≠ j → IndepFun (fun ω => (env ω).normals ((s + i) % 2 ^ 64))
      (fun ω => (env ω).normals ((s + j) % 2 ^ 64)) ρ) (f : TypeFlag) (v : Ω → ℝ)
    (hv : ∀ ω, (McInstrument.vanilla k f).price
      (generate (env ω) (arithmeticBrownianMotion (fun _ => mu) (fun _ => sigma)) c sched) c rate = some (v ω)) :
    Var[v; ρ] = exp (-(rate * (c.tn - c.t0))) ^ 2 * Var[fun z => Spec.gain f
      (c.x0 + mu * (c.tn - c.t0) + sigma * √(c.tn - c.t0) * z) k; gaussianReal 0 1] / c.mPaths := by
  obtain ⟨T, hT⟩ : ∃ T : Ω → Trajectories, ∀ ω,
      generate (env ω) (arithmeticBrownianMotion (fun _ => mu) (fun _ => sigma)) c sched = some (T ω) := by
    refine Classical.axiomOfChoice (r := fun ω t =>
      generate (env ω) (arithmeticBrownianMotion (fun _ => mu) (fun _ => sigma)) c sched = some t) fun ω => ?_
    cases hg : generate (env ω) (arithmeticBrownianMotion (fun _ => mu) (fun _ => sigma)) c sched with
    | none => have := hv ω; rw [hg] at this; simp [McInstrument.price, priceMonteCarlo] at this
    | some t => exact ⟨t, rfl⟩
  obtain ⟨ω₀⟩ : Nonempty Ω := nonempty_of_isProbabilityMeasure ρ
  have ht : 0 < c.tn - c.t0 := sub_pos.2 (simulate_val hs (hT ω₀)).1
  have hm : 0 < c.mPaths := by
    obtain ⟨-, h0, -⟩ := (C76_price _ _ _ c sched hs _ (hT ω₀) rate _).1 (hv ω₀)
    rwa [(generate_terminal hs (hT ω₀)).1] at h0
  have hm' : (c.mPaths : ℝ) ≠ 0 := by exact_mod_cast hm.ne'
  have hlaw := abm_law ρ env mu sigma hsig.le c sched hs hn s hseed T hT hZ (sigma * √(c.tn - c.t0))
    (by rw [if_pos hc, mul_pow, sq_sqrt ht.le])
  have e : v = fun ω => exp (-(rate * (c.tn - c.t0))) / c.mPaths *
      (∑ i ∈ Finset.range c.mPaths, fun ω => Spec.gain f ((T ω).val i c.nSteps) k) ω := by
    funext ω
    rw [← Option.some.inj ((C76_vanilla (env ω) _ c sched hs (T ω) (hT ω) hm k rate f).symm.trans (hv ω)),
      Finset.sum_apply]
    ring
  set φ : (ℕ → ℝ) → ℝ := fun z => Spec.gain f ((c.x0 + mu * (c.tn - c.t0)) + ∑ k ∈ Finset.range c.nSteps,
      (if c.scheme = .eulerMaruyama then sigma * √((c.tn - c.t0) / c.nSteps) else sigma) * z k) k with hφ
  have hφm : Measurable φ := (measurable_gain f k).comp (by fun_prop)
  have hcomp : ∀ i < c.mPaths, (fun ω => Spec.gain f ((T ω).val i c.nSteps) k) =
      φ ∘ fun ω => (env ω).normals ((s + i) % 2 ^ 64) := by
    intro i hi
    funext ω
    rw [abm_terminal hsig.le hs hn hseed (hT ω) hi]
    rfl
  have hvar : ∀ i ∈ Finset.range c.mPaths, Var[fun ω => Spec.gain f ((T ω).val i c.nSteps) k; ρ] =
      Var[fun z => Spec.gain f (c.x0 + mu * (c.tn - c.t0) + sigma * √(c.tn - c.t0) * z) k; gaussianReal 0 1] := by
    intro i hi
    have hi := Finset.mem_range.1 hi
    have h1 := variance_map (μ := ρ) (X := fun x => Spec.gain f x k) (Y := fun ω => (T ω).val i c.nSteps)
      (measurable_gain f k).aemeasurable (hlaw i hi).1.1.aemeasurable
    have h2 := variance_map (μ := gaussianReal 0 1) (X := fun x => Spec.gain f x k)
      (Y := fun z => (c.x0 + mu * (c.tn - c.t0)) + sigma * √(c.tn - c.t0) * z) (measurable_gain f k).aemeasurable
      (by fun_prop)
    rw [(hlaw i hi).2] at h1
    exact h1.symm.trans h2
  rw [e, variance_const_mul, IndepFun.variance_sum (fun i hi => gain_memLp (hlaw i (Finset.mem_range.1 hi)).1 f k),
    Finset.sum_congr rfl hvar, Finset.sum_const, Finset.card_range, nsmul_eq_mul]
  · field_simp
  · intro i hi j hj hij
    have hi := Finset.mem_range.1 hi
    have hj := Finset.mem_range.1 hj
    show IndepFun (fun ω => Spec.gain f ((T ω).val i c.nSteps) k) (fun ω => Spec.gain f ((T ω).val j c.nSteps) k) ρ
    rw [hcomp i hi, hcomp j hj]
    exact (hind i hi j hj hij).comp hφm hφm

theorem gbm_terminal_integrable (ρ : Measure Ω) [IsProbabilityMeasure ρ] {Z : ℕ → Ω → ℝ} (h : StdNormals ρ Z)
    (a b : ℝ) (n : ℕ) : Integrable (fun ω => ∏ k ∈ Finset.range n, (a + b * Z k ω)) ρ := by
  have hm : ∀ k, Measurable fun ω => a + b * Z k ω := fun k => ((h.measurable k).const_mul b).const_add a
  have hi : iIndepFun (fun k ω => a + b * Z k ω) ρ := h.indep.comp (fun _ z => a + b * z) fun _ => by fun_prop
  induction n with
  | zero => simp
  | succ n ih =>
    have h1 := hi.indepFun_prod_range_succ hm n
    have e : (∏ k ∈ Finset.range n, fun ω => a + b * Z k ω) = fun ω => ∏ k ∈ Finset.range n, (a + b * Z k ω) := by
      funext ω; simp
    rw [e] at h1
    have h2 : Integrable (fun ω => a + b * Z n ω) ρ :=
      (integrable_const a).add (((h.memLp n).integrable (by norm_num)).const_mul b)
    have := h1.integrable_mul ih h2
    simp only [Finset.prod_range_succ]
    exact this

/-- C76: for a geometric Brownian motion drifting at the discount rate, simulated by Euler-Maruyama, the expected call
less the expected put is `e^{-rT} (x0 (1 + rT/n)^n - k)`; for a positive rate this is below `x0 - k e^{-rT}`, the value
parity requires, in every number of steps. -/
theorem C76_gbm_parity_bias (ρ : Measure Ω) [IsProbabilityMeasure ρ] (env : Ω → Env) (sigma rate k : ℝ)
    (hsig : 0 ≤ sigma) (c : Config) (sched : List ℕ) (hs : c.parallel = true → ValidSched c sched)
    (hc : c.scheme = .eulerMaruyama) (hn : 0 < c.nSteps) (s : ℕ) (hseed : c.seed = some s)
    (hZ : ∀ i < c.mPaths, StdNormals ρ fun k ω => (env ω).normals ((s + i) % 2 ^ 64) k) (vc vp : Ω → ℝ)
    (hvc : ∀ ω, (McInstrument.vanilla k .call).price
      (generate (env ω) (geometricBrownianMotion (fun _ => rate) (fun _ => sigma)) c sched) c rate = some (vc ω))
    (hvp : ∀ ω, (McInstrument.vanilla k .put).price
      (generate (env ω) (geometricBrownianMotion (fun _ => rate) (fun _ => sigma)) c sched) c rate = some (vp ω)) :
    ∫ ω, (vc ω - vp ω) ∂ρ = exp (-(rate * (c.tn - c.t0))) *
        (c.x0 * (1 + rate * ((c.tn - c.t0) / c.nSteps)) ^ c.nSteps - k) ∧
      (0 < c.x0 → 0 < rate → ∫ ω, (vc ω - vp ω) ∂ρ < c.x0 - k * exp (-(rate * (c.tn - c.t0)))) := by
  obtain ⟨T, hT⟩ : ∃ T : Ω → Trajectories, ∀ ω,
      generate (env ω) (geometricBrownianMotion (fun _ => rate) (fun _ => sigma)) c sched = some (T ω) := by
    refine Classical.axiomOfChoice (r := fun ω t =>
      generate (env ω) (geometricBrownianMotion (fun _ => rate) (fun _ => sigma)) c sched = some t) fun ω => ?_
    cases hg : generate (env ω) (geometricBrownianMotion (fun _ => rate) (fun _ => sigma)) c sched with
    | none => have := hvc ω; rw [hg] at this; simp [McInstrument.price, priceMonteCarlo] at this
    | some t => exact ⟨t, rfl⟩
  obtain ⟨ω₀⟩ : Nonempty Ω := nonempty_of_isProbabilityMeasure ρ
  have ht : 0 < c.tn - c.t0 := sub_pos.2 (simulate_val hs (hT ω₀)).1
  have hm : 0 < c.mPaths := by
    obtain ⟨-, h0, -⟩ := (C76_price _ _ _ c sched hs _ (hT ω₀) rate _).1 (hvc ω₀)
    rwa [(generate_terminal hs (hT ω₀)).1] at h0
  have hm' : (c.mPaths : ℝ) ≠ 0 := by exact_mod_cast hm.ne'
  have hn' : (0:ℝ) < c.nSteps := by exact_mod_cast hn
  set dt := (c.tn - c.t0) / c.nSteps with hdt
  have hdtpos : 0 < dt := div_pos ht hn'
  have hint : ∀ i ∈ Finset.range c.mPaths, Integrable (fun ω => (T ω).val i c.nSteps) ρ := by
    intro i hi
    have hi := Finset.mem_range.1 hi
    have key : ∀ ω t, t ≤ c.nSteps → (T ω).val i t = c.x0 *
        ∏ k ∈ Finset.range t, ((1 + rate * dt) + sigma * √dt * (env ω).normals ((s + i) % 2 ^ 64) k) := by
      intro ω t
      induction t with
      | zero => intro _; simp [((simulate_val hs (hT ω)).2.choose_spec.2 i hi).1]
      | succ t ih =>
        intro ht
        obtain ⟨a, b, ha, hb, h1⟩ := C49_euler (env ω) _ c sched hs hc s hseed (T ω) (hT ω) i hi t (by omega)
        simp only [geometricBrownianMotion, assertNonneg, hsig, if_true, Option.some.injEq] at ha hb
        rw [h1, ← ha, ← hb, ih (by omega), Finset.prod_range_succ]
        ring
    simp only [fun ω => key ω _ le_rfl]
    exact (gbm_terminal_integrable ρ (hZ i hi) _ _ _).const_mul _
  have hmain : ∫ ω, (vc ω - vp ω) ∂ρ = exp (-(rate * (c.tn - c.t0))) *
      (c.x0 * (1 + rate * dt) ^ c.nSteps - k) := by
    simp only [fun ω => C76_parity (env ω) _ c sched hs (T ω) (hT ω) k rate _ _ (hvc ω) (hvp ω)]
    rw [integral_const_mul, integral_sub ((integrable_finsetSum _ hint).div_const _) (integrable_const _), integral_div,
      integral_finsetSum _ hint, Finset.sum_congr rfl fun i hi => C49_gbm_mean ρ env rate sigma hsig c sched hs hc s i hseed
        (Finset.mem_range.1 hi) (hZ i (Finset.mem_range.1 hi)) T hT, Finset.sum_const, Finset.card_range, nsmul_eq_mul,
      mul_div_cancel_left₀ _ hm', integral_const]
    simp only [probReal_univ, one_smul]
    rfl
  refine ⟨hmain, fun hx hr => ?_⟩
  rw [hmain]
  have h1 : (1 + rate * dt) ^ c.nSteps < exp (rate * (c.tn - c.t0)) := by
    have h2 : 1 + rate * dt < exp (rate * dt) := by
      have := add_one_lt_exp (x := rate * dt) (by positivity)
      linarith
    calc (1 + rate * dt) ^ c.nSteps < exp (rate * dt) ^ c.nSteps := pow_lt_pow_left₀ h2 (by positivity) hn.ne'
      _ = _ := by rw [← exp_nat_mul, hdt]; congr 1; field_simp
  have h3 : exp (-(rate * (c.tn - c.t0))) * exp (rate * (c.tn - c.t0)) = 1 := by rw [← exp_add]; simp
  have h4 := mul_lt_mul_of_pos_left (mul_lt_mul_of_pos_left h1 hx) (exp_pos (-(rate * (c.tn - c.t0))))
  have h5 : exp (-(rate * (c.tn - c.t0))) * (c.x0 * exp (rate * (c.tn - c.t0))) = c.x0 := by
    rw [mul_left_comm, h3, mul_one]
  rw [mul_sub]
  linarith

/-- Example: independent streams of independent standard normals exist, one for every seed. -/
theorem exists_streams : ∃ ρ : Measure (ℕ → ℕ → ℝ), IsProbabilityMeasure ρ ∧
    (∀ s, StdNormals ρ fun k ω => ω s k) ∧ ∀ i j, i ≠ j → IndepFun (fun ω => ω i) (fun ω => ω j) ρ := by
  set ν : Measure (ℕ → ℝ) := Measure.infinitePi fun _ => gaussianReal 0 1 with hν
  set ρ : Measure (ℕ → ℕ → ℝ) := Measure.infinitePi fun _ => ν with hρ
  have h1 : ∀ s, ρ.map (fun ω => ω s) = ν := fun s => (measurePreserving_eval_infinitePi (fun _ : ℕ => ν) s).map_eq
  have hlaw : ∀ s k, ρ.map (fun ω => ω s k) = gaussianReal 0 1 := by
    intro s k
    have e : (fun ω : ℕ → ℕ → ℝ => ω s k) = (fun z : ℕ → ℝ => z k) ∘ fun ω => ω s := rfl
    rw [e, ← Measure.map_map (by fun_prop) (by fun_prop), h1]
    exact (measurePreserving_eval_infinitePi (fun _ : ℕ => gaussianReal 0 1) k).map_eq
  refine ⟨ρ, inferInstance, fun s => ⟨fun k => by fun_prop, hlaw s, ?_⟩, fun i j hij => ?_⟩
  · rw [iIndepFun_iff_map_fun_eq_infinitePi_map (fun k => by fun_prop)]
    simp only [hlaw]
    exact h1 s
  · exact (iIndepFun_infinitePi (X := fun _ x => x) (P := fun _ : ℕ => ν) fun _ => measurable_id).indepFun hij

/-- Example: the hypotheses of `C76_bachelier` and `C76_variance` are met, here by three paths of four steps. -/
example : ∃ (ρ : Measure (ℕ → ℕ → ℝ)) (env : (ℕ → ℕ → ℝ) → Env) (v : (ℕ → ℕ → ℝ) → ℝ), IsProbabilityMeasure ρ ∧
    (∀ ω, (McInstrument.vanilla 100 .call).price (generate (env ω) (arithmeticBrownianMotion (fun _ => 1) (fun _ => 20))
      ⟨100, 0, 1, 4, .eulerMaruyama, 3, false, some 5⟩ []) ⟨100, 0, 1, 4, .eulerMaruyama, 3, false, some 5⟩ (1 / 20)
        = some (v ω)) ∧
    ∫ ω, v ω ∂ρ = Bachelier.price ⟨101, 1 / 20, 20⟩ 100 1 .call ∧
    Var[v; ρ] = exp (-(1 / 20)) ^ 2 * Var[fun z => max (1 + 20 * z) 0; gaussianReal 0 1] / 3 := by
  obtain ⟨ρ, hρ, hZ, hind⟩ := exists_streams
  set c : Config := ⟨100, 0, 1, 4, .eulerMaruyama, 3, false, some 5⟩ with hcdef
  set env : (ℕ → ℕ → ℝ) → Env := fun ω => ⟨ω, 0, fun _ _ _ _ _ => [], fun _ _ _ _ => [], fun _ _ => [], fun _ _ => 0⟩
  have hs : c.parallel = true → ValidSched c [] := by simp [hcdef]
  have hT : ∀ ω, ∃ T, generate (env ω) (arithmeticBrownianMotion (fun _ => 1) (fun _ => 20)) c [] = some T := fun ω =>
    C49_total _ _ _ _ hs (by norm_num [hcdef]) (fun _ _ => by simp [arithmeticBrownianMotion])
      (fun _ _ => by simp [arithmeticBrownianMotion, assertNonneg])
  choose T hT using hT
  have hv := fun ω => C76_vanilla (env ω) _ c [] hs (T ω) (hT ω) (by norm_num [hcdef]) 100 (1 / 20) .call
  have hZ' : ∀ i < c.mPaths, StdNormals ρ fun k ω => (env ω).normals ((5 + i) % 2 ^ 64) k := fun i _ => hZ _
  have hind' : ∀ i < c.mPaths, ∀ j < c.mPaths, i ≠ j → IndepFun (fun ω => (env ω).normals ((5 + i) % 2 ^ 64))
      (fun ω => (env ω).normals ((5 + j) % 2 ^ 64)) ρ := fun i hi j hj hij => hind _ _ (by
    have : c.mPaths = 3 := rfl
    omega)
  refine ⟨ρ, env, _, hρ, hv, ?_, ?_⟩
  · rw [C76_bachelier ρ env 1 20 (1 / 20) 100 (by norm_num) c [] hs rfl (by norm_num [hcdef]) 5 rfl hZ' .call _ hv]
    norm_num [hcdef]
  · rw [C76_variance ρ env 1 20 (1 / 20) 100 (by norm_num) c [] hs rfl (by norm_num [hcdef]) 5 rfl hZ' hind' .call _ hv]
    simp only [Spec.gain, if_true, hcdef]
    norm_num
    congr 3
    funext z
    congr 1
    ring

/-- Example: the hypotheses of `C76_unscaled` are met by three paths of four steps of the Milstein scheme; the volatility
of the Bachelier price is twice that of the process. -/
example : ∃ (ρ : Measure (ℕ → ℕ → ℝ)) (env : (ℕ → ℕ → ℝ) → Env) (v : (ℕ → ℕ → ℝ) → ℝ), IsProbabilityMeasure ρ ∧
    (∀ ω, (McInstrument.vanilla 100 .call).price (generate (env ω) (arithmeticBrownianMotion (fun _ => 1) (fun _ => 20))
      ⟨100, 0, 1, 4, .milstein, 3, false, some 5⟩ []) ⟨100, 0, 1, 4, .milstein, 3, false, some 5⟩ (1 / 20)
        = some (v ω)) ∧
    ∫ ω, v ω ∂ρ = Bachelier.price ⟨101, 1 / 20, 20 * √4⟩ 100 1 .call := by
  obtain ⟨ρ, hρ, hZ, -⟩ := exists_streams
  set c : Config := ⟨100, 0, 1, 4, .milstein, 3, false, some 5⟩ with hcdef
  set env : (ℕ → ℕ → ℝ) → Env := fun ω => ⟨ω, 0, fun _ _ _ _ _ => [], fun _ _ _ _ => [], fun _ _ => [], fun _ _ => 0⟩
  have hs : c.parallel = true → ValidSched c [] := by simp [hcdef]
  have hT : ∀ ω, ∃ T, generate (env ω) (arithmeticBrownianMotion (fun _ => 1) (fun _ => 20)) c [] = some T := fun ω =>
    C49_total _ _ _ _ hs (by norm_num [hcdef]) (fun _ _ => by simp [arithmeticBrownianMotion])
      (fun _ _ => by simp [arithmeticBrownianMotion, assertNonneg])
  choose T hT using hT
  have hv := fun ω => C76_vanilla (env ω) _ c [] hs (T ω) (hT ω) (by norm_num [hcdef]) 100 (1 / 20) .call
  refine ⟨ρ, env, _, hρ, hv, ?_⟩
  rw [C76_unscaled ρ env 1 20 (1 / 20) 100 (by norm_num) c [] hs (by simp [hcdef]) (by norm_num [hcdef]) 5 rfl
    (fun i _ => hZ _) .call _ hv]
  norm_num [hcdef]

end Verif.Options
