import Verif.Stochastics.SimulationProps
import Mathlib.Probability.Distributions.Gaussian.Real
import Mathlib.Probability.Moments.Variance
import Mathlib.Probability.Independence.Integration
import Mathlib.Probability.Independence.InfinitePi

/-!
# C49: the distribution of simulated paths

The normals of a path are independent standard normal variables (`StdNormals`) on a probability space.
-/

namespace Verif.Stochastics

open MeasureTheory ProbabilityTheory

variable {Ω : Type} [MeasurableSpace Ω]

/-- `Z 0, Z 1, …` are independent standard normal random variables. -/
structure StdNormals (ρ : Measure Ω) (Z : ℕ → Ω → ℝ) : Prop where
  measurable : ∀ k, Measurable (Z k)
  law : ∀ k, ρ.map (Z k) = gaussianReal 0 1
  indep : iIndepFun Z ρ

theorem StdNormals.memLp {ρ : Measure Ω} {Z : ℕ → Ω → ℝ} (h : StdNormals ρ Z) (k : ℕ) : MemLp (Z k) 2 ρ := by
  have h1 : MemLp id 2 (ρ.map (Z k)) := by rw [h.law]; exact memLp_id_gaussianReal' 2 (by simp)
  exact (memLp_map_measure_iff (aestronglyMeasurable_id) (h.measurable k).aemeasurable).1 h1

theorem StdNormals.mean {ρ : Measure Ω} {Z : ℕ → Ω → ℝ} (h : StdNormals ρ Z) (k : ℕ) : ∫ ω, Z k ω ∂ρ = 0 := by
  have := integral_map (μ := ρ) (h.measurable k).aemeasurable (f := fun x : ℝ => x) (by fun_prop)
  rw [← this, h.law, integral_id_gaussianReal]

theorem StdNormals.variance {ρ : Measure Ω} {Z : ℕ → Ω → ℝ} (h : StdNormals ρ Z) (k : ℕ) : Var[Z k; ρ] = 1 := by
  have := variance_map (μ := ρ) (X := id) (Y := Z k) (by fun_prop) (h.measurable k).aemeasurable
  rw [h.law, variance_id_gaussianReal] at this
  simpa using this.symm

theorem StdNormals.affine {ρ : Measure Ω} [IsProbabilityMeasure ρ] {Z : ℕ → Ω → ℝ} (h : StdNormals ρ Z) (c : ℝ)
    (a : ℕ → ℝ) (n : ℕ) :
    ∫ ω, c + ∑ k ∈ Finset.range n, a k * Z k ω ∂ρ = c ∧
      Var[fun ω => c + ∑ k ∈ Finset.range n, a k * Z k ω; ρ] = ∑ k ∈ Finset.range n, a k ^ 2 := by
  have hL : ∀ k, MemLp (fun ω => a k * Z k ω) 2 ρ := fun k => (h.memLp k).const_mul (a k)
  have hI : ∀ k, Integrable (fun ω => a k * Z k ω) ρ := fun k => (hL k).integrable (by norm_num)
  constructor
  · rw [integral_add (integrable_const _) (integrable_finsetSum _ fun k _ => hI k), integral_const,
      integral_finsetSum _ fun k _ => hI k]
    simp [integral_const_mul, h.mean]
  · have hm : AEStronglyMeasurable (fun ω => ∑ k ∈ Finset.range n, a k * Z k ω) ρ :=
      (Finset.measurable_fun_sum _ fun k _ => (h.measurable k).const_mul _).aestronglyMeasurable
    rw [variance_const_add hm]
    have h1 := IndepFun.variance_sum (μ := ρ) (s := Finset.range n) (X := fun k ω => a k * Z k ω) (fun k _ => hL k)
      (fun i _ j _ hij => (h.indep.indepFun hij).comp (measurable_const_mul (a i)) (measurable_const_mul (a j)))
    have h2 : (∑ k ∈ Finset.range n, fun ω => a k * Z k ω) = fun ω => ∑ k ∈ Finset.range n, a k * Z k ω := by
      funext ω; simp
    rw [h2] at h1
    rw [h1]
    refine Finset.sum_congr rfl fun k _ => ?_
    rw [variance_const_mul, h.variance, mul_one]

/-- Example: independent standard normals exist. -/
theorem exists_stdNormals : ∃ ρ : Measure (ℕ → ℝ), IsProbabilityMeasure ρ ∧ StdNormals ρ fun k ω => ω k := by
  refine ⟨Measure.infinitePi fun _ => gaussianReal 0 1, inferInstance, fun k => measurable_pi_apply k, fun k => ?_, ?_⟩
  · exact (measurePreserving_eval_infinitePi (fun _ : ℕ => gaussianReal 0 1) k).map_eq
  · exact iIndepFun_infinitePi (X := fun _ x => x) (P := fun _ : ℕ => gaussianReal 0 1) fun _ => measurable_id

/-- C49: the terminal value of an arithmetic Brownian motion simulated by Euler-Maruyama has mean `x0 + μT` and variance
`σ²T`, as it must, for every number of steps. -/
theorem C49_euler_moments (ρ : Measure Ω) [IsProbabilityMeasure ρ] (env : Ω → Env) (mu sigma : ℝ) (hsig : 0 ≤ sigma)
    (c : Config) (sched : List ℕ) (hs : c.parallel = true → ValidSched c sched) (hc : c.scheme = .eulerMaruyama)
    (hn : 0 < c.nSteps) (s i : ℕ) (hseed : c.seed = some s) (hi : i < c.mPaths)
    (hZ : StdNormals ρ fun k ω => (env ω).normals ((s + i) % 2 ^ 64) k) (T : Ω → Trajectories)
    (h : ∀ ω, generate (env ω) (arithmeticBrownianMotion (fun _ => mu) (fun _ => sigma)) c sched = some (T ω)) :
    ∫ ω, (T ω).val i c.nSteps ∂ρ = c.x0 + mu * (c.tn - c.t0) ∧
      Var[fun ω => (T ω).val i c.nSteps; ρ] = sigma ^ 2 * (c.tn - c.t0) := by
  have hn' : (0:ℝ) < c.nSteps := by exact_mod_cast hn
  have ht : c.t0 < c.tn := by
    obtain ⟨ω⟩ : Nonempty Ω := nonempty_of_isProbabilityMeasure ρ
    exact (simulate_val hs (h ω)).1
  have hdt : 0 ≤ (c.tn - c.t0) / c.nSteps := div_nonneg (by linarith) hn'.le
  have key : ∀ ω t, t ≤ c.nSteps → (T ω).val i t = c.x0 + mu * ((c.tn - c.t0) / c.nSteps) * t +
      ∑ k ∈ Finset.range t, sigma * √((c.tn - c.t0) / c.nSteps) * (env ω).normals ((s + i) % 2 ^ 64) k := by
    intro ω t
    induction t with
    | zero => intro _; simp [((simulate_val hs (h ω)).2.choose_spec.2 i hi).1]
    | succ t ih =>
      intro ht
      obtain ⟨a, b, ha, hb, h1⟩ := C49_euler (env ω) _ c sched hs hc s hseed (T ω) (h ω) i hi t (by omega)
      simp only [arithmeticBrownianMotion, assertNonneg, hsig, if_true, Option.some.injEq] at ha hb
      rw [h1, ih (by omega), ← ha, ← hb, Finset.sum_range_succ]
      push_cast; ring
  have hf : (fun ω => (T ω).val i c.nSteps) = fun ω => (c.x0 + mu * ((c.tn - c.t0) / c.nSteps) * c.nSteps) +
      ∑ k ∈ Finset.range c.nSteps, sigma * √((c.tn - c.t0) / c.nSteps) * (env ω).normals ((s + i) % 2 ^ 64) k :=
    funext fun ω => key ω _ le_rfl
  obtain ⟨h1, h2⟩ := hZ.affine (c.x0 + mu * ((c.tn - c.t0) / c.nSteps) * c.nSteps)
    (fun _ => sigma * √((c.tn - c.t0) / c.nSteps)) c.nSteps
  rw [hf]
  refine ⟨?_, ?_⟩
  · rw [h1]; field_simp
  · rw [h2, Finset.sum_const, Finset.card_range, nsmul_eq_mul, mul_pow, Real.sq_sqrt hdt]
    field_simp

/-- C49 (defect): under Milstein and Strang splitting the same terminal value has variance `nσ²`: it depends on the
number of steps and not on the time simulated. -/
theorem C49_unscaled_variance (ρ : Measure Ω) [IsProbabilityMeasure ρ] (env : Ω → Env) (mu sigma : ℝ) (hsig : 0 ≤ sigma)
    (c : Config) (sched : List ℕ) (hs : c.parallel = true → ValidSched c sched)
    (hc : c.scheme = .milstein ∨ c.scheme = .strangSplitting)
    (s i : ℕ) (hseed : c.seed = some s) (hi : i < c.mPaths)
    (hZ : StdNormals ρ fun k ω => (env ω).normals ((s + i) % 2 ^ 64) k) (T : Ω → Trajectories)
    (h : ∀ ω, generate (env ω) (arithmeticBrownianMotion (fun _ => mu) (fun _ => sigma)) c sched = some (T ω)) :
    Var[fun ω => (T ω).val i c.nSteps; ρ] = c.nSteps * sigma ^ 2 := by
  have key : ∀ ω t, t ≤ c.nSteps → (T ω).val i t = c.x0 + mu * ((c.tn - c.t0) / c.nSteps) * t +
      ∑ k ∈ Finset.range t, sigma * (env ω).normals ((s + i) % 2 ^ 64) k := by
    intro ω t
    induction t with
    | zero => intro _; simp [((simulate_val hs (h ω)).2.choose_spec.2 i hi).1]
    | succ t ih =>
      intro ht
      rw [C49_unscaled_noise (env ω) mu sigma hsig c sched hs hc s hseed (T ω) (h ω) i hi t (by omega), ih (by omega),
        Finset.sum_range_succ]
      push_cast; ring
  have hf : (fun ω => (T ω).val i c.nSteps) = fun ω => (c.x0 + mu * ((c.tn - c.t0) / c.nSteps) * c.nSteps) +
      ∑ k ∈ Finset.range c.nSteps, sigma * (env ω).normals ((s + i) % 2 ^ 64) k :=
    funext fun ω => key ω _ le_rfl
  rw [hf, (hZ.affine _ (fun _ => sigma) c.nSteps).2, Finset.sum_const, Finset.card_range, nsmul_eq_mul]

/-- C49: the mean of a geometric Brownian motion simulated by Euler-Maruyama is `x0 (1 + μ T/n)^n`, the discretely
compounded growth, whatever the volatility. -/
theorem C49_gbm_mean (ρ : Measure Ω) [IsProbabilityMeasure ρ] (env : Ω → Env) (mu sigma : ℝ) (hsig : 0 ≤ sigma)
    (c : Config) (sched : List ℕ) (hs : c.parallel = true → ValidSched c sched) (hc : c.scheme = .eulerMaruyama)
    (s i : ℕ) (hseed : c.seed = some s) (hi : i < c.mPaths)
    (hZ : StdNormals ρ fun k ω => (env ω).normals ((s + i) % 2 ^ 64) k) (T : Ω → Trajectories)
    (h : ∀ ω, generate (env ω) (geometricBrownianMotion (fun _ => mu) (fun _ => sigma)) c sched = some (T ω)) :
    ∫ ω, (T ω).val i c.nSteps ∂ρ = c.x0 * (1 + mu * ((c.tn - c.t0) / c.nSteps)) ^ c.nSteps := by
  set dt := (c.tn - c.t0) / c.nSteps with hdt
  have key : ∀ ω t, t ≤ c.nSteps → (T ω).val i t = c.x0 *
      ∏ k ∈ Finset.range t, (1 + mu * dt + sigma * √dt * (env ω).normals ((s + i) % 2 ^ 64) k) := by
    intro ω t
    induction t with
    | zero => intro _; simp [((simulate_val hs (h ω)).2.choose_spec.2 i hi).1]
    | succ t ih =>
      intro ht
      obtain ⟨a, b, ha, hb, h1⟩ := C49_euler (env ω) _ c sched hs hc s hseed (T ω) (h ω) i hi t (by omega)
      simp only [geometricBrownianMotion, assertNonneg, hsig, if_true, Option.some.injEq] at ha hb
      rw [h1, ← ha, ← hb, ih (by omega), Finset.prod_range_succ]
      ring
  have hf : (fun ω => (T ω).val i c.nSteps) = fun ω => c.x0 *
      ∏ k : Fin c.nSteps, (1 + mu * dt + sigma * √dt * (env ω).normals ((s + i) % 2 ^ 64) k) := by
    funext ω
    rw [key ω _ le_rfl]
    congr 1
    exact (Fin.prod_univ_eq_prod_range (fun k => 1 + mu * dt + sigma * √dt * (env ω).normals ((s + i) % 2 ^ 64) k) _).symm
  have hind : iIndepFun (fun (k : Fin c.nSteps) ω => (env ω).normals ((s + i) % 2 ^ 64) k) ρ :=
    hZ.indep.precomp Fin.val_injective
  rw [hf, integral_const_mul, hind.integral_fun_prod_comp (f := fun _ z => 1 + mu * dt + sigma * √dt * z)
    (fun k => (hZ.measurable k).aemeasurable) (fun k => by fun_prop)]
  have : ∀ k : Fin c.nSteps, ∫ ω, 1 + mu * dt + sigma * √dt * (env ω).normals ((s + i) % 2 ^ 64) k ∂ρ = 1 + mu * dt := by
    intro k
    rw [integral_add (integrable_const _) (((hZ.memLp k).integrable (by norm_num)).const_mul _), integral_const,
      integral_const_mul, hZ.mean k]
    simp
  rw [Finset.prod_congr rfl fun k _ => this k, Finset.prod_const, Finset.card_univ, Fintype.card_fin]

/-! ### Fractional noise -/

theorem sum_acf_succ (hurst : ℝ) (h0 : 0 < hurst) (n : ℕ) :
    2 * ∑ k ∈ Finset.range n, acf hurst (k + 1) = ((n:ℝ) + 1) ^ (2 * hurst) - (n:ℝ) ^ (2 * hurst) - 1 := by
  induction n with
  | zero => simp [Real.zero_rpow (by positivity : 2 * hurst ≠ 0)]
  | succ n ih =>
    rw [Finset.sum_range_succ, mul_add, ih, acf, if_neg (Nat.succ_ne_zero n)]
    push_cast
    rw [add_sub_cancel_right]
    ring

/-- C49: the autocovariances of the fractional noise are those of fractional Brownian motion: those of `n` unit steps
add up to `n^{2H}`. -/
theorem C49_acf_sum (hurst : ℝ) (h0 : 0 < hurst) (n : ℕ) :
    ∑ i ∈ Finset.range n, ∑ j ∈ Finset.range n, acf hurst (max i j - min i j) = (n:ℝ) ^ (2 * hurst) := by
  induction n with
  | zero => simp [Real.zero_rpow (by positivity : 2 * hurst ≠ 0)]
  | succ n ih =>
    have hrow : ∑ i ∈ Finset.range n, acf hurst (max i n - min i n) = ∑ k ∈ Finset.range n, acf hurst (k + 1) := by
      rw [← Finset.sum_range_reflect]
      refine Finset.sum_congr rfl fun i hi => ?_
      have := Finset.mem_range.1 hi
      congr 1
      omega
    have hcol : ∑ j ∈ Finset.range n, acf hurst (max n j - min n j) = ∑ k ∈ Finset.range n, acf hurst (k + 1) := by
      rw [← hrow]
      exact Finset.sum_congr rfl fun j _ => by rw [max_comm, min_comm]
    have hs := sum_acf_succ hurst h0 n
    simp only [Finset.sum_range_succ, Finset.sum_add_distrib, ih, hrow, hcol, max_self, min_self, Nat.sub_self]
    have h00 : acf hurst 0 = 1 := by simp [acf]
    rw [h00]
    push_cast
    linarith

/-- C49: if `L` is a square root of the autocovariance matrix, the fractional noise over `n` steps adds up to a variable
of variance `T^{2H}`, the variance of fractional Brownian motion at `T`; the Brownian case `H = 1/2` gives `T`. -/
theorem C49_fractional_variance (ρ : Measure Ω) [IsProbabilityMeasure ρ] (Z : ℕ → Ω → ℝ) (hZ : StdNormals ρ Z)
    (hurst tn : ℝ) (h0 : 0 < hurst) (ht : 0 ≤ tn) (n : ℕ) (hn : 0 < n) (L : ℕ → ℕ → ℝ)
    (hL : ∀ i < n, ∀ j < n, ∑ k ∈ Finset.range n, L i k * L j k = acf hurst (max i j - min i j)) :
    Var[fun ω => ∑ t ∈ Finset.range n, fgnCholesky L hurst n tn (fun k => Z k ω) t; ρ] = tn ^ (2 * hurst) := by
  have hn' : (0:ℝ) < n := by exact_mod_cast hn
  have hf : (fun ω => ∑ t ∈ Finset.range n, fgnCholesky L hurst n tn (fun k => Z k ω) t) =
      fun ω => 0 + ∑ k ∈ Finset.range n, ((∑ t ∈ Finset.range n, L t k) * (1 * tn / n) ^ hurst) * Z k ω := by
    funext ω
    simp only [fgnCholesky, zero_add, ← Finset.sum_mul]
    rw [Finset.sum_comm, Finset.sum_mul]
    refine Finset.sum_congr rfl fun k _ => ?_
    rw [← Finset.sum_mul]; ring
  rw [hf, (hZ.affine 0 _ n).2]
  have h1 : ∑ k ∈ Finset.range n, (∑ t ∈ Finset.range n, L t k) ^ 2 = (n:ℝ) ^ (2 * hurst) := by
    rw [← C49_acf_sum hurst h0 n]
    simp only [sq, Finset.sum_mul_sum]
    rw [Finset.sum_comm]
    refine Finset.sum_congr rfl fun i hi => ?_
    rw [Finset.sum_comm]
    exact Finset.sum_congr rfl fun j hj => hL i (Finset.mem_range.1 hi) j (Finset.mem_range.1 hj)
  simp only [mul_pow, ← Finset.sum_mul]
  rw [h1, one_mul, Real.div_rpow ht hn'.le, div_pow, ← Real.rpow_natCast, ← Real.rpow_mul ht, ← Real.rpow_natCast,
    ← Real.rpow_mul hn'.le]
  have : (n:ℝ) ^ (2 * hurst) ≠ 0 := by positivity
  rw [show hurst * ((2:ℕ):ℝ) = 2 * hurst by push_cast; ring]
  field_simp

/-- Example: one step, `L = 1`. -/
example (hurst : ℝ) : ∀ i < 1, ∀ j < 1, ∑ k ∈ Finset.range 1, (fun _ _ => (1:ℝ)) i k * (fun _ _ => (1:ℝ)) j k =
    acf hurst (max i j - min i j) := by
  intro i hi j hj
  obtain rfl : i = 0 := by omega
  obtain rfl : j = 0 := by omega
  simp [acf]

/-- Example: `H = 1/2` (uncorrelated steps), two steps, `L` the identity. -/
example : ∀ i < 2, ∀ j < 2, ∑ k ∈ Finset.range 2, (fun a b => if a = b then (1:ℝ) else 0) i k *
    (fun a b => if a = b then (1:ℝ) else 0) j k = acf (1 / 2) (max i j - min i j) := by
  intro i hi j hj
  have hi' : i = 0 ∨ i = 1 := by omega
  have hj' : j = 0 ∨ j = 1 := by omega
  rcases hi' with rfl | rfl <;> rcases hj' with rfl | rfl <;> simp [acf] <;> norm_num

/-- Example: normals and runs meeting the hypotheses of the moments: the generator of every seed reads the same
sequence of independent normals. -/
example : ∃ (ρ : Measure (ℕ → ℝ)) (T : (ℕ → ℝ) → Trajectories), IsProbabilityMeasure ρ ∧
    ∫ ω, (T ω).val 1 4 ∂ρ = 13 ∧ Var[fun ω => (T ω).val 1 4; ρ] = 4 := by
  obtain ⟨ρ, hρ, hZ⟩ := exists_stdNormals
  have h : ∀ ω : ℕ → ℝ, ∃ T, generate ⟨fun _ => ω, 0, fun _ _ _ _ _ => [], fun _ _ _ _ => [], fun _ _ => [], fun _ _ => 0⟩
      (arithmeticBrownianMotion (fun _ => 3) (fun _ => 2)) ⟨10, 0, 1, 4, .eulerMaruyama, 2, false, some 5⟩ [] = some T :=
    fun ω => C49_total _ _ _ _ (by simp) (by norm_num) (fun _ _ => by simp [arithmeticBrownianMotion])
      (fun _ _ => by simp [arithmeticBrownianMotion, assertNonneg])
  choose T hT using h
  have := C49_euler_moments ρ _ 3 2 (by norm_num) _ [] (by simp) rfl (by norm_num) 5 1 rfl (by norm_num) hZ T hT
  norm_num at this
  exact ⟨ρ, T, hρ, this⟩

example : ∃ (ρ : Measure (ℕ → ℝ)) (T : (ℕ → ℝ) → Trajectories), IsProbabilityMeasure ρ ∧
    Var[fun ω => (T ω).val 1 4; ρ] = 16 := by
  obtain ⟨ρ, hρ, hZ⟩ := exists_stdNormals
  have h : ∀ ω : ℕ → ℝ, ∃ T, generate ⟨fun _ => ω, 0, fun _ _ _ _ _ => [], fun _ _ _ _ => [], fun _ _ => [], fun _ _ => 0⟩
      (arithmeticBrownianMotion (fun _ => 3) (fun _ => 2)) ⟨10, 0, 1, 4, .strangSplitting, 2, false, some 5⟩ [] = some T :=
    fun ω => C49_total _ _ _ _ (by simp) (by norm_num) (fun _ _ => by simp [arithmeticBrownianMotion])
      (fun _ _ => by simp [arithmeticBrownianMotion, assertNonneg])
  choose T hT using h
  have := C49_unscaled_variance ρ _ 3 2 (by norm_num) _ [] (by simp) (Or.inr rfl) 5 1 rfl (by norm_num) hZ T hT
  norm_num at this
  exact ⟨ρ, T, hρ, this⟩

example : ∃ (ρ : Measure (ℕ → ℝ)) (T : (ℕ → ℝ) → Trajectories), IsProbabilityMeasure ρ ∧
    ∫ ω, (T ω).val 1 2 ∂ρ = 110.25 := by
  obtain ⟨ρ, hρ, hZ⟩ := exists_stdNormals
  choose T hT using fun ω : ℕ → ℝ => demo_gbm
    ⟨fun _ => ω, 0, fun _ _ _ _ _ => [], fun _ _ _ _ => [], fun _ _ => [], fun _ _ => 0⟩ (1 / 10) (1 / 5) (by norm_num) 2 2
    .eulerMaruyama (some 5)
  have := C49_gbm_mean ρ _ (1 / 10) (1 / 5) (by norm_num) _ [] (by simp) rfl 5 1 rfl (by norm_num) hZ T hT
  norm_num at this ⊢
  exact ⟨ρ, hρ, T, this⟩

example := C49_acf_sum (3 / 4) (by norm_num) 5

end Verif.Stochastics
