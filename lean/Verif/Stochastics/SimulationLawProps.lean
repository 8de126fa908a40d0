import Verif.Options.LongstaffSchwartzLaw
import Mathlib.Analysis.Calculus.MeanValue

/-!
# C49: laws of simulated linear processes, and the error of noiseless simulations
-/

namespace Verif.Stochastics

open MeasureTheory ProbabilityTheory

/-! ### Simulation without noise -/

/-- C49: without noise the simulated path follows the solution `y` of `y' = f(y, t)`: if `f` changes by at most `L` per unit of the
state and the slope of the solution by at most `M` per unit of time, every point of the path is within `M T e^{LT} dt` of it. -/
theorem C49_ode_error (env : Env) (P : Process) (f : ℝ → ℝ → ℝ) (hf : ∀ x t, P.drift x t = some (f x t))
    (h0 : ∀ x t, P.diffusion x t = some 0) (c : Config) (sched : List ℕ)
    (hs : c.parallel = true → ValidSched c sched) (hc : c.scheme = .eulerMaruyama)
    (T : Trajectories) (h : generate env P c sched = some T) (i : ℕ) (hi : i < c.mPaths)
    (y : ℝ → ℝ) (hy0 : y c.t0 = c.x0) (hy : ∀ t ∈ Set.Icc c.t0 c.tn, HasDerivAt y (f (y t) t) t) (L M : ℝ)
    (hL : ∀ x x' t, t ∈ Set.Icc c.t0 c.tn → |f x t - f x' t| ≤ L * |x - x'|)
    (hM : ∀ t ∈ Set.Icc c.t0 c.tn, ∀ t' ∈ Set.Icc c.t0 c.tn, |f (y t) t - f (y t') t'| ≤ M * |t - t'|) (k : ℕ) (hk : k ≤ c.nSteps) :
    |T.val i k - y (c.t0 + (c.tn - c.t0) / c.nSteps * k)| ≤
      M * (c.tn - c.t0) * Real.exp (L * (c.tn - c.t0)) * ((c.tn - c.t0) / c.nSteps) := by
  obtain ⟨e0, e1⟩ := C49_ode env P f hf h0 c sched hs hc T h i hi
  have ht : c.t0 < c.tn := (simulate_val hs h).1
  have hmem : c.t0 ∈ Set.Icc c.t0 c.tn := ⟨le_rfl, ht.le⟩
  have hmem' : c.tn ∈ Set.Icc c.t0 c.tn := ⟨ht.le, le_rfl⟩
  have hL0 : 0 ≤ L := by
    have := (abs_nonneg _).trans (hL 1 0 c.t0 hmem)
    simpa using this
  have hM0 : 0 ≤ M := by
    have := (abs_nonneg _).trans (hM _ hmem' _ hmem)
    rw [abs_of_pos (sub_pos.2 ht)] at this
    exact nonneg_of_mul_nonneg_left this (sub_pos.2 ht)
  rcases Nat.eq_zero_or_pos c.nSteps with hn | hn
  · obtain rfl : k = 0 := by omega
    simp [hn, e0, hy0]
  have hn' : (0:ℝ) < c.nSteps := by exact_mod_cast hn
  set dt := (c.tn - c.t0) / c.nSteps with hdt
  have hdt0 : 0 < dt := div_pos (sub_pos.2 ht) hn'
  have hdtn : dt * c.nSteps = c.tn - c.t0 := by rw [hdt]; field_simp
  have hin : ∀ j : ℕ, j ≤ c.nSteps → c.t0 + dt * j ∈ Set.Icc c.t0 c.tn := by
    intro j hj
    have : (j:ℝ) ≤ c.nSteps := by exact_mod_cast hj
    have := mul_le_mul_of_nonneg_left this hdt0.le
    exact ⟨by have : 0 ≤ dt * j := by positivity
              linarith, by linarith⟩
  have hlocal : ∀ j : ℕ, j < c.nSteps →
      |y (c.t0 + dt * (j + 1)) - (y (c.t0 + dt * j) + f (y (c.t0 + dt * j)) (c.t0 + dt * j) * dt)| ≤ M * dt ^ 2 := by
    intro j hj
    set a := c.t0 + dt * j with ha
    have hb : c.t0 + dt * ((j:ℝ) + 1) = a + dt := by rw [ha]; ring
    have ha' := hin j hj.le
    have hb' := hin (j + 1) hj
    push_cast at hb'
    rw [hb] at hb' ⊢
    have hsub : Set.Icc a (a + dt) ⊆ Set.Icc c.t0 c.tn := Set.Icc_subset_Icc ha'.1 hb'.2
    have := Convex.norm_image_sub_le_of_norm_hasDerivWithin_le (f := fun t => y t - f (y a) a * t)
      (f' := fun t => f (y t) t - f (y a) a * 1) (s := Set.Icc a (a + dt)) (x := a) (y := a + dt) (C := M * dt)
      (fun t htm => ((hy t (hsub htm)).sub ((hasDerivAt_id t).const_mul _)).hasDerivWithinAt)
      (fun t htm => by
        rw [Real.norm_eq_abs, mul_one]
        refine (hM t (hsub htm) a ha').trans (mul_le_mul_of_nonneg_left ?_ hM0)
        rw [abs_of_nonneg (by linarith [htm.1])]
        linarith [htm.2])
      (convex_Icc _ _) ⟨le_rfl, by linarith⟩ ⟨by linarith, le_rfl⟩
    simp only [Real.norm_eq_abs, add_sub_cancel_left, abs_of_pos hdt0] at this
    calc |y (a + dt) - (y a + f (y a) a * dt)| = |y (a + dt) - f (y a) a * (a + dt) - (y a - f (y a) a * a)| := by congr 1; ring
      _ ≤ M * dt * dt := this
      _ = M * dt ^ 2 := by ring
  have key : ∀ j : ℕ, j ≤ c.nSteps → |T.val i j - y (c.t0 + dt * j)| ≤ j * (M * dt ^ 2) * (1 + L * dt) ^ j := by
    intro j
    induction j with
    | zero => intro _; simp [e0, hy0]
    | succ j ih =>
      intro hj
      have ih := ih (by omega)
      have h1 := hlocal j (by omega)
      have h2 := hL (T.val i j) (y (c.t0 + dt * j)) _ (hin j (by omega))
      have hq : 1 ≤ (1 + L * dt) ^ (j + 1) := one_le_pow₀ (by nlinarith [mul_nonneg hL0 hdt0.le])
      have hMd : 0 ≤ M * dt ^ 2 := by positivity
      rw [e1 j (by omega)]
      push_cast
      have e3 : T.val i j + f (T.val i j) (c.t0 + dt * j) * dt - y (c.t0 + dt * (j + 1)) =
          (T.val i j - y (c.t0 + dt * j)) + (f (T.val i j) (c.t0 + dt * j) - f (y (c.t0 + dt * j)) (c.t0 + dt * j)) * dt -
          (y (c.t0 + dt * (j + 1)) - (y (c.t0 + dt * j) + f (y (c.t0 + dt * j)) (c.t0 + dt * j) * dt)) := by ring
      rw [e3]
      refine (abs_sub _ _).trans ?_
      have h3 : |(T.val i j - y (c.t0 + dt * j)) + (f (T.val i j) (c.t0 + dt * j) - f (y (c.t0 + dt * j)) (c.t0 + dt * j)) * dt| ≤
          (1 + L * dt) * |T.val i j - y (c.t0 + dt * j)| := by
        refine (abs_add_le _ _).trans ?_
        rw [abs_mul, abs_of_pos hdt0]
        nlinarith [mul_le_mul_of_nonneg_right h2 hdt0.le]
      have h4 : (1 + L * dt) * |T.val i j - y (c.t0 + dt * j)| ≤ (1 + L * dt) * (j * (M * dt ^ 2) * (1 + L * dt) ^ j) :=
        mul_le_mul_of_nonneg_left ih (by positivity)
      have h5 : M * dt ^ 2 ≤ M * dt ^ 2 * (1 + L * dt) ^ (j + 1) := le_mul_of_one_le_right hMd hq
      calc _ ≤ (1 + L * dt) * (j * (M * dt ^ 2) * (1 + L * dt) ^ j) + M * dt ^ 2 * (1 + L * dt) ^ (j + 1) :=
            add_le_add (h3.trans h4) (h1.trans h5)
        _ = _ := by rw [pow_succ]; ring
  refine (key k hk).trans ?_
  have hkn : (k:ℝ) ≤ c.nSteps := by exact_mod_cast hk
  have h6 : (1 + L * dt) ^ k ≤ Real.exp (L * (c.tn - c.t0)) := by
    have h7 : 1 + L * dt ≤ Real.exp (L * dt) := by linarith [Real.add_one_le_exp (L * dt)]
    refine (pow_le_pow_left₀ (by positivity) h7 k).trans ?_
    rw [← Real.exp_nat_mul]
    apply Real.exp_le_exp.2
    rw [← hdtn]
    nlinarith [mul_le_mul_of_nonneg_right hkn (mul_nonneg hL0 hdt0.le)]
  calc (k:ℝ) * (M * dt ^ 2) * (1 + L * dt) ^ k ≤ c.nSteps * (M * dt ^ 2) * Real.exp (L * (c.tn - c.t0)) := by
        apply mul_le_mul (mul_le_mul_of_nonneg_right hkn (by positivity)) h6 (by positivity) (by positivity)
    _ = M * (c.tn - c.t0) * Real.exp (L * (c.tn - c.t0)) * dt := by rw [← hdtn]; ring

/-- Example: the noiseless Ornstein-Uhlenbeck process with mean 0 and speed 1 from 1 follows `e^{-t}`. -/
example (env : Env) (c : Config) (hx : c.x0 = 1) (h00 : c.t0 = 0) (hp : c.parallel = false) (hc : c.scheme = .eulerMaruyama)
    (T : Trajectories)
    (h : generate env (ornsteinUhlenbeck (fun _ => 0) (fun _ => 0) (fun _ => 1)) c [] = some T) (i : ℕ) (hi : i < c.mPaths) (k : ℕ)
    (hk : k ≤ c.nSteps) :
    |T.val i k - Real.exp (-(c.tn / c.nSteps * k))| ≤ c.tn * Real.exp c.tn * (c.tn / c.nSteps) := by
  have := C49_ode_error env _ (fun x _ => 1 * (0 - x)) (fun _ _ => rfl) (fun _ _ => by simp [ornsteinUhlenbeck, assertNonneg]) c []
    (by simp [hp]) hc T h i hi (fun t => Real.exp (-t)) (by simp [h00, hx])
    (fun t _ => by simpa using (hasDerivAt_neg t).exp) 1 1 (fun x x' t _ => by
      rw [show 1 * (0 - x) - 1 * (0 - x') = -(x - x') by ring, abs_neg, one_mul])
    (fun t ht t' ht' => by
      rw [show 1 * (0 - Real.exp (-t)) - 1 * (0 - Real.exp (-t')) = Real.exp (-t') - Real.exp (-t) by ring, one_mul]
      have key : ∀ a b : ℝ, 0 ≤ a → a ≤ b → |Real.exp (-a) - Real.exp (-b)| ≤ b - a := by
        intro a b h0 hab
        have h1 : Real.exp (-b) ≤ Real.exp (-a) := Real.exp_le_exp.2 (by linarith)
        rw [abs_of_nonneg (by linarith)]
        have h2 : Real.exp (-b) = Real.exp (-a) * Real.exp (-(b - a)) := by rw [← Real.exp_add]; congr 1; ring
        have h3 := Real.add_one_le_exp (-(b - a))
        have h4 : Real.exp (-a) ≤ 1 := Real.exp_le_one_iff.2 (by linarith)
        have h5 := Real.exp_pos (-a)
        rw [h2]
        nlinarith
      rw [h00] at ht ht'
      rcases le_total t t' with hle | hle
      · rw [abs_sub_comm, abs_sub_comm t t', abs_of_nonneg (sub_nonneg.2 hle)]; exact key t t' ht.1 hle
      · rw [abs_of_nonneg (sub_nonneg.2 hle)]; exact key t' t ht'.1 hle) k hk
  simpa [h00] using this

/-! ### Linear processes -/

variable {Ω : Type} [MeasurableSpace Ω]

/-- The Euler scheme for the mean: `m' = a(t) + b(t) m`. -/
noncomputable def eulerMean (a b : ℝ → ℝ) (t0 dt x0 : ℝ) : ℕ → ℝ
  | 0 => x0
  | k + 1 => eulerMean a b t0 dt x0 k + (a (t0 + dt * k) + b (t0 + dt * k) * eulerMean a b t0 dt x0 k) * dt

/-- The variance: a step multiplies the deviation by `1 + b dt` and adds independent noise of variance `σ² dt`. -/
noncomputable def eulerVariance (b sigma : ℝ → ℝ) (t0 dt : ℝ) : ℕ → ℝ
  | 0 => 0
  | k + 1 => (1 + b (t0 + dt * k) * dt) ^ 2 * eulerVariance b sigma t0 dt k + sigma (t0 + dt * k) ^ 2 * dt

/-- C49: if the drift is `a(t) + b(t) x` and the diffusion `σ(t)` (Brownian motion, arithmetic Brownian motion, Ornstein-Uhlenbeck,
Ho-Lee, Hull-White, extended Vasicek and, given its volatility slope, Black-Derman-Toy) and the normals are independent, every point of
an Euler-Maruyama path is normal, with the mean and variance of the scheme. -/
theorem C49_gaussian_law (ρ : Measure Ω) [IsProbabilityMeasure ρ] (env : Ω → Env) (P : Process) (a b sigma : ℝ → ℝ)
    (hd : ∀ x t v, P.drift x t = some v → v = a t + b t * x) (hb : ∀ x t v, P.diffusion x t = some v → v = sigma t)
    (c : Config) (sched : List ℕ) (hs : c.parallel = true → ValidSched c sched) (hc : c.scheme = .eulerMaruyama)
    (s i : ℕ) (hseed : c.seed = some s) (hi : i < c.mPaths)
    (hZ : StdNormals ρ fun k ω => (env ω).normals ((s + i) % 2 ^ 64) k) (T : Ω → Trajectories)
    (h : ∀ ω, generate (env ω) P c sched = some (T ω)) (k : ℕ) (hk : k ≤ c.nSteps) :
    ρ.map (fun ω => (T ω).val i k) = gaussianReal (eulerMean a b c.t0 ((c.tn - c.t0) / c.nSteps) c.x0 k)
      (eulerVariance b sigma c.t0 ((c.tn - c.t0) / c.nSteps) k).toNNReal := by
  have ht : c.t0 < c.tn := by
    obtain ⟨ω⟩ : Nonempty Ω := nonempty_of_isProbabilityMeasure ρ
    exact (simulate_val hs (h ω)).1
  set dt := (c.tn - c.t0) / c.nSteps with hdt
  have hdt0 : 0 ≤ dt := div_nonneg (by linarith) (by positivity)
  have key : ∀ k, k ≤ c.nSteps → ∃ w : ℕ → ℝ, (∀ ω, (T ω).val i k = eulerMean a b c.t0 dt c.x0 k +
      ∑ j ∈ Finset.range k, w j * (env ω).normals ((s + i) % 2 ^ 64) j) ∧
      ∑ j ∈ Finset.range k, w j ^ 2 = eulerVariance b sigma c.t0 dt k := by
    intro k
    induction k with
    | zero => intro _; exact ⟨fun _ => 0, fun ω => by simp [((simulate_val hs (h ω)).2.choose_spec.2 i hi).1, eulerMean],
        by simp [eulerVariance]⟩
    | succ k ih =>
      intro hk
      obtain ⟨w, h1, h2⟩ := ih (by omega)
      refine ⟨fun j => if j < k then (1 + b (c.t0 + dt * k) * dt) * w j else sigma (c.t0 + dt * k) * √dt, fun ω => ?_, ?_⟩
      · obtain ⟨u, v, hu, hv, h3⟩ := C49_euler (env ω) P c sched hs hc s hseed (T ω) (h ω) i hi k (by omega)
        have htime : (T ω).times.getD k 0 = c.t0 + dt * k := by
          obtain ⟨-, -, -, h4, -, h5, -⟩ := C49_shape (env ω) P c none none sched hs (T ω) (h ω)
          have : ∀ j, j ≤ c.nSteps → (T ω).times.getD j 0 = c.t0 + dt * j := by
            intro j
            induction j with
            | zero => intro _; simp [List.getD, ← List.head?_eq_getElem?, h4]
            | succ j ih => intro hj; have h6 := h5 j (by omega); rw [ih (by omega)] at h6; push_cast; linarith
          exact this k (by omega)
        rw [htime] at hu hv
        rw [h3, hd _ _ _ hu, hb _ _ _ hv, Finset.sum_range_succ, h1 ω, eulerMean]
        have e : ∑ j ∈ Finset.range k, (if j < k then (1 + b (c.t0 + dt * k) * dt) * w j else sigma (c.t0 + dt * k) * √dt) *
            (env ω).normals ((s + i) % 2 ^ 64) j =
            (1 + b (c.t0 + dt * k) * dt) * ∑ j ∈ Finset.range k, w j * (env ω).normals ((s + i) % 2 ^ 64) j := by
          rw [Finset.mul_sum]
          refine Finset.sum_congr rfl fun j hj => ?_
          rw [if_pos (Finset.mem_range.1 hj)]; ring
        simp only [lt_irrefl, if_false]
        rw [e]
        ring
      · rw [Finset.sum_range_succ, eulerVariance, ← h2, Finset.mul_sum]
        simp only [lt_irrefl, if_false]
        rw [mul_pow, Real.sq_sqrt hdt0]
        congr 1
        refine Finset.sum_congr rfl fun j hj => ?_
        rw [if_pos (Finset.mem_range.1 hj)]; ring
  obtain ⟨w, h1, h2⟩ := key k hk
  simp only [h1]
  rw [Options.law_affine hZ, h2]

/-- The mean of the scheme with constant coefficients. -/
theorem eulerMean_const (mu theta t0 dt x0 : ℝ) (k : ℕ) :
    eulerMean (fun _ => theta * mu) (fun _ => -theta) t0 dt x0 k = mu + (x0 - mu) * (1 - theta * dt) ^ k := by
  induction k with
  | zero => simp [eulerMean]
  | succ k ih => rw [eulerMean, ih, pow_succ]; ring

/-- The variance of the scheme with constant coefficients. -/
theorem eulerVariance_const (theta sigma t0 dt : ℝ) (k : ℕ) :
    eulerVariance (fun _ => -theta) (fun _ => sigma) t0 dt k * (theta * (2 - theta * dt)) =
      sigma ^ 2 * (1 - (1 - theta * dt) ^ (2 * k)) := by
  induction k with
  | zero => simp [eulerVariance]
  | succ k ih =>
    have : eulerVariance (fun _ => -theta) (fun _ => sigma) t0 dt (k + 1) * (theta * (2 - theta * dt)) =
        (1 - theta * dt) ^ 2 * (eulerVariance (fun _ => -theta) (fun _ => sigma) t0 dt k * (theta * (2 - theta * dt))) +
        sigma ^ 2 * dt * (theta * (2 - theta * dt)) := by rw [eulerVariance]; ring
    rw [this, ih, show 2 * (k + 1) = 2 * k + 2 by ring, pow_add]
    ring

/-- The variances are not negative. -/
theorem eulerVariance_nonneg (b sigma : ℝ → ℝ) (t0 dt : ℝ) (hdt : 0 ≤ dt) (k : ℕ) : 0 ≤ eulerVariance b sigma t0 dt k := by
  induction k with
  | zero => simp [eulerVariance]
  | succ k ih => rw [eulerVariance]; positivity

/-- C49: the points of an Euler-Maruyama path of an Ornstein-Uhlenbeck process are normal with mean
`μ + (x0 - μ)(1 - θ dt)^k` and variance `σ² (1 - (1 - θ dt)^{2k}) / (θ (2 - θ dt))`. -/
theorem C49_ou_law (ρ : Measure Ω) [IsProbabilityMeasure ρ] (env : Ω → Env) (mu sigma theta : ℝ) (c : Config) (sched : List ℕ)
    (hs : c.parallel = true → ValidSched c sched) (hc : c.scheme = .eulerMaruyama)
    (s i : ℕ) (hseed : c.seed = some s) (hi : i < c.mPaths)
    (hZ : StdNormals ρ fun k ω => (env ω).normals ((s + i) % 2 ^ 64) k) (T : Ω → Trajectories)
    (h : ∀ ω, generate (env ω) (ornsteinUhlenbeck (fun _ => mu) (fun _ => sigma) (fun _ => theta)) c sched = some (T ω))
    (dt : ℝ) (hdt : dt = (c.tn - c.t0) / c.nSteps) (hth : theta * (2 - theta * dt) ≠ 0) (k : ℕ) (hk : k ≤ c.nSteps) :
    ρ.map (fun ω => (T ω).val i k) = gaussianReal (mu + (c.x0 - mu) * (1 - theta * dt) ^ k)
      (sigma ^ 2 * (1 - (1 - theta * dt) ^ (2 * k)) / (theta * (2 - theta * dt))).toNNReal := by
  have := C49_gaussian_law ρ env _ (fun _ => theta * mu) (fun _ => -theta) (fun _ => sigma)
    (by intro x t v hv; simp only [ornsteinUhlenbeck, Option.some.injEq] at hv; rw [← hv]; ring)
    (by intro x t v hv
        simp only [ornsteinUhlenbeck, assertNonneg] at hv
        split_ifs at hv
        simpa using hv.symm) c sched hs hc s i hseed hi hZ T h k hk
  rw [this, ← hdt, eulerMean_const, ← eulerVariance_const theta sigma c.t0 dt k, mul_div_cancel_right₀ _ hth]

/-- C49: as the number of steps grows, the mean and the variance of the simulated terminal value of an Ornstein-Uhlenbeck process
tend to those of the process: `μ + (x0 - μ) e^{-θT}` and `σ² (1 - e^{-2θT}) / 2θ`. -/
theorem C49_ou_limit (ρ : Measure Ω) [IsProbabilityMeasure ρ] (env : Ω → Env) (mu sigma theta : ℝ) (hth : theta ≠ 0) (c : Config)
    (hp : c.parallel = false) (hc : c.scheme = .eulerMaruyama) (s i : ℕ) (hseed : c.seed = some s) (hi : i < c.mPaths)
    (hZ : StdNormals ρ fun k ω => (env ω).normals ((s + i) % 2 ^ 64) k) (T : ℕ → Ω → Trajectories)
    (h : ∀ n ω, generate (env ω) (ornsteinUhlenbeck (fun _ => mu) (fun _ => sigma) (fun _ => theta)) { c with nSteps := n } [] =
      some (T n ω)) :
    Filter.Tendsto (fun n => ∫ ω, (T n ω).val i n ∂ρ) Filter.atTop
        (nhds (mu + (c.x0 - mu) * Real.exp (-(theta * (c.tn - c.t0))))) ∧
      Filter.Tendsto (fun n => Var[fun ω => (T n ω).val i n; ρ]) Filter.atTop
        (nhds (sigma ^ 2 * (1 - Real.exp (-(2 * theta * (c.tn - c.t0)))) / (2 * theta))) := by
  have ht : c.t0 < c.tn := by
    obtain ⟨ω⟩ : Nonempty Ω := nonempty_of_isProbabilityMeasure ρ
    exact (simulate_val (by simp [hp]) (h 0 ω)).1
  set τ := c.tn - c.t0 with hτ
  have l1 : Filter.Tendsto (fun n : ℕ => theta * (τ / n)) Filter.atTop (nhds 0) := by
    simpa using (tendsto_const_div_atTop_nhds_zero_nat τ).const_mul theta
  have l2 : Filter.Tendsto (fun n : ℕ => (1 - theta * (τ / n)) ^ n) Filter.atTop (nhds (Real.exp (-(theta * τ)))) := by
    refine (Real.tendsto_one_add_div_pow_exp (-(theta * τ))).congr fun n => ?_
    rw [neg_div, mul_div_assoc, sub_eq_add_neg]
  have hev : ∀ᶠ n : ℕ in Filter.atTop, theta * (2 - theta * (τ / n)) ≠ 0 := by
    filter_upwards [l1.eventually (gt_mem_nhds (show (0:ℝ) < 2 by norm_num))] with n hn
    exact mul_ne_zero hth (by linarith)
  have hlaw : ∀ n : ℕ, theta * (2 - theta * (τ / n)) ≠ 0 → _ := fun n hn =>
    C49_ou_law ρ env mu sigma theta { c with nSteps := n } [] (by simp [hp]) hc s i hseed hi hZ (T n) (h n) (τ / n) rfl hn n le_rfl
  have hmeas : ∀ n : ℕ, theta * (2 - theta * (τ / n)) ≠ 0 → AEMeasurable (fun ω => (T n ω).val i n) ρ := by
    intro n hn
    by_contra hc'
    have := hlaw n hn
    rw [Measure.map_of_not_aemeasurable hc'] at this
    exact IsProbabilityMeasure.ne_zero (gaussianReal _ _) this.symm
  constructor
  · refine Filter.Tendsto.congr' ?_ ((l2.const_mul (c.x0 - mu)).const_add mu)
    filter_upwards [hev] with n hn
    have e : ∫ ω, (T n ω).val i n ∂ρ = ∫ x, x ∂(ρ.map fun ω => (T n ω).val i n) :=
      (integral_map (hmeas n hn) aestronglyMeasurable_id).symm
    rw [e, hlaw n hn, integral_id_gaussianReal]
  · have l3 : Filter.Tendsto (fun n : ℕ => sigma ^ 2 * (1 - (1 - theta * (τ / n)) ^ (2 * n)) / (theta * (2 - theta * (τ / n))))
        Filter.atTop (nhds (sigma ^ 2 * (1 - Real.exp (-(theta * τ)) ^ 2) / (theta * (2 - 0)))) := by
      refine Filter.Tendsto.div ?_ ((l1.const_sub 2).const_mul theta) (mul_ne_zero hth (by norm_num))
      refine ((l2.pow 2).const_sub 1).const_mul _ |>.congr fun n => ?_
      rw [mul_comm 2 n, pow_mul]
    have e4 : sigma ^ 2 * (1 - Real.exp (-(theta * τ)) ^ 2) / (theta * (2 - 0)) =
        sigma ^ 2 * (1 - Real.exp (-(2 * theta * τ))) / (2 * theta) := by
      rw [← Real.exp_nat_mul, sub_zero, mul_comm theta 2]; congr 4; push_cast; ring_nf
    rw [← e4]
    refine l3.congr' ?_
    filter_upwards [hev] with n hn
    have e : Var[fun ω => (T n ω).val i n; ρ] = Var[id; ρ.map fun ω => (T n ω).val i n] :=
      (variance_map aemeasurable_id (hmeas n hn)).symm
    rw [e, hlaw n hn, variance_id_gaussianReal, Real.coe_toNNReal]
    rw [← eulerVariance_const theta sigma c.t0 (τ / n) n, mul_div_cancel_right₀ _ hn]
    exact eulerVariance_nonneg _ _ _ _ (div_nonneg (by linarith) (by positivity)) _

/-- The Ornstein-Uhlenbeck process with mean 3, speed 1 and volatility 2 can be run in any number of steps. -/
theorem demo_ou (n : ℕ) (ω : ℕ → ℝ) :
    ∃ T, generate ⟨fun _ => ω, 0, fun _ _ _ _ _ => [], fun _ _ _ _ => [], fun _ _ => [], fun _ _ => 0⟩
      (ornsteinUhlenbeck (fun _ => 3) (fun _ => 2) (fun _ => 1)) ⟨10, 0, 1, n, .eulerMaruyama, 2, false, some 5⟩ [] = some T :=
  C49_total _ _ _ _ (by simp) (by norm_num) (fun _ _ => by simp [ornsteinUhlenbeck])
    (fun _ _ => by simp [ornsteinUhlenbeck, assertNonneg])

/-- Example: after two of two half steps the law is normal with mean `3 + 7/4` and variance `5/2`. -/
example : ∃ (ρ : Measure (ℕ → ℝ)) (T : (ℕ → ℝ) → Trajectories), IsProbabilityMeasure ρ ∧
    ρ.map (fun ω => (T ω).val 1 2) = gaussianReal (3 + 7 / 4) (5 / 2) := by
  obtain ⟨ρ, hρ, hZ⟩ := exists_stdNormals
  refine ⟨ρ, fun ω => (demo_ou 2 ω).choose, hρ, ?_⟩
  rw [C49_ou_law ρ _ 3 2 1 ⟨10, 0, 1, 2, .eulerMaruyama, 2, false, some 5⟩ [] (by simp) rfl 5 1 rfl (by norm_num) hZ _
    (fun ω => (demo_ou 2 ω).choose_spec) (1 / 2) (by norm_num) (by norm_num) 2 le_rfl]
  congr 1
  · norm_num
  · rw [show ((2:ℝ) ^ 2 * (1 - (1 - 1 * (1 / 2)) ^ (2 * 2)) / (1 * (2 - 1 * (1 / 2)))) = ((5 / 2 : NNReal) : ℝ) by
      push_cast; norm_num, Real.toNNReal_coe]

example : ∃ (ρ : Measure (ℕ → ℝ)) (T : ℕ → (ℕ → ℝ) → Trajectories), IsProbabilityMeasure ρ ∧
    Filter.Tendsto (fun n => ∫ ω, (T n ω).val 1 n ∂ρ) Filter.atTop (nhds (3 + (10 - 3) * Real.exp (-(1 * (1 - 0))))) := by
  obtain ⟨ρ, hρ, hZ⟩ := exists_stdNormals
  exact ⟨ρ, fun n ω => (demo_ou n ω).choose, hρ, (C49_ou_limit ρ _ 3 2 1 (by norm_num)
    ⟨10, 0, 1, 2, .eulerMaruyama, 2, false, some 5⟩ rfl rfl 5 1 rfl (by norm_num) hZ _
    fun n ω => (demo_ou n ω).choose_spec).1⟩

/-- Example: Ho-Lee, Hull-White and Black-Derman-Toy have the form of `C49_gaussian_law`. -/
example (sigma theta : ℝ → ℝ) : (∀ x t v, (hoLee sigma theta).drift x t = some v → v = theta t + (fun _ => 0) t * x) ∧
    ∀ x t v, (hoLee sigma theta).diffusion x t = some v → v = sigma t := by
  constructor <;> intro x t v hv <;> simp only [hoLee, assertNonneg] at hv <;> split_ifs at hv <;> simpa using hv.symm

example (alpha sigma theta : ℝ → ℝ) :
    (∀ x t v, (hullWhite alpha sigma theta).drift x t = some v → v = theta t + (fun t => -alpha t) t * x) ∧
    ∀ x t v, (hullWhite alpha sigma theta).diffusion x t = some v → v = sigma t := by
  constructor <;> intro x t v hv <;> simp only [hullWhite, Option.some.injEq] at hv <;> rw [← hv]
  ring

example (sigma theta : ℝ → ℝ) :
    (∀ x t v, (blackDermanToy sigma theta).drift x t = some v → v = theta t + (fun t => diff sigma t / sigma t) t * x) ∧
    ∀ x t v, (blackDermanToy sigma theta).diffusion x t = some v → v = sigma t := by
  constructor
  · intro x t v hv
    simp only [blackDermanToy] at hv
    split_ifs at hv
    simpa using hv.symm
  · intro x t v hv
    simpa [blackDermanToy] using hv.symm

end Verif.Stochastics
