import Verif.Stochastics.SimulationLemmas
import Mathlib.Analysis.SpecialFunctions.Complex.LogBounds
import Mathlib.Analysis.SpecialFunctions.Log.Deriv

/-!
# C49: path simulation

`T.val i t` is the value of path `i` after `t` steps. The generators are arbitrary (`Env`), so is the schedule of the
parallel run: `ValidSched` says only that the worker of every path performs all its steps.
-/

namespace Verif.Stochastics

open Classical

/-- C49: the result has the requested number of paths, each of `n_steps + 1` points and starting at `x_0`; there are
`n_steps + 1` times, the first `t_0`, the last `t_n`, equally spaced and increasing. -/
theorem C49_shape (env : Env) (P : Process) (c : Config) (jc : Option ℝ) (frac : Option (Method × ℝ)) (sched : List ℕ)
    (hs : c.parallel = true → ValidSched c sched) (T : Trajectories) (h : simulate env P c jc frac sched = some T) :
    T.paths.length = c.mPaths ∧ (∀ p ∈ T.paths, p.length = c.nSteps + 1 ∧ p.head? = some c.x0) ∧
      T.times.length = c.nSteps + 1 ∧ T.times.head? = some c.t0 ∧ (0 < c.nSteps → T.times.getLast? = some c.tn) ∧
      (∀ t < c.nSteps, T.times.getD (t + 1) 0 - T.times.getD t 0 = (c.tn - c.t0) / c.nSteps) ∧
      (∀ t < c.nSteps, T.times.getD t 0 < T.times.getD (t + 1) 0) := by
  obtain ⟨h0, jumps, hj, ht, hl, hp⟩ := (simulate_eq_some _ _ _ _ _ _ hs _).1 h
  have hget : ∀ t, t ≤ c.nSteps → c.times[t]? = some (c.t0 + c.dt * t) := by
    intro t ht
    rw [Config.times, List.getElem?_map, List.getElem?_range (by omega)]; rfl
  have hdt : ∀ t < c.nSteps, T.times.getD (t + 1) 0 - T.times.getD t 0 = (c.tn - c.t0) / c.nSteps := by
    intro t h
    rw [ht, List.getD, List.getD, hget t (by omega), hget (t + 1) (by omega)]
    simp only [Option.getD_some, Config.dt]; push_cast; ring
  refine ⟨hl, fun p hp' => ?_, by rw [ht]; simp [Config.times], ?_, fun hn => ?_, hdt, fun t h => ?_⟩
  · obtain ⟨i, hi⟩ := List.mem_iff_getElem?.1 hp'
    have him : i < c.mPaths := by
      rw [← hl]
      by_contra hlt
      rw [List.getElem?_eq_none (by omega)] at hi
      simp at hi
    obtain ⟨q, hq, hq2⟩ := hp i him
    rw [hi] at hq
    obtain rfl := Option.some.inj hq
    exact ⟨hq2.length, by rw [List.head?_eq_getElem?]; exact hq2.start⟩
  · rw [ht, List.head?_eq_getElem?, hget 0 (by omega)]; simp
  · have hn' : (c.nSteps : ℝ) ≠ 0 := by exact_mod_cast hn.ne'
    rw [ht, List.getLast?_eq_getElem?]
    have : c.times.length - 1 = c.nSteps := by simp [Config.times]
    rw [this, hget _ le_rfl, Config.dt]
    congr 1
    field_simp
    ring
  · have hn' : (0:ℝ) < c.nSteps := by exact_mod_cast (by omega : 0 < c.nSteps)
    have := hdt t h
    have : 0 < (c.tn - c.t0) / c.nSteps := div_pos (by linarith) hn'
    linarith

/-- C49: the result does not depend on how the parallel run is scheduled, and equals the sequential one. -/
theorem C49_schedule (env : Env) (P : Process) (c : Config) (jc : Option ℝ) (frac : Option (Method × ℝ))
    (sched sched' : List ℕ) (hs : ValidSched c sched) :
    simulate env P { c with parallel := true } jc frac sched =
      simulate env P { c with parallel := false } jc frac sched' := by
  rw [simulate_eq _ _ { c with parallel := true } _ _ _ fun _ => hs,
    simulate_eq _ _ { c with parallel := false } _ _ _ (by simp)]
  rfl

/-- Every configuration has a schedule; e.g. one path after the other, or a round robin. -/
theorem C49_schedule_exists (c : Config) : ∃ sched, ValidSched c sched :=
  ⟨(List.range c.nSteps).flatMap fun _ => List.range c.mPaths, fun i hi => by
    induction c.nSteps with
    | zero => rfl
    | succ n ih =>
      rw [List.range_succ, List.flatMap_append, List.count_append, ih]
      simp [List.count_eq_one_of_mem List.nodup_range (List.mem_range.2 hi)]⟩

/-- C49: a run whose end is not after its start panics. -/
theorem C49_panics_times (env : Env) (P : Process) (c : Config) (jc : Option ℝ) (frac : Option (Method × ℝ))
    (sched : List ℕ) (h : c.tn ≤ c.t0) : simulate env P c jc frac sched = none := by
  simp [simulate, not_lt.2 h]

/-- C49: a run succeeds whenever drift and diffusion are defined everywhere (no jumps, plain noise). -/
theorem C49_total (env : Env) (P : Process) (c : Config) (sched : List ℕ)
    (hs : c.parallel = true → ValidSched c sched) (ht : c.t0 < c.tn)
    (h1 : ∀ x t, (P.drift x t).isSome) (h2 : ∀ x t, (P.diffusion x t).isSome) :
    ∃ T, simulate env P c none none sched = some T := by
  have hstep : ∀ (i t : ℕ) (x : ℝ), ∃ y, stepOf P c [] (noiseOf env c none i) (env.draw i) t x = some y := by
    intro i t x
    obtain ⟨a, ha⟩ := Option.isSome_iff_exists.1 (h1 x (c.time t))
    obtain ⟨b, hb⟩ := Option.isSome_iff_exists.1 (h2 x (c.time t))
    obtain ⟨b1, hb1⟩ := Option.isSome_iff_exists.1 (h2 (x + 1 / 100000) (c.time t))
    obtain ⟨b2, hb2⟩ := Option.isSome_iff_exists.1 (h2 (x - 1 / 100000) (c.time t))
    obtain ⟨b3, hb3⟩ := Option.isSome_iff_exists.1 (h2 (x + 1 / 2 * a * c.dt) (c.time t + 1 / 2 * c.dt))
    unfold stepOf
    split
    · exact ⟨_, by rw [emStep, ha, hb]; simp only [Option.bind_some, noiseOf, Noise.at, jumpTerm_nil]; rfl⟩
    · exact ⟨_, by rw [milsteinStep, ha, hb, hb1, hb2]; simp only [Option.bind_some, noiseOf, Noise.at, jumpTerm_nil]; rfl⟩
    · exact ⟨_, by rw [strangStep, ha]; simp only [Option.bind_some, hb3, noiseOf, Noise.at, jumpTerm_nil]; rfl⟩
  choose f hf using fun i => exists_isPath (stepOf P c [] (noiseOf env c none i) (env.draw i)) c.nSteps c.x0
    fun t _ x => hstep i t x
  refine ⟨⟨c.times, (List.range c.mPaths).map f⟩, (simulate_eq_some _ _ _ _ _ _ hs _).2
    ⟨ht, [], rfl, rfl, by simp, fun i hi => ⟨f i, ?_, hf i⟩⟩⟩
  simp [List.getElem?_range hi]

/-- C49: with jumps or fractional noise a run succeeds too, whenever drift and diffusion are defined everywhere, the
intensity of the jumps is positive, there is a step to take and the generators return one value per step. -/
theorem C49_total_jumps_fractional (env : Env) (P : Process) (c : Config) (jc : Option ℝ)
    (frac : Option (Method × ℝ)) (sched : List ℕ)
    (hs : c.parallel = true → ValidSched c sched) (ht : c.t0 < c.tn)
    (h1 : ∀ x t, (P.drift x t).isSome) (h2 : ∀ x t, (P.diffusion x t).isSome)
    (hj : ∀ l, jc = some l → 0 < l ∧ 0 < c.nSteps ∧ ∀ m, (env.poisson m c.nSteps).length = c.nSteps)
    (hf : ∀ m hurst, frac = some (m, hurst) → ∀ i < c.mPaths,
      (fgn env m hurst c.nSteps c.tn c.seed i).length = c.nSteps) :
    ∃ T, simulate env P c jc frac sched = some T := by
  have hjv : ∃ jumps, jumpVec env c jc = some jumps ∧ (jumps = [] ∨ jumps.length = c.nSteps) := by
    cases jc with
    | none => exact ⟨[], rfl, Or.inl rfl⟩
    | some l =>
      obtain ⟨a, b, d⟩ := hj l rfl
      have hdt : 0 < c.dt := div_pos (sub_pos.2 ht) (by exact_mod_cast b)
      exact ⟨_, if_pos ⟨mul_pos a hdt, b⟩, Or.inr (d _)⟩
  obtain ⟨jumps, hjv, hlen⟩ := hjv
  have hstep : ∀ i < c.mPaths, ∀ t < c.nSteps, ∀ x : ℝ,
      ∃ y, stepOf P c jumps (noiseOf env c frac i) (env.draw i) t x = some y := by
    intro i hi t htn x
    obtain ⟨a, ha⟩ := Option.isSome_iff_exists.1 (h1 x (c.time t))
    obtain ⟨b, hb⟩ := Option.isSome_iff_exists.1 (h2 x (c.time t))
    obtain ⟨b1, hb1⟩ := Option.isSome_iff_exists.1 (h2 (x + 1 / 100000) (c.time t))
    obtain ⟨b2, hb2⟩ := Option.isSome_iff_exists.1 (h2 (x - 1 / 100000) (c.time t))
    obtain ⟨b3, hb3⟩ := Option.isSome_iff_exists.1 (h2 (x + 1 / 2 * a * c.dt) (c.time t + 1 / 2 * c.dt))
    obtain ⟨z, hz⟩ : ∃ z, (noiseOf env c frac i).at t = some z := by
      rcases frac with - | ⟨m, hurst⟩
      · exact ⟨_, rfl⟩
      · exact ⟨_, List.getElem?_eq_getElem (by rw [hf m hurst rfl i hi]; exact htn)⟩
    obtain ⟨j, hj⟩ : ∃ j, jumpTerm P jumps x (c.time t) (env.draw i t) t = some j := by
      unfold jumpTerm
      rcases hlen with h | h
      · exact ⟨_, if_pos h⟩
      · by_cases he : jumps = []
        · exact ⟨_, if_pos he⟩
        · rw [if_neg he, List.getElem?_eq_getElem (by omega)]
          exact ⟨_, rfl⟩
    unfold stepOf
    split
    · exact ⟨_, by rw [emStep, ha, hb, hz, hj]; rfl⟩
    · exact ⟨_, by rw [milsteinStep, ha, hb, hb1, hb2, hz, hj]; rfl⟩
    · exact ⟨_, by rw [strangStep, ha, hz, hj]; simp only [Option.bind_some, hb3]; rfl⟩
  have hpath : ∀ i, ∃ p, i < c.mPaths →
      IsPath (stepOf P c jumps (noiseOf env c frac i) (env.draw i)) c.nSteps c.x0 p := by
    intro i
    by_cases hi : i < c.mPaths
    · obtain ⟨p, hp⟩ := exists_isPath _ c.nSteps c.x0 fun t ht x => hstep i hi t ht x
      exact ⟨p, fun _ => hp⟩
    · exact ⟨[], fun h => absurd h hi⟩
  choose f hf using hpath
  refine ⟨⟨c.times, (List.range c.mPaths).map f⟩, (simulate_eq_some _ _ _ _ _ _ hs _).2
    ⟨ht, jumps, hjv, rfl, by simp, fun i hi => ⟨f i, ?_, hf i hi⟩⟩⟩
  simp [List.getElem?_range hi]

/-- Example: a jump process and a fractional one that can be run, in parallel. -/
theorem demo_jumps (Z : ℕ → ℕ → ℝ) (u : ℕ → ℕ → ℝ) : ∃ T, generateMerton
    ⟨Z, 0, fun _ n _ _ _ => List.replicate n 1, fun _ n _ _ => List.replicate n 2, fun _ n => List.replicate n 1, u⟩
    (fun _ => 1 / 10) (fun _ => 1 / 5) (fun _ => 3) ⟨100, 0, 1, 2, .eulerMaruyama, 2, true, some 5⟩ [1, 0, 0, 1] = some T :=
  C49_total_jumps_fractional _ _ _ _ _ _ (fun _ => by simp only [ValidSched]; decide) (by norm_num) (fun _ _ => rfl)
    (fun _ _ => by norm_num [mertonJumpDiffusion, assertNonneg])
    (fun l h => by obtain rfl := Option.some.inj h; norm_num) (fun m hurst h => by simp at h)

theorem demo_fractional (Z : ℕ → ℕ → ℝ) (u : ℕ → ℕ → ℝ) (m : Method) : ∃ T, generateFractional
    ⟨Z, 0, fun _ n _ _ _ => List.replicate n 1, fun _ n _ _ => List.replicate n 2, fun _ n => List.replicate n 1, u⟩
    fractionalBrownianMotion m (3 / 4) ⟨100, 0, 1, 2, .milstein, 2, true, some 5⟩ [1, 0, 0, 1] = some T :=
  C49_total_jumps_fractional _ _ _ _ _ _ (fun _ => by simp only [ValidSched]; decide) (by norm_num) (fun _ _ => rfl)
    (fun _ _ => rfl) (fun l h => by simp at h) (fun m hurst h i _ => by cases m <;> simp [fgn])

/-- C49: Euler-Maruyama paths satisfy the textbook recurrence
`X(t+dt) = X(t) + drift·dt + diffusion·√dt·Z`, the normals of path `i` being those of the generator seeded with
`seed + i`. -/
theorem C49_euler (env : Env) (P : Process) (c : Config) (sched : List ℕ)
    (hs : c.parallel = true → ValidSched c sched) (hc : c.scheme = .eulerMaruyama) (s : ℕ) (hseed : c.seed = some s)
    (T : Trajectories) (h : generate env P c sched = some T) (i : ℕ) (hi : i < c.mPaths) (t : ℕ) (ht : t < c.nSteps) :
    ∃ a b, P.drift (T.val i t) (T.times.getD t 0) = some a ∧ P.diffusion (T.val i t) (T.times.getD t 0) = some b ∧
      T.val i (t + 1) = T.val i t + a * ((c.tn - c.t0) / c.nSteps) +
        b * √((c.tn - c.t0) / c.nSteps) * env.normals ((s + i) % 2 ^ 64) t := by
  obtain ⟨-, -, -, htimes, -, -⟩ := (simulate_eq_some _ _ _ _ _ _ hs _).1 h
  obtain ⟨-, jumps, hj, hv⟩ := simulate_val hs h
  obtain rfl := Option.some.inj hj
  have h1 := (hv i hi).2 t ht
  have htt : T.times.getD t 0 = c.time t := by
    rw [htimes, Config.times, List.getD, List.getElem?_map, List.getElem?_range (by omega)]; rfl
  rw [htt]
  simp only [stepOf, hc, emStep, noiseOf, Noise.at, jumpTerm_nil, hseed, Option.getD_some] at h1
  cases ha : P.drift (T.val i t) (c.time t) with
  | none => simp [ha] at h1
  | some a =>
    cases hb : P.diffusion (T.val i t) (c.time t) with
    | none => simp [ha, hb] at h1
    | some b =>
      simp only [ha, hb, Option.bind_some, Option.map_some, Option.some.injEq, add_zero] at h1
      exact ⟨a, b, rfl, rfl, h1.symm⟩

/-- Example: a Brownian motion over two steps of `1/4` with seed 5; the third path uses the generator seeded 7. -/
example (env : Env) (T : Trajectories)
    (h : generate env brownianMotion ⟨0, 0, 1 / 2, 2, .eulerMaruyama, 3, false, some 5⟩ [] = some T) :
    T.val 2 1 = 1 / 2 * env.normals 7 0 := by
  obtain ⟨a, b, ha, hb, h1⟩ := C49_euler env brownianMotion _ [] (by simp) rfl 5 rfl T h 2 (by norm_num) 0 (by norm_num)
  have h0 := ((simulate_val (by simp) h).2.choose_spec.2 2 (by norm_num)).1
  simp only [brownianMotion, Option.some.injEq] at ha hb
  subst ha hb
  have : √(((1:ℝ) / 2 - 0) / ((2:ℕ):ℝ)) = 1 / 2 := by
    rw [show ((1:ℝ) / 2 - 0) / ((2:ℕ):ℝ) = (1 / 2) ^ 2 by norm_num]
    exact Real.sqrt_sq (by norm_num)
  simp only [this, h0] at h1
  simpa using h1

example (env : Env) : ∃ T, generate env brownianMotion ⟨0, 0, 1 / 2, 2, .eulerMaruyama, 3, false, some 5⟩ [] = some T :=
  C49_total _ _ _ _ (by simp) (by norm_num) (fun _ _ => rfl) (fun _ _ => rfl)

/-- Example: a genuinely interleaved schedule of two paths of two steps. -/
example (env : Env) : generate env brownianMotion ⟨0, 0, 1, 2, .milstein, 2, true, some 5⟩ [1, 0, 1, 0] =
    generate env brownianMotion ⟨0, 0, 1, 2, .milstein, 2, false, some 5⟩ [] :=
  C49_schedule env brownianMotion ⟨0, 0, 1, 2, .milstein, 2, true, some 5⟩ none none [1, 0, 1, 0] [] (by
    intro i hi
    have : i = 0 ∨ i = 1 := by simp only at hi; omega
    rcases this with rfl | rfl <;> rfl)

/-- C49: with a seed the run is a function of the seeded normals only: unseeded entropy plays no role. -/
theorem C49_reproducible (env env' : Env) (P : Process) (c : Config) (sched sched' : List ℕ)
    (hs : c.parallel = true → ValidSched c sched) (hs' : c.parallel = true → ValidSched c sched')
    (hseed : c.seed.isSome) (henv : env.normals = env'.normals) :
    generate env P c sched = generate env' P c sched' := by
  obtain ⟨s, hs1⟩ := Option.isSome_iff_exists.1 hseed
  unfold generate
  rw [simulate_eq _ _ _ _ _ _ hs, simulate_eq _ _ _ _ _ _ hs']
  split
  · show Option.map _ (allSome _) = Option.map _ (allSome _)
    congr 2
    refine List.map_congr_left fun i _ => ?_
    congr 1
    funext t x
    unfold stepOf
    split <;> simp only [emStep, milsteinStep, strangStep, noiseOf, hs1, henv, Option.getD_some, jumpTerm_nil]
  · rfl

example (env env' : Env) (h : env.normals = env'.normals) := C49_reproducible env env' brownianMotion
  ⟨0, 0, 1, 2, .milstein, 2, true, some 5⟩ [1, 0, 1, 0] [0, 0, 1, 1] (fun _ => by simp only [ValidSched]; decide)
  (fun _ => by simp only [ValidSched]; decide) rfl h

/-- C49: path `i` of a run with seed `s + 1` is path `i + 1` of the run with seed `s`, so runs with neighbouring seeds
share all but one of their paths. -/
theorem C49_seed_shift (env env' : Env) (henv : env.normals = env'.normals) (P : Process) (c : Config)
    (sched sched' : List ℕ) (s i : ℕ)
    (hs : c.parallel = true → ValidSched c sched) (hs' : c.parallel = true → ValidSched c sched')
    (T T' : Trajectories) (h : generate env P { c with seed := some s } sched = some T)
    (h' : generate env' P { c with seed := some (s + 1) } sched' = some T') (hi : i + 1 < c.mPaths) :
    T'.paths[i]? = T.paths[i + 1]? := by
  obtain ⟨-, jumps, hj, -, -, hp⟩ := (simulate_eq_some _ _ { c with seed := some s } _ _ _ hs _).1 h
  obtain ⟨-, jumps', hj', -, -, hp'⟩ := (simulate_eq_some _ _ { c with seed := some (s + 1) } _ _ _ hs' _).1 h'
  obtain rfl := Option.some.inj hj
  obtain rfl := Option.some.inj hj'
  obtain ⟨p, h1, h2⟩ := hp (i + 1) hi
  obtain ⟨p', h1', h2'⟩ := hp' i (by show i < c.mPaths; omega)
  rw [h1, h1']
  congr 1
  refine IsPath.unique h2' ?_
  have : stepOf P { c with seed := some (s + 1) } [] (noiseOf env' { c with seed := some (s + 1) } none i) (env'.draw i) =
      stepOf P { c with seed := some s } [] (noiseOf env { c with seed := some s } none (i + 1)) (env.draw (i + 1)) := by
    funext t x
    have e : s + 1 + i = s + (i + 1) := by ring
    unfold stepOf
    cases hc : c.scheme <;>
      simp only [emStep, milsteinStep, strangStep, noiseOf, Option.getD_some, jumpTerm_nil, e, henv] <;> rfl
  rw [this]
  exact h2

/-- C49: asking for more paths does not change the ones already there. -/
theorem C49_more_paths (env env' : Env) (henv : env.normals = env'.normals) (P : Process) (c : Config)
    (sched sched' : List ℕ) (s m i : ℕ)
    (hs : c.parallel = true → ValidSched c sched)
    (hs' : c.parallel = true → ValidSched { c with mPaths := m } sched') (hseed : c.seed = some s) (T T' : Trajectories) (h : generate env P c sched = some T)
    (h' : generate env' P { c with mPaths := m } sched' = some T') (hi : i < c.mPaths) (him : i < m) :
    T'.paths[i]? = T.paths[i]? := by
  obtain ⟨-, jumps, hj, -, -, hp⟩ := (simulate_eq_some _ _ _ _ _ _ hs _).1 h
  obtain ⟨-, jumps', hj', -, -, hp'⟩ := (simulate_eq_some _ _ { c with mPaths := m } _ _ _ hs' _).1 h'
  obtain rfl := Option.some.inj hj
  obtain rfl := Option.some.inj hj'
  obtain ⟨p, h1, h2⟩ := hp i hi
  obtain ⟨p', h1', h2'⟩ := hp' i him
  rw [h1, h1']
  congr 1
  refine IsPath.unique h2' ?_
  have : stepOf P { c with mPaths := m } [] (noiseOf env' { c with mPaths := m } none i) (env'.draw i) =
      stepOf P c [] (noiseOf env c none i) (env.draw i) := by
    funext t x
    unfold stepOf
    cases hc : c.scheme <;>
      simp only [emStep, milsteinStep, strangStep, noiseOf, hseed, Option.getD_some, jumpTerm_nil, henv] <;> rfl
  rw [this]
  exact h2

/-! ### Without noise -/

/-- C49: with zero diffusion an Euler-Maruyama path is the explicit Euler scheme for `x' = drift(x, t)`. -/
theorem C49_ode (env : Env) (P : Process) (f : ℝ → ℝ → ℝ) (hf : ∀ x t, P.drift x t = some (f x t))
    (h0 : ∀ x t, P.diffusion x t = some 0) (c : Config) (sched : List ℕ)
    (hs : c.parallel = true → ValidSched c sched) (hc : c.scheme = .eulerMaruyama)
    (T : Trajectories) (h : generate env P c sched = some T) (i : ℕ) (hi : i < c.mPaths) :
    T.val i 0 = c.x0 ∧ ∀ t < c.nSteps, T.val i (t + 1) =
      T.val i t + f (T.val i t) (c.t0 + (c.tn - c.t0) / c.nSteps * t) * ((c.tn - c.t0) / c.nSteps) := by
  obtain ⟨-, jumps, hj, hv⟩ := simulate_val hs h
  obtain rfl := Option.some.inj hj
  refine ⟨(hv i hi).1, fun t ht => ?_⟩
  have h1 := (hv i hi).2 t ht
  simp only [stepOf, hc, emStep, noiseOf, Noise.at, jumpTerm_nil, hf, h0, Option.bind_some, Option.map_some,
    Option.some.injEq] at h1
  rw [← h1]
  simp [Config.time, Config.dt]

/-- C49: the noiseless geometric Brownian motion with constant drift after `n` steps is `x0 (1 + μ T/n)^n`. -/
theorem C49_gbm_noiseless (env : Env) (mu : ℝ) (c : Config) (sched : List ℕ)
    (hs : c.parallel = true → ValidSched c sched) (hc : c.scheme = .eulerMaruyama) (T : Trajectories)
    (h : generate env (geometricBrownianMotion (fun _ => mu) (fun _ => 0)) c sched = some T) (i : ℕ)
    (hi : i < c.mPaths) (t : ℕ) (ht : t ≤ c.nSteps) :
    T.val i t = c.x0 * (1 + mu * ((c.tn - c.t0) / c.nSteps)) ^ t := by
  obtain ⟨h1, h2⟩ := C49_ode env (geometricBrownianMotion (fun _ => mu) (fun _ => 0)) (fun x _ => mu * x)
    (fun _ _ => rfl) (fun _ _ => by simp [geometricBrownianMotion, assertNonneg]) c sched hs hc T h i hi
  induction t with
  | zero => simp [h1]
  | succ t ih => rw [h2 t (by omega), ih (by omega), pow_succ]; ring

/-- C49: as the number of steps grows the noiseless terminal value converges to the solution `x0 e^{μ T}`. -/
theorem C49_gbm_noiseless_limit (env : Env) (mu : ℝ) (c : Config) (T : ℕ → Trajectories)
    (hc : c.scheme = .eulerMaruyama) (hp : c.parallel = false)
    (h : ∀ n, generate env (geometricBrownianMotion (fun _ => mu) (fun _ => 0)) { c with nSteps := n } [] = some (T n))
    (i : ℕ) (hi : i < c.mPaths) :
    Filter.Tendsto (fun n => (T n).val i n) Filter.atTop (nhds (c.x0 * Real.exp (mu * (c.tn - c.t0)))) := by
  have : (fun n => (T n).val i n) = fun n : ℕ => c.x0 * (1 + mu * (c.tn - c.t0) / n) ^ n := by
    funext n
    rw [C49_gbm_noiseless env mu { c with nSteps := n } [] (by simp [hp]) hc (T n) (h n) i hi n le_rfl, mul_div_assoc]
  rw [this]
  exact (Real.tendsto_one_add_div_pow_exp _).const_mul _

/-- C49: the noiseless Ornstein-Uhlenbeck process decays to its mean: `μ + (x0 - μ)(1 - θ dt)^t`. -/
theorem C49_ou_noiseless (env : Env) (mu theta : ℝ) (c : Config) (sched : List ℕ)
    (hs : c.parallel = true → ValidSched c sched) (hc : c.scheme = .eulerMaruyama) (T : Trajectories)
    (h : generate env (ornsteinUhlenbeck (fun _ => mu) (fun _ => 0) (fun _ => theta)) c sched = some T) (i : ℕ)
    (hi : i < c.mPaths) (t : ℕ) (ht : t ≤ c.nSteps) :
    T.val i t = mu + (c.x0 - mu) * (1 - theta * ((c.tn - c.t0) / c.nSteps)) ^ t := by
  obtain ⟨h1, h2⟩ := C49_ode env (ornsteinUhlenbeck (fun _ => mu) (fun _ => 0) (fun _ => theta))
    (fun x _ => theta * (mu - x))
    (fun _ _ => rfl) (fun _ _ => by simp [ornsteinUhlenbeck, assertNonneg]) c sched hs hc T h i hi
  induction t with
  | zero => simp [h1]
  | succ t ih => rw [h2 t (by omega), ih (by omega), pow_succ]; ring

/-- C49: the noiseless Hull-White (extended Vasicek) short rate with constant coefficients tends to `θ/α`. -/
theorem C49_hull_white_noiseless (env : Env) (alpha theta : ℝ) (ha : alpha ≠ 0) (c : Config) (sched : List ℕ)
    (hs : c.parallel = true → ValidSched c sched) (hc : c.scheme = .eulerMaruyama) (T : Trajectories)
    (h : generate env (hullWhite (fun _ => alpha) (fun _ => 0) (fun _ => theta)) c sched = some T) (i : ℕ)
    (hi : i < c.mPaths) (t : ℕ) (ht : t ≤ c.nSteps) :
    T.val i t = theta / alpha + (c.x0 - theta / alpha) * (1 - alpha * ((c.tn - c.t0) / c.nSteps)) ^ t := by
  obtain ⟨h1, h2⟩ := C49_ode env (hullWhite (fun _ => alpha) (fun _ => 0) (fun _ => theta))
    (fun x _ => theta - alpha * x)
    (fun _ _ => rfl) (fun _ _ => rfl) c sched hs hc T h i hi
  induction t with
  | zero => simp [h1]
  | succ t ih => rw [h2 t (by omega), ih (by omega), pow_succ]; field_simp; ring

/-- Example: two noiseless steps of `1/2` from 100 at 10%. -/
example (env : Env) (T : Trajectories) (h : generate env (geometricBrownianMotion (fun _ => 1 / 10) (fun _ => 0))
    ⟨100, 0, 1, 2, .eulerMaruyama, 1, false, none⟩ [] = some T) : T.val 0 2 = 110.25 := by
  rw [C49_gbm_noiseless env (1 / 10) _ [] (by simp) rfl T h 0 (by norm_num) 2 (by norm_num)]
  norm_num

example (env : Env) : ∃ T, generate env (geometricBrownianMotion (fun _ => 1 / 10) (fun _ => 0))
    ⟨100, 0, 1, 2, .eulerMaruyama, 1, false, none⟩ [] = some T :=
  C49_total _ _ _ _ (by simp) (by norm_num) (fun _ _ => rfl)
    (fun _ _ => by simp [geometricBrownianMotion, assertNonneg])

/-- C49 (defect): the noiseless geometric Brownian bridge with no drift of its own does not reach its end value: from
`x` one step before the end the last point is `x (1 + ln(end/x))`, which is below the end value unless the path is
already there. -/
theorem C49_bridge_misses_end (env : Env) (e : ℝ) (he : 0 < e) (c : Config) (sched : List ℕ)
    (hs : c.parallel = true → ValidSched c sched) (hc : c.scheme = .eulerMaruyama) (T : Trajectories) (n : ℕ)
    (hn : c.nSteps = n + 1)
    (h : generate env (geometricBrownianBridge (fun _ => 0) (fun _ => 0) e c.tn) c sched = some T) (i : ℕ)
    (hi : i < c.mPaths) :
    T.val i c.nSteps ≤ e ∧ (T.val i c.nSteps = e ↔ T.val i n = e) := by
  obtain ⟨ht0, jumps, hj, hv⟩ := simulate_val hs h
  obtain rfl := Option.some.inj hj
  have h1 := (hv i hi).2 n (by omega)
  set x := T.val i n
  have hdt : c.tn - c.time n = c.dt := by
    rw [Config.time, Config.dt, hn]
    have : ((n + 1 : ℕ) : ℝ) ≠ 0 := by positivity
    field_simp
    push_cast
    ring
  have hdt0 : 0 < c.dt := div_pos (by linarith) (by rw [hn]; positivity)
  have hx : 0 < x := by
    by_contra hx
    have hd : (geometricBrownianBridge (fun _ => 0) (fun _ => 0) e c.tn).drift x (c.time n) = none := by
      simp [geometricBrownianBridge, hx]
    simp [stepOf, hc, emStep, hd] at h1
  have hte : c.time n ≠ c.tn := by intro hh; rw [hh] at hdt; linarith
  have hd : (geometricBrownianBridge (fun _ => 0) (fun _ => 0) e c.tn).drift x (c.time n) =
      some (0 * x + (Real.log e - Real.log x) / (c.tn - c.time n) * x) := by
    simp only [geometricBrownianBridge]; rw [if_pos ⟨he, hx, hte⟩]
  have hb : (geometricBrownianBridge (fun _ => 0) (fun _ => 0) e c.tn).diffusion x (c.time n) = some 0 := by
    simp [geometricBrownianBridge, assertNonneg]
  simp only [stepOf, hc, emStep, noiseOf, Noise.at, jumpTerm_nil, hd, hb, Option.bind_some, Option.map_some,
    Option.some.injEq] at h1
  rw [hdt] at h1
  have h2 : T.val i c.nSteps = x * (1 + Real.log (e / x)) := by
    rw [hn, ← h1, Real.log_div he.ne' hx.ne']
    field_simp
    ring
  rw [h2]
  have hpos : 0 < e / x := div_pos he hx
  constructor
  · have := Real.log_le_sub_one_of_pos hpos
    calc x * (1 + Real.log (e / x)) ≤ x * (e / x) := by gcongr; linarith
      _ = e := by field_simp
  · constructor
    · intro h3
      by_contra hne
      have hne1 : e / x ≠ 1 := by
        intro h4; rw [div_eq_one_iff_eq hx.ne'] at h4; exact hne h4.symm
      have := Real.log_lt_sub_one_of_pos hpos hne1
      have : x * (1 + Real.log (e / x)) < x * (e / x) := by gcongr; linarith
      rw [h3, mul_div_cancel₀ _ hx.ne'] at this
      exact lt_irrefl _ this
    · intro h3
      rw [h3, div_self he.ne', Real.log_one]; ring

/-! ### Defects of the noise -/

/-- C49 (defect): in Milstein and Strang runs of an arithmetic Brownian motion the normal is not scaled by `√dt`: each
step adds `σ Z`, whatever its length. -/
theorem C49_unscaled_noise (env : Env) (mu sigma : ℝ) (hsig : 0 ≤ sigma) (c : Config) (sched : List ℕ)
    (hs : c.parallel = true → ValidSched c sched) (hc : c.scheme = .milstein ∨ c.scheme = .strangSplitting)
    (s : ℕ) (hseed : c.seed = some s) (T : Trajectories)
    (h : generate env (arithmeticBrownianMotion (fun _ => mu) (fun _ => sigma)) c sched = some T) (i : ℕ)
    (hi : i < c.mPaths) (t : ℕ) (ht : t < c.nSteps) :
    T.val i (t + 1) = T.val i t + mu * ((c.tn - c.t0) / c.nSteps) + sigma * env.normals ((s + i) % 2 ^ 64) t := by
  obtain ⟨-, jumps, hj, hv⟩ := simulate_val hs h
  obtain rfl := Option.some.inj hj
  have h1 := (hv i hi).2 t ht
  rcases hc with hc | hc <;>
    simp only [stepOf, hc, milsteinStep, strangStep, noiseOf, Noise.at, jumpTerm_nil, hseed, arithmeticBrownianMotion,
      assertNonneg, hsig, if_true, Option.getD_some, Option.bind_some, Option.map_some, Option.some.injEq,
      Config.dt] at h1 <;>
    rw [← h1] <;> ring

/-- C49 (defect): the Milstein correction of a geometric Brownian motion is `10⁻¹⁰` times the right one
`σ²x(Z² - dt)/2`: the central difference is multiplied by the step where it should be divided. -/
theorem C49_milstein_correction (env : Env) (mu sigma : ℝ) (hsig : 0 ≤ sigma) (c : Config) (sched : List ℕ)
    (hs : c.parallel = true → ValidSched c sched) (hc : c.scheme = .milstein)
    (s : ℕ) (hseed : c.seed = some s) (T : Trajectories)
    (h : generate env (geometricBrownianMotion (fun _ => mu) (fun _ => sigma)) c sched = some T) (i : ℕ)
    (hi : i < c.mPaths) (t : ℕ) (ht : t < c.nSteps) (x z dt : ℝ) (hx : x = T.val i t)
    (hz : z = env.normals ((s + i) % 2 ^ 64) t) (hdt : dt = (c.tn - c.t0) / c.nSteps) :
    T.val i (t + 1) = x + mu * x * dt + sigma * x * z + 1 / 10 ^ 10 * (1 / 2 * sigma ^ 2 * x * (z ^ 2 - dt)) := by
  subst hx hz hdt
  obtain ⟨-, jumps, hj, hv⟩ := simulate_val hs h
  obtain rfl := Option.some.inj hj
  have h1 := (hv i hi).2 t ht
  simp only [stepOf, hc, milsteinStep, noiseOf, Noise.at, jumpTerm_nil, hseed, geometricBrownianMotion,
      assertNonneg, hsig, if_true, Option.getD_some, Option.bind_some, Option.map_some, Option.some.injEq,
      Config.dt] at h1
  rw [← h1]
  ring

/-- C49 (defect): with a seed, all paths of a fractional process from the Cholesky generator are the same path. -/
theorem C49_fractional_paths_identical (env : Env) (P : Process) (hurst : ℝ) (c : Config) (sched : List ℕ)
    (hs : c.parallel = true → ValidSched c sched) (hseed : c.seed.isSome) (T : Trajectories)
    (h : generateFractional env P .cholesky hurst c sched = some T) (i j : ℕ) (hi : i < c.mPaths) (hj : j < c.mPaths) :
    T.paths[i]? = T.paths[j]? := by
  obtain ⟨s, hs1⟩ := Option.isSome_iff_exists.1 hseed
  obtain ⟨-, jumps, hj', -, -, hp⟩ := (simulate_eq_some _ _ _ _ _ _ hs _).1 h
  obtain rfl := Option.some.inj hj'
  obtain ⟨p, h1, h2⟩ := hp i hi
  obtain ⟨q, h3, h4⟩ := hp j hj
  rw [h1, h3]
  congr 1
  refine IsPath.unique h2 ?_
  have : stepOf P c [] (noiseOf env c (some (.cholesky, hurst)) i) (env.draw i) =
      stepOf P c [] (noiseOf env c (some (.cholesky, hurst)) j) (env.draw j) := by
    funext t x
    unfold stepOf
    split <;> simp only [emStep, milsteinStep, strangStep, noiseOf, fgn, hs1, jumpTerm_nil]
  rw [this]
  exact h4

/-- C49 (defect): the FFT generator ignores the seed. Whatever the seed, two runs that differ only in fresh entropy
differ. -/
theorem C49_fft_not_reproducible (seed : Option ℕ) :
    ∃ env env' : Env, ∃ c : Config, env.normals = env'.normals ∧ env.cholesky = env'.cholesky ∧ c.seed = seed ∧
      ∃ T T', generateFractional env fractionalBrownianMotion .fft (1 / 2) c [] = some T ∧
        generateFractional env' fractionalBrownianMotion .fft (1 / 2) c [] = some T' ∧ T.paths ≠ T'.paths := by
  refine ⟨⟨fun _ _ => 0, 0, fun _ _ _ _ _ => [], fun _ _ _ _ => [0], fun _ _ => [], fun _ _ => 0⟩,
    ⟨fun _ _ => 0, 0, fun _ _ _ _ _ => [], fun _ _ _ _ => [1], fun _ _ => [], fun _ _ => 0⟩,
    ⟨0, 0, 1, 1, .eulerMaruyama, 1, false, seed⟩, rfl, rfl, rfl, ⟨Config.times ⟨0, 0, 1, 1, .eulerMaruyama, 1, false, seed⟩, [[0, 0]]⟩,
    ⟨Config.times ⟨0, 0, 1, 1, .eulerMaruyama, 1, false, seed⟩, [[0, 1]]⟩, ?_, ?_, by simp⟩ <;>
  simp [generateFractional, simulate, jumpVec, allSome, runPath, push, stepOf, emStep, noiseOf, fgn, Noise.at,
    fractionalBrownianMotion, brownianMotion, jumpTerm, Config.dt]

/-- C49 (defect): fractional Brownian motion by the Euler scheme: the fractional noise, already scaled to the step by
its generator, is multiplied by `√dt` once more; Milstein and Strang add it as it is. -/
theorem C49_fractional_double_scaling (env : Env) (hurst : ℝ) (m : Method) (c : Config) (sched : List ℕ)
    (hs : c.parallel = true → ValidSched c sched) (T : Trajectories)
    (h : generateFractional env fractionalBrownianMotion m hurst c sched = some T) (i : ℕ) (hi : i < c.mPaths) (t : ℕ)
    (ht : t < c.nSteps) :
    ∃ w, (fgn env m hurst c.nSteps c.tn c.seed i)[t]? = some w ∧ T.val i (t + 1) = T.val i t +
      if c.scheme = .eulerMaruyama then √((c.tn - c.t0) / c.nSteps) * w else w := by
  obtain ⟨-, jumps, hj, hv⟩ := simulate_val hs h
  obtain rfl := Option.some.inj hj
  have h1 := (hv i hi).2 t ht
  cases hw : (fgn env m hurst c.nSteps c.tn c.seed i)[t]? with
  | none =>
    cases hc : c.scheme <;>
    simp [stepOf, hc, emStep, milsteinStep, strangStep, noiseOf, Noise.at, hw, fractionalBrownianMotion,
      brownianMotion] at h1
  | some w =>
    refine ⟨w, rfl, ?_⟩
    cases hc : c.scheme <;>
    · simp only [stepOf, hc, emStep, milsteinStep, strangStep, noiseOf, Noise.at, hw, fractionalBrownianMotion,
        brownianMotion, jumpTerm_nil, Option.bind_some, Option.map_some, Option.some.injEq] at h1
      rw [← h1]
      simp [Config.dt]

/-- C49 (defect): the jump counts are drawn once and shared: in a step, either every path of a Merton run jumps or none
does, and several arrivals in a step count once. The jump sizes come from the process's own generator. -/
theorem C49_jump_times_shared (env : Env) (mu sigma lambda : ℝ → ℝ) (hsig : ∀ t, 0 ≤ sigma t) (c : Config)
    (sched : List ℕ) (hs : c.parallel = true → ValidSched c sched) (hc : c.scheme = .eulerMaruyama) (s : ℕ)
    (hseed : c.seed = some s) (T : Trajectories) (h : generateMerton env mu sigma lambda c sched = some T)
    (hlen : ∀ l n, (env.poisson l n).length = n) (t : ℕ) (ht : t < c.nSteps) :
    (∀ i < c.mPaths, T.val i (t + 1) = T.val i t + mu (c.time t) * T.val i t * c.dt +
        sigma (c.time t) * T.val i t * √c.dt * env.normals ((s + i) % 2 ^ 64) t + env.draw i t) ∨
    (∀ i < c.mPaths, T.val i (t + 1) = T.val i t + mu (c.time t) * T.val i t * c.dt +
        sigma (c.time t) * T.val i t * √c.dt * env.normals ((s + i) % 2 ^ 64) t) := by
  obtain ⟨-, jumps, hj, hv⟩ := simulate_val hs h
  have hjl : jumps.length = c.nSteps := by
    simp only [jumpVec] at hj
    split at hj
    · rw [← Option.some.inj hj, hlen]
    · simp at hj
  obtain ⟨k, hk⟩ : ∃ k, jumps[t]? = some k := ⟨_, List.getElem?_eq_getElem (by omega)⟩
  have hne : jumps ≠ [] := by rintro rfl; simp at hjl; omega
  have key : ∀ i < c.mPaths, T.val i (t + 1) = T.val i t + mu (c.time t) * T.val i t * c.dt +
        sigma (c.time t) * T.val i t * √c.dt * env.normals ((s + i) % 2 ^ 64) t + if 0 < k then env.draw i t else 0 := by
    intro i hi
    have h1 := (hv i hi).2 t ht
    simp only [stepOf, hc, emStep, noiseOf, Noise.at, hseed, mertonJumpDiffusion, assertNonneg, hsig, if_true,
      Option.getD_some, Option.bind_some, jumpTerm, hne, if_false, hk, Option.map_some, calculateJump,
      Option.some.injEq] at h1
    rw [← h1]
  by_cases h0 : 0 < k
  · left; intro i hi; rw [key i hi, if_pos h0]
  · right; intro i hi; rw [key i hi, if_neg h0, add_zero]

/-- C49: a jump process with a non-positive intensity, or a run of no steps, panics. -/
theorem C49_panics_jumps (env : Env) (P : Process) (c : Config) (lambda : ℝ) (frac : Option (Method × ℝ))
    (sched : List ℕ) (h : lambda ≤ 0 ∨ c.nSteps = 0) : simulate env P c (some lambda) frac sched = none := by
  unfold simulate
  split
  case isFalse => rfl
  case isTrue ht =>
    have : jumpVec env c (some lambda) = none := by
      simp only [jumpVec]
      rw [if_neg]
      rintro ⟨h1, h2⟩
      rcases h with h | h
      · have : 0 < c.dt := div_pos (by linarith) (by exact_mod_cast h2)
        nlinarith
      · omega
    rw [this]; rfl

/-- C49 (defect): an Euler run of the Cox-Ingersoll-Ross process fails (NaN) as soon as a path goes negative, which one
large enough negative normal achieves from any positive starting value. -/
theorem C49_cir_fails (mu theta sigma : ℝ) (hsig : 0 < sigma) (c : Config) (hx : 0 < c.x0) (ht : c.t0 < c.tn)
    (hn : 2 ≤ c.nSteps) (hm : 0 < c.mPaths) (hp : c.parallel = false) (hc : c.scheme = .eulerMaruyama) :
    ∃ z : ℝ, ∀ env : Env, (∀ s, env.normals s 0 = z) →
      generate env (coxIngersollRoss (fun _ => mu) (fun _ => sigma) (fun _ => theta)) c [] = none := by
  have hdt : 0 < c.dt := div_pos (by linarith) (by exact_mod_cast (by omega : 0 < c.nSteps))
  have hk : 0 < sigma * √c.x0 * √c.dt := by positivity
  refine ⟨-(c.x0 + theta * (mu - c.x0) * c.dt + 1) / (sigma * √c.x0 * √c.dt), fun env hz => ?_⟩
  by_contra hcon
  obtain ⟨T, hT⟩ := Option.ne_none_iff_exists'.1 hcon
  obtain ⟨-, jumps, hj, hv⟩ := simulate_val (by simp [hp]) hT
  obtain rfl := Option.some.inj hj
  obtain ⟨h0, hst⟩ := hv 0 hm
  have h1 := hst 0 (by omega)
  have h2 := hst 1 (by omega)
  simp only [stepOf, hc, emStep, noiseOf, Noise.at, hz, coxIngersollRoss, hsig.le, h0, hx.le, and_self, if_true,
    Option.bind_some, jumpTerm_nil, Option.map_some, Option.some.injEq, mul_div_cancel₀ _ hk.ne'] at h1
  have hneg : ¬ 0 ≤ T.val 0 1 := by
    rw [← h1]; simp only [not_le]; linarith
  simp [stepOf, hc, emStep, coxIngersollRoss, hneg] at h2

/-- C49 (defect): in the stochastic volatility simulation the second component has no influence: the returned asset
paths do not depend on the volatility's starting value, drift or diffusion. -/
theorem C49_stochastic_volatility_ignored (drift1 drift2 drift2' diffusion1 diffusion2 diffusion2' : ℝ → ℝ → ℝ)
    (z : ℕ → ℕ → ℝ) (x0 y0 y0' t0 tn : ℝ) (n m : ℕ) :
    svEulerMaruyama drift1 drift2 diffusion1 diffusion2 z x0 y0 t0 tn n m =
      svEulerMaruyama drift1 drift2' diffusion1 diffusion2' z x0 y0' t0 tn n m := by
  have hlast : ∀ (l : List (ℝ × ℝ)) (d : ℝ × ℝ), (l.getLastD d).1 = (l.map Prod.fst).getLastD d.1 := by
    intro l
    induction l with
    | nil => intro d; rfl
    | cons a l ih => intro d; simp only [List.getLastD_cons, List.map_cons]; exact ih a
  have key : ∀ (z : ℕ → ℝ) (dt : ℝ) (k : ℕ),
      (svPath drift1 drift2 diffusion1 diffusion2 z t0 dt k (x0, y0)).map Prod.fst =
      (svPath drift1 drift2' diffusion1 diffusion2' z t0 dt k (x0, y0')).map Prod.fst := by
    intro z dt k
    induction k with
    | zero => rfl
    | succ k ih =>
      simp only [svPath, List.map_append, List.map_cons, List.map_nil, hlast, ih]
  unfold svEulerMaruyama
  simp only [key]

/-- Example: the asset path does move. -/
example : svEulerMaruyama (fun x _ => x) (fun _ _ => 0) (fun _ _ => 0) (fun _ _ => 0) (fun _ _ => 0) 1 1 0 1 1 1 =
    some ⟨[0, 1], [[1, 2]]⟩ := by
  simp [svEulerMaruyama, svPath, List.range_succ]; norm_num

/-- C49: the numerical derivative in the Black-Derman-Toy drift is exact for a quadratic volatility. -/
theorem C49_bdt_diff (a b k t : ℝ) : diff (fun s => a + b * s + k * s ^ 2) t = b + 2 * k * t := by
  have he : (0:ℝ) < ((1:ℝ) / 2 ^ 52) ^ ((1:ℝ) / 3) := by positivity
  unfold diff
  simp only
  generalize ((1:ℝ) / 2 ^ 52) ^ ((1:ℝ) / 3) = e at he
  split
  · field_simp; ring
  · have := he.ne'
    field_simp
    ring

/-! ### Concrete runs meeting the hypotheses above -/

/-- Example: a Brownian motion can be run with every scheme, seed and number of paths. -/
theorem demo_brownian (env : Env) (sch : Scheme) (m : ℕ) (seed : Option ℕ) :
    ∃ T, generate env brownianMotion ⟨0, 0, 1, 4, sch, m, false, seed⟩ [] = some T :=
  C49_total _ _ _ _ (by simp) (by norm_num) (fun _ _ => rfl) (fun _ _ => rfl)

theorem demo_gbm (env : Env) (mu sigma : ℝ) (hs : 0 ≤ sigma) (n m : ℕ) (sch : Scheme) (seed : Option ℕ) :
    ∃ T, generate env (geometricBrownianMotion (fun _ => mu) (fun _ => sigma)) ⟨100, 0, 1, n, sch, m, false, seed⟩ []
      = some T :=
  C49_total _ _ _ _ (by simp) (by norm_num) (fun _ _ => rfl)
    (fun _ _ => by simp [geometricBrownianMotion, assertNonneg, hs])

example (env : Env) := C49_shape env _ _ none none [] (by simp) _ (demo_brownian env .milstein 3 none).choose_spec

example (env : Env) := C49_panics_times env brownianMotion ⟨0, 1, 1, 4, .milstein, 3, false, none⟩ none none [] le_rfl

/-- The second path of seed 5 is the first of seed 6. -/
example (env : Env) := C49_seed_shift env env rfl brownianMotion ⟨0, 0, 1, 4, .milstein, 3, false, none⟩ [] [] 5 0
  (by simp) (by simp) _ _ (demo_brownian env .milstein 3 (some 5)).choose_spec
  (demo_brownian env .milstein 3 (some 6)).choose_spec (by norm_num)

example (env : Env) := C49_more_paths env env rfl brownianMotion ⟨0, 0, 1, 4, .milstein, 3, false, some 5⟩ [] [] 5 7 2
  (by simp) (by simp) rfl _ _ (demo_brownian env .milstein 3 (some 5)).choose_spec
  (demo_brownian env .milstein 7 (some 5)).choose_spec (by norm_num) (by norm_num)

example (env : Env) := C49_ode env _ (fun x _ => 1 / 10 * x) (fun _ _ => rfl)
  (fun _ _ => by simp [geometricBrownianMotion, assertNonneg]) _ [] (by simp) rfl _
  (demo_gbm env (1 / 10) 0 le_rfl 4 2 .eulerMaruyama none).choose_spec 1 (by norm_num)

/-- The noiseless geometric Brownian motion at 10% from 100 tends to `100 e^(1/10)`. -/
example (env : Env) := C49_gbm_noiseless_limit env (1 / 10) ⟨100, 0, 1, 4, .eulerMaruyama, 2, false, none⟩ _ rfl rfl
  (fun n => (demo_gbm env (1 / 10) 0 le_rfl n 2 .eulerMaruyama none).choose_spec) 1 (by norm_num)

example (env : Env) : ∃ T, generate env (ornsteinUhlenbeck (fun _ => 3) (fun _ => 0) (fun _ => 2))
    ⟨10, 0, 1, 4, .eulerMaruyama, 2, false, none⟩ [] = some T ∧ T.val 1 3 = 3 + 7 * (1 / 2) ^ 3 := by
  obtain ⟨T, hT⟩ := C49_total env (ornsteinUhlenbeck (fun _ => 3) (fun _ => 0) (fun _ => 2))
    ⟨10, 0, 1, 4, .eulerMaruyama, 2, false, none⟩ [] (by simp) (by norm_num)
    (fun _ _ => by simp [ornsteinUhlenbeck, assertNonneg]) (fun _ _ => by simp [ornsteinUhlenbeck, assertNonneg])
  refine ⟨T, hT, ?_⟩
  rw [C49_ou_noiseless env 3 2 _ [] (by simp) rfl _ hT 1 (by norm_num) 3 (by norm_num)]
  norm_num

example (env : Env) : ∃ T, generate env (arithmeticBrownianMotion (fun _ => 3) (fun _ => 2))
    ⟨10, 0, 1, 4, .milstein, 2, false, some 5⟩ [] = some T ∧
    T.val 1 4 = T.val 1 3 + 3 * (1 / 4) + 2 * env.normals 6 3 := by
  obtain ⟨T, hT⟩ := C49_total env (arithmeticBrownianMotion (fun _ => 3) (fun _ => 2))
    ⟨10, 0, 1, 4, .milstein, 2, false, some 5⟩ [] (by simp) (by norm_num)
    (fun _ _ => by simp [arithmeticBrownianMotion]) (fun _ _ => by simp [arithmeticBrownianMotion, assertNonneg])
  refine ⟨T, hT, ?_⟩
  rw [C49_unscaled_noise env 3 2 (by norm_num) _ [] (by simp) (Or.inl rfl) 5 rfl _ hT 1 (by norm_num) 3 (by norm_num)]
  norm_num

example (env : Env) := C49_milstein_correction env (1 / 10) (1 / 5) (by norm_num) _ [] (by simp) rfl 5 rfl _
  (demo_gbm env (1 / 10) (1 / 5) (by norm_num) 4 2 .milstein (some 5)).choose_spec 1 (by norm_num) 3 (by norm_num) _ _ _
  rfl rfl rfl

/-- A bridge of one step from 100 to 200 can be run, and misses its end. -/
example (env : Env) (T : Trajectories) (h : generate env (geometricBrownianBridge (fun _ => 0) (fun _ => 0) 200 1)
    ⟨100, 0, 1, 1, .eulerMaruyama, 1, false, none⟩ [] = some T) : T.val 0 1 < 200 := by
  have h0 := ((simulate_val (by simp) h).2.choose_spec.2 0 (by norm_num)).1
  have := C49_bridge_misses_end env 200 (by norm_num) ⟨100, 0, 1, 1, .eulerMaruyama, 1, false, none⟩ [] (by simp) rfl T 0
    rfl h 0 (by norm_num)
  refine lt_of_le_of_ne this.1 fun he => ?_
  have := this.2.1 he
  rw [h0] at this
  norm_num at this

example (env : Env) : ∃ T, generate env (geometricBrownianBridge (fun _ => 0) (fun _ => 0) 200 1)
    ⟨100, 0, 1, 1, .eulerMaruyama, 1, false, none⟩ [] = some T := by
  simp [generate, simulate, jumpVec, allSome, runPath, push, stepOf, emStep, geometricBrownianBridge, Config.time,
    Config.dt, assertNonneg, noiseOf, Noise.at, jumpTerm, List.range_succ]

example (Z u : ℕ → ℕ → ℝ) := C49_fractional_paths_identical _ _ (3 / 4) _ _
  (fun _ => by simp only [ValidSched]; decide) rfl _ (demo_fractional Z u .cholesky).choose_spec 0 1 (by norm_num)
  (by norm_num)

example (Z u : ℕ → ℕ → ℝ) (m : Method) := C49_fractional_double_scaling _ (3 / 4) m _ _
  (fun _ => by simp only [ValidSched]; decide) _ (demo_fractional Z u m).choose_spec 1 (by norm_num) 1 (by norm_num)

example (Z u : ℕ → ℕ → ℝ) := C49_jump_times_shared _ _ _ _ (fun _ => by norm_num) _ _
  (fun _ => by simp only [ValidSched]; decide) rfl 5 rfl _ (demo_jumps Z u).choose_spec (by simp) 1 (by norm_num)

example (env : Env) (P : Process) := C49_panics_jumps env P ⟨0, 0, 1, 4, .milstein, 3, false, none⟩ 0 none []
  (Or.inl le_rfl)

/-- A Cox-Ingersoll-Ross run of two steps from 1 that a large draw makes fail. -/
example := C49_cir_fails 1 1 1 one_pos ⟨1, 0, 1, 2, .eulerMaruyama, 1, false, some 5⟩ one_pos one_pos le_rfl one_pos rfl
  rfl

end Verif.Stochastics
