import Verif.Stochastics.SimulationSpec
import Verif.Stochastics.SimulationLemmas
import Mathlib.Tactic

/-!
# C49: the equation each process simulates
-/

namespace Verif.Stochastics

open Classical

/-- `P` answers with the coefficients of `S` where `S` is accepted, and elsewhere not at all. -/
def Represents (P : Process) (S : Spec.Sde) : Prop := ∀ x t,
  (S.valid x t → P.drift x t = some (S.drift x t) ∧ P.diffusion x t = some (S.diffusion x t)) ∧
    (¬ S.valid x t → P.drift x t = none ∨ P.diffusion x t = none)

/-- C49: every process has the coefficients of the equation it is named after, and fails exactly outside the
parameters and states of that equation. -/
theorem C49_processes (mu sigma theta alpha elasticity : ℝ → ℝ) (e T : ℝ) :
    Represents brownianMotion Spec.brownian ∧
    Represents fractionalBrownianMotion Spec.brownian ∧
    Represents (arithmeticBrownianMotion mu sigma) (Spec.arithmetic mu sigma) ∧
    Represents (geometricBrownianMotion mu sigma) (Spec.geometric mu sigma) ∧
    Represents (mertonJumpDiffusion mu sigma) (Spec.geometric mu sigma) ∧
    Represents (constantElasticityOfVariance mu sigma elasticity) (Spec.elasticVariance mu sigma elasticity) ∧
    Represents (coxIngersollRoss mu sigma theta) (Spec.squareRoot mu sigma theta) ∧
    Represents (fractionalCoxIngersollRoss mu sigma theta) (Spec.squareRootAnySign mu sigma theta) ∧
    Represents (ornsteinUhlenbeck mu sigma theta) (Spec.meanReverting mu sigma theta) ∧
    Represents (fractionalOrnsteinUhlenbeck mu sigma theta) (Spec.meanReverting mu sigma theta) ∧
    Represents (hullWhite alpha sigma theta) (Spec.extendedVasicek sigma theta alpha) ∧
    Represents (hoLee sigma theta) (Spec.hoLee sigma theta) ∧
    Represents (blackDermanToy sigma theta) (Spec.blackDermanToy sigma theta (diff sigma)) ∧
    Represents (geometricBrownianBridge mu sigma e T) (Spec.bridge mu sigma e T) := by
  refine ⟨?_, ?_, ?_, ?_, ?_, ?_, ?_, ?_, ?_, ?_, ?_, ?_, ?_, ?_⟩ <;> intro x t
  · exact ⟨fun _ => ⟨rfl, rfl⟩, fun h => absurd trivial h⟩
  · exact ⟨fun _ => ⟨rfl, rfl⟩, fun h => absurd trivial h⟩
  · exact ⟨fun h => ⟨rfl, if_pos h⟩, fun h => .inr (if_neg h)⟩
  · exact ⟨fun h => ⟨rfl, if_pos h⟩, fun h => .inr (if_neg h)⟩
  · exact ⟨fun h => ⟨rfl, if_pos h⟩, fun h => .inr (if_neg h)⟩
  · exact ⟨fun h => ⟨rfl, if_pos ⟨h.1, h.2.1.1, h.2.1.2, h.2.2⟩⟩,
      fun h => .inr (if_neg fun h' => h ⟨h'.1, ⟨h'.2.1, h'.2.2.1⟩, h'.2.2.2⟩)⟩
  · exact ⟨fun h => ⟨rfl, if_pos h⟩, fun h => .inr (if_neg h)⟩
  · exact ⟨fun h => ⟨rfl, if_pos h⟩, fun h => .inr (if_neg h)⟩
  · exact ⟨fun h => ⟨rfl, if_pos h⟩, fun h => .inr (if_neg h)⟩
  · exact ⟨fun h => ⟨rfl, if_pos h⟩, fun h => .inr (if_neg h)⟩
  · exact ⟨fun _ => ⟨rfl, rfl⟩, fun h => absurd trivial h⟩
  · refine ⟨fun h => ⟨if_pos h.1, if_pos h.2⟩, fun h => ?_⟩
    by_cases h1 : 0 ≤ theta t
    · exact .inr (if_neg fun h2 => h ⟨h1, h2⟩)
    · exact .inl (if_neg h1)
  · exact ⟨fun h => ⟨if_neg h, rfl⟩, fun h => .inl (if_pos (not_not.1 h))⟩
  · refine ⟨fun h => ⟨?_, if_pos h.1⟩, fun h => ?_⟩
    · rw [geometricBrownianBridge]
      simp only
      rw [if_pos h.2]
      simp only [Spec.bridge, Option.some.injEq]
      ring
    · by_cases h1 : 0 ≤ sigma t
      · exact .inl (if_neg fun h2 => h ⟨h1, h2⟩)
      · exact .inr (if_neg h1)

/-- C49: an Euler-Maruyama run succeeds exactly when the time span is positive and the scheme of the equation stays where
the equation is accepted, on every path and in every step; its paths are then the scheme's, started at `x_0`, the normals
of path `i` being those of the generator seeded with `seed + i`. -/
theorem C49_euler_outcome (env : Env) (P : Process) (S : Spec.Sde) (hP : Represents P S) (c : Config) (sched : List ℕ)
    (hs : c.parallel = true → ValidSched c sched) (hc : c.scheme = .eulerMaruyama) (s : ℕ) (hseed : c.seed = some s)
    (T : Trajectories) :
    let dt := (c.tn - c.t0) / c.nSteps
    let path := fun i => S.euler c.t0 dt c.x0 (env.normals ((s + i) % 2 ^ 64))
    generate env P c sched = some T ↔
      c.t0 < c.tn ∧ (∀ i < c.mPaths, ∀ t < c.nSteps, S.valid (path i t) (c.t0 + dt * t)) ∧
        T.times = (List.range (c.nSteps + 1)).map (fun t : ℕ => c.t0 + dt * t) ∧
        T.paths = (List.range c.mPaths).map fun i => (List.range (c.nSteps + 1)).map (path i) := by
  intro dt path
  unfold generate
  have hstep : ∀ i t x, stepOf P c [] (noiseOf env c none i) (env.draw i) t x =
      if S.valid x (c.t0 + dt * t) then some (x + S.drift x (c.t0 + dt * t) * dt +
        S.diffusion x (c.t0 + dt * t) * √dt * env.normals ((s + i) % 2 ^ 64) t) else none := by
    intro i t x
    have ht : c.time t = c.t0 + dt * t := rfl
    simp only [stepOf, hc, emStep, noiseOf, Noise.at, hseed, Option.getD_some, jumpTerm, if_true, ht]
    split_ifs with h
    · obtain ⟨h1, h2⟩ := (hP x (c.t0 + dt * t)).1 h
      rw [h1, h2]
      simp only [Option.bind_some, Option.map_some, add_zero, Option.some.injEq]
      rfl
    · rcases (hP x (c.t0 + dt * t)).2 h with h1 | h1
      · rw [h1]; rfl
      · rw [h1]; cases P.drift x (c.t0 + dt * t) <;> rfl
  have hpath : ∀ i p, IsPath (stepOf P c [] (noiseOf env c none i) (env.draw i)) c.nSteps c.x0 p ↔
      (∀ t < c.nSteps, S.valid (path i t) (c.t0 + dt * t)) ∧
        p = (List.range (c.nSteps + 1)).map (path i) := by
    intro i p
    constructor
    · intro h
      have hval : ∀ t, t ≤ c.nSteps → p[t]? = some (path i t) := by
        intro t
        induction t with
        | zero => intro _; exact h.start
        | succ t ih =>
          intro ht
          obtain ⟨x, y, hx, hy, hxy⟩ := h.steps t (by omega)
          rw [ih (by omega), Option.some.injEq] at hx
          rw [hstep, ← hx] at hxy
          split_ifs at hxy with hv
          rw [hy, ← hxy]
          rfl
      refine ⟨fun t ht => ?_, ?_⟩
      · obtain ⟨x, y, hx, hy, hxy⟩ := h.steps t ht
        rw [hval t (by omega), Option.some.injEq] at hx
        rw [hstep, ← hx] at hxy
        by_contra hv
        rw [if_neg hv] at hxy
        cases hxy
      · apply List.ext_getElem?
        intro t
        rw [List.getElem?_map]
        by_cases ht : t < c.nSteps + 1
        · rw [hval t (by omega), List.getElem?_range ht]; rfl
        · rw [List.getElem?_eq_none (by rw [h.length]; omega),
            List.getElem?_eq_none (by rw [List.length_range]; omega)]
          rfl
    · rintro ⟨hv, rfl⟩
      refine ⟨by simp, by rw [List.getElem?_map, List.getElem?_range (by omega)]; rfl, fun t ht => ?_⟩
      refine ⟨path i t, path i (t + 1), by rw [List.getElem?_map, List.getElem?_range (by omega)]; rfl,
        by rw [List.getElem?_map, List.getElem?_range (by omega)]; rfl, ?_⟩
      rw [hstep, if_pos (hv t ht)]
      rfl
  rw [simulate_eq_some _ _ _ _ _ _ hs]
  constructor
  · rintro ⟨h1, jumps, hj, h2, h3, h4⟩
    obtain rfl := Option.some.inj hj
    refine ⟨h1, fun i hi => ?_, h2, ?_⟩
    · obtain ⟨p, -, hp⟩ := h4 i hi
      exact ((hpath i p).1 hp).1
    · apply List.ext_getElem?
      intro i
      rw [List.getElem?_map]
      by_cases hi : i < c.mPaths
      · obtain ⟨p, hp1, hp⟩ := h4 i hi
        rw [hp1, List.getElem?_range hi, ((hpath i p).1 hp).2]
        rfl
      · rw [List.getElem?_eq_none (by omega), List.getElem?_eq_none (by rw [List.length_range]; omega)]
        rfl
  · rintro ⟨h1, h2, h3, h4⟩
    refine ⟨h1, [], rfl, h3, by rw [h4]; simp, fun i hi => ⟨_, ?_, (hpath i _).2 ⟨h2 i hi, rfl⟩⟩⟩
    rw [h4, List.getElem?_map, List.getElem?_range hi]
    rfl

/-- C49: the stochastic volatility simulation panics exactly when the time span is not positive; the paths it returns are
the Euler-Maruyama scheme of the first component's coefficients alone. -/
theorem C49_stochastic_volatility_euler (drift1 drift2 diffusion1 diffusion2 : ℝ → ℝ → ℝ) (z : ℕ → ℕ → ℝ)
    (x0 y0 t0 tn : ℝ) (n m : ℕ) :
    (tn ≤ t0 → svEulerMaruyama drift1 drift2 diffusion1 diffusion2 z x0 y0 t0 tn n m = none) ∧
      (t0 < tn → svEulerMaruyama drift1 drift2 diffusion1 diffusion2 z x0 y0 t0 tn n m =
        some ⟨(List.range (n + 1)).map fun t : ℕ => t0 + (tn - t0) / n * t,
          (List.range m).map fun i => (List.range (n + 1)).map
            ((⟨drift1, diffusion1, fun _ _ => True⟩ : Spec.Sde).euler t0 ((tn - t0) / n) x0 (z i))⟩) := by
  constructor
  · intro h
    exact if_neg (not_lt.2 h)
  · intro h
    unfold svEulerMaruyama
    rw [if_pos h]
    simp only [Option.some.injEq, Trajectories.mk.injEq, true_and]
    apply List.map_congr_left
    intro i _
    generalize (tn - t0) / n = dt
    have key : ∀ k, (svPath drift1 drift2 diffusion1 diffusion2 (z i) t0 dt k (x0, y0)).map Prod.fst =
        (List.range (k + 1)).map
          ((⟨drift1, diffusion1, fun _ _ => True⟩ : Spec.Sde).euler t0 dt x0 (z i)) := by
      intro k
      have hlast : ∀ (l : List (ℝ × ℝ)) (d : ℝ × ℝ), (l.getLastD d).1 = (l.map Prod.fst).getLastD d.1 := by
        intro l
        induction l with
        | nil => intro d; rfl
        | cons a l ih => intro d; simp only [List.getLastD_cons, List.map_cons]; exact ih a
      induction k with
      | zero => rfl
      | succ k ih =>
        rw [List.range_succ, List.map_append, ← ih]
        simp only [svPath, List.map_append, List.map_cons, List.map_nil, hlast, ih]
        congr 2
        have he : ((List.range (k + 1)).map
            ((⟨drift1, diffusion1, fun _ _ => True⟩ : Spec.Sde).euler t0 dt x0 (z i))).getLastD x0 =
            (⟨drift1, diffusion1, fun _ _ => True⟩ : Spec.Sde).euler t0 dt x0 (z i) k := by
          rw [List.range_succ, List.map_append]
          simp
        rw [he]
        simp only [Spec.Sde.euler]
        ring
    exact key n

/-- A Ho-Lee run with a negative drift panics; one with non-negative drift and volatility succeeds. -/
example (env : Env) (sigma theta : ℝ → ℝ) (T : Trajectories) :
    (generate env (hoLee sigma theta) ⟨0, 0, 1, 2, .eulerMaruyama, 3, false, some 5⟩ [] = some T → 0 ≤ theta 0) := by
  intro h
  have hP := (C49_processes sigma sigma theta theta theta 0 0).2.2.2.2.2.2.2.2.2.2.2.1
  have := ((C49_euler_outcome env _ _ hP _ [] (by simp) rfl 5 rfl T).1 h).2.1 0 (by norm_num) 0 (by norm_num)
  simpa using this.1

end Verif.Stochastics
