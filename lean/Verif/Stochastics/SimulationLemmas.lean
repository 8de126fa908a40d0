import Verif.Stochastics.Simulation
import Mathlib.Data.List.GetD
import Mathlib.Algebra.BigOperators.Ring.Finset
import Mathlib.Tactic.Linarith
import Mathlib.Tactic.FieldSimp
import Mathlib.Tactic.Ring

/-! Helper lemmas about the simulation loops. -/

namespace Verif.Stochastics

open Classical

theorem allSome_eq_some {α : Type} (l : List (Option α)) (r : List α) : allSome l = some r ↔ l = r.map some := by
  induction l generalizing r with
  | nil => cases r <;> simp [allSome]
  | cons a l ih =>
    cases a with
    | none => cases r <;> simp [allSome]
    | some x =>
      simp only [allSome, Option.bind_some, Option.map_eq_some_iff]
      constructor
      · rintro ⟨r', h, rfl⟩
        rw [(ih r').1 h]; rfl
      · intro h
        cases r with
        | nil => simp at h
        | cons y r' =>
          simp only [List.map_cons, List.cons.injEq, Option.some.injEq] at h
          exact ⟨r', (ih r').2 h.2, by rw [h.1]⟩

/-- A path of a step function: it starts at `x0` and each point is the step of the one before. -/
structure IsPath (step : ℕ → ℝ → Option ℝ) (n : ℕ) (x0 : ℝ) (p : List ℝ) : Prop where
  length : p.length = n + 1
  start : p[0]? = some x0
  steps : ∀ t < n, ∃ x y, p[t]? = some x ∧ p[t + 1]? = some y ∧ step t x = some y

theorem push_eq_some (step : ℕ → ℝ → Option ℝ) (p q : List ℝ) :
    push step p = some q ↔ ∃ x y, p[p.length - 1]? = some x ∧ step (p.length - 1) x = some y ∧ q = p ++ [y] := by
  unfold push
  cases h : p[p.length - 1]? with
  | none => simp
  | some x =>
    simp only [Option.bind_some, Option.map_eq_some_iff, Option.some.injEq, exists_and_left]
    constructor
    · rintro ⟨y, h1, rfl⟩; exact ⟨x, rfl, y, h1, rfl⟩
    · rintro ⟨x', rfl, y, h1, rfl⟩; exact ⟨y, h1, rfl⟩

theorem runPath_isPath (step : ℕ → ℝ → Option ℝ) (n : ℕ) (x0 : ℝ) (p : List ℝ) :
    runPath step n [x0] = some p ↔ IsPath step n x0 p := by
  induction n generalizing p with
  | zero =>
    simp only [runPath, Option.some.injEq]
    constructor
    · rintro rfl; exact ⟨rfl, rfl, by simp⟩
    · rintro ⟨h1, h2, -⟩
      match p, h1 with
      | [y], _ => simpa using h2.symm
  | succ n ih =>
    simp only [runPath, Option.bind_eq_some_iff]
    constructor
    · rintro ⟨q, hq, h⟩
      obtain ⟨hl, h0, hs⟩ := (ih q).1 hq
      obtain ⟨x, y, hx, hy, rfl⟩ := (push_eq_some _ _ _).1 h
      rw [hl] at hx hy
      refine ⟨by simp [hl], by rw [List.getElem?_append_left (by omega)]; exact h0, fun t ht => ?_⟩
      rcases Nat.lt_succ_iff_lt_or_eq.1 ht with ht | rfl
      · obtain ⟨a, b, h1, h2, h3⟩ := hs t ht
        exact ⟨a, b, by rw [List.getElem?_append_left (by omega)]; exact h1,
          by rw [List.getElem?_append_left (by omega)]; exact h2, h3⟩
      · exact ⟨x, y, by rw [List.getElem?_append_left (by omega)]; exact hx,
          by rw [List.getElem?_append_right (by omega)]; simp [hl], hy⟩
    · rintro ⟨hl, h0, hs⟩
      have hd : p = p.dropLast ++ [p.getLast (by rintro rfl; simp at hl)] := (List.dropLast_append_getLast _).symm
      have hdl : p.dropLast.length = n + 1 := by simp [hl]
      generalize p.dropLast = q at hd hdl
      generalize p.getLast _ = z at hd
      subst hd
      refine ⟨q, (ih q).2 ⟨hdl, ?_, fun t ht => ?_⟩, ?_⟩
      · rwa [List.getElem?_append_left (by omega)] at h0
      · obtain ⟨a, b, h1, h2, h3⟩ := hs t (by omega)
        rw [List.getElem?_append_left (by omega)] at h1 h2
        exact ⟨a, b, h1, h2, h3⟩
      · obtain ⟨a, b, h1, h2, h3⟩ := hs n (by omega)
        rw [List.getElem?_append_left (by omega)] at h1
        rw [List.getElem?_append_right (by omega)] at h2
        simp only [hdl, Nat.sub_self, List.getElem?_cons_zero, Option.some.injEq] at h2
        subst h2
        rw [push_eq_some, hdl]
        exact ⟨a, z, h1, h3, rfl⟩

theorem runPath_eq_iterate (step : ℕ → ℝ → Option ℝ) (n : ℕ) (p : List ℝ) :
    runPath step n p = (fun o : Option (List ℝ) => o.bind (push step))^[n] (some p) := by
  induction n with
  | zero => rfl
  | succ n ih => rw [Function.iterate_succ_apply', ← ih]; rfl

theorem exec_eq_iterate (step : ℕ → ℕ → ℝ → Option ℝ) (sched : List ℕ) (s : ℕ → Option (List ℝ)) (i : ℕ) :
    exec step sched s i = (fun o : Option (List ℝ) => o.bind (push (step i)))^[sched.count i] (s i) := by
  induction sched generalizing s with
  | nil => rfl
  | cons j l ih =>
    rw [exec, ih]
    by_cases h : j = i
    · subst h
      rw [List.count_cons_self, Function.iterate_succ_apply, Function.update_self]
    · rw [List.count_cons_of_ne h, Function.update_of_ne (Ne.symm h)]

theorem exec_eq_runPath (step : ℕ → ℕ → ℝ → Option ℝ) (sched : List ℕ) (p : List ℝ) (i n : ℕ) (h : sched.count i = n) :
    exec step sched (fun _ => some p) i = runPath (step i) n p := by
  rw [exec_eq_iterate, runPath_eq_iterate, h]

/-- The simulation with the parallelism resolved. -/
theorem simulate_eq (env : Env) (P : Process) (c : Config) (jc : Option ℝ) (frac : Option (Method × ℝ))
    (sched : List ℕ) (hs : c.parallel = true → ValidSched c sched) :
    simulate env P c jc frac sched =
      if c.t0 < c.tn then
        (jumpVec env c jc).bind fun jumps =>
          (allSome ((List.range c.mPaths).map fun i =>
            runPath (stepOf P c jumps (noiseOf env c frac i) (env.draw i)) c.nSteps [c.x0])).map fun ps => ⟨c.times, ps⟩
      else none := by
  unfold simulate
  split
  · congr 1
    funext jumps
    show Option.map _ (allSome _) = Option.map _ (allSome _)
    congr 2
    refine List.map_congr_left fun i hi => ?_
    cases hp : c.parallel with
    | false => simp
    | true => simp only [if_true]; exact exec_eq_runPath _ _ _ _ _ (hs hp i (List.mem_range.1 hi))
  · rfl

theorem simulate_eq_some (env : Env) (P : Process) (c : Config) (jc : Option ℝ) (frac : Option (Method × ℝ))
    (sched : List ℕ) (hs : c.parallel = true → ValidSched c sched) (T : Trajectories) :
    simulate env P c jc frac sched = some T ↔ c.t0 < c.tn ∧ ∃ jumps, jumpVec env c jc = some jumps ∧
      T.times = c.times ∧ T.paths.length = c.mPaths ∧ ∀ i < c.mPaths, ∃ p, T.paths[i]? = some p ∧
        IsPath (stepOf P c jumps (noiseOf env c frac i) (env.draw i)) c.nSteps c.x0 p := by
  rw [simulate_eq _ _ _ _ _ _ hs]
  split
  case isFalse h => simp [h]
  case isTrue h =>
    simp only [Option.bind_eq_some_iff, Option.map_eq_some_iff, allSome_eq_some]
    constructor
    · rintro ⟨jumps, hj, ps, hps, rfl⟩
      refine ⟨h, jumps, hj, rfl, ?_, fun i hi => ?_⟩
      · simpa using (congrArg List.length hps).symm
      · have := congrArg (fun l => l[i]?) hps
        simp only [List.getElem?_map, List.getElem?_range hi, Option.map_some] at this
        cases hq : ps[i]? with
        | none => simp [hq] at this
        | some p =>
          simp only [hq, Option.map_some, Option.some.injEq] at this
          exact ⟨p, rfl, (runPath_isPath _ _ _ _).1 this⟩
    · rintro ⟨-, jumps, hj, ht, hl, hp⟩
      refine ⟨jumps, hj, T.paths, ?_, by rw [← ht]⟩
      apply List.ext_getElem?
      intro i
      by_cases hi : i < c.mPaths
      · obtain ⟨p, hp1, hp2⟩ := hp i hi
        simp only [List.getElem?_map, List.getElem?_range hi, Option.map_some, hp1]
        rw [(runPath_isPath _ _ _ _).2 hp2]
      · rw [List.getElem?_eq_none (by simpa using hi), List.getElem?_eq_none (by simp [hl]; omega)]

/-- A path exists when the step never fails. -/
theorem exists_isPath (step : ℕ → ℝ → Option ℝ) (n : ℕ) (x0 : ℝ) (h : ∀ t < n, ∀ x, ∃ y, step t x = some y) :
    ∃ p, IsPath step n x0 p := by
  induction n with
  | zero => exact ⟨[x0], rfl, rfl, by simp⟩
  | succ n ih =>
    obtain ⟨p, hp⟩ := ih fun t ht => h t (by omega)
    obtain ⟨y, hy⟩ := h n (by omega) (p[n]'(by rw [hp.length]; omega))
    refine ⟨p ++ [y], (runPath_isPath _ _ _ _).1 ?_⟩
    rw [runPath, (runPath_isPath _ _ _ _).2 hp, Option.bind_some, push_eq_some]
    have hl : p.length - 1 = n := by rw [hp.length]; rfl
    refine ⟨p[n]'(by rw [hp.length]; omega), y, ?_, by rw [hl]; exact hy, rfl⟩
    rw [hl]
    exact List.getElem?_eq_getElem _

theorem IsPath.unique {step : ℕ → ℝ → Option ℝ} {n : ℕ} {x0 : ℝ} {p q : List ℝ} (hp : IsPath step n x0 p)
    (hq : IsPath step n x0 q) : p = q := by
  have h1 := (runPath_isPath _ _ _ _).2 hp
  rw [(runPath_isPath _ _ _ _).2 hq] at h1
  exact (Option.some.inj h1).symm

/-- A path whose step is the total function `f` is the sequence of iterates. -/
theorem IsPath.eq_seq {step : ℕ → ℝ → Option ℝ} {n : ℕ} {x0 : ℝ} {p : List ℝ} (hp : IsPath step n x0 p)
    (s : ℕ → ℝ) (h0 : s 0 = x0) (hs : ∀ t < n, step t (s t) = some (s (t + 1))) : ∀ t ≤ n, p[t]? = some (s t) := by
  intro t ht
  induction t with
  | zero => rw [h0]; exact hp.start
  | succ t ih =>
    obtain ⟨x, y, h1, h2, h3⟩ := hp.steps t (by omega)
    rw [ih (by omega)] at h1
    obtain rfl := Option.some.inj h1
    rw [hs t (by omega)] at h3
    rw [h2, ← h3]

theorem jumpTerm_nil (P : Process) (x time u : ℝ) (t : ℕ) : jumpTerm P [] x time u t = some 0 := by simp [jumpTerm]

/-- The value of path `i` at step `t`. -/
def Trajectories.val (T : Trajectories) (i t : ℕ) : ℝ := (T.paths.getD i []).getD t 0

theorem IsPath.getD {step : ℕ → ℝ → Option ℝ} {n : ℕ} {x0 : ℝ} {p : List ℝ} (hp : IsPath step n x0 p) :
    p.getD 0 0 = x0 ∧ ∀ t < n, step t (p.getD t 0) = some (p.getD (t + 1) 0) := by
  refine ⟨by simp [List.getD, hp.start], fun t ht => ?_⟩
  obtain ⟨x, y, h1, h2, h3⟩ := hp.steps t ht
  simp [List.getD, h1, h2, h3]

theorem simulate_val {env : Env} {P : Process} {c : Config} {jc : Option ℝ} {frac : Option (Method × ℝ)}
    {sched : List ℕ} (hs : c.parallel = true → ValidSched c sched) {T : Trajectories}
    (h : simulate env P c jc frac sched = some T) :
    c.t0 < c.tn ∧ ∃ jumps, jumpVec env c jc = some jumps ∧ ∀ i < c.mPaths, T.val i 0 = c.x0 ∧ ∀ t < c.nSteps,
      stepOf P c jumps (noiseOf env c frac i) (env.draw i) t (T.val i t) = some (T.val i (t + 1)) := by
  obtain ⟨h0, jumps, hj, -, -, hp⟩ := (simulate_eq_some _ _ _ _ _ _ hs _).1 h
  refine ⟨h0, jumps, hj, fun i hi => ?_⟩
  obtain ⟨p, h1, h2⟩ := hp i hi
  have : T.paths.getD i [] = p := by simp [List.getD, h1]
  unfold Trajectories.val
  rw [this]
  exact h2.getD

/-- The values determine the path. -/
theorem simulate_path {env : Env} {P : Process} {c : Config} {jc : Option ℝ} {frac : Option (Method × ℝ)}
    {sched : List ℕ} (hs : c.parallel = true → ValidSched c sched) {T : Trajectories}
    (h : simulate env P c jc frac sched = some T) (i : ℕ) (hi : i < c.mPaths) :
    ∃ p, T.paths[i]? = some p ∧ p.length = c.nSteps + 1 ∧ ∀ t ≤ c.nSteps, p[t]? = some (T.val i t) := by
  obtain ⟨h0, jumps, hj, -, -, hp⟩ := (simulate_eq_some _ _ _ _ _ _ hs _).1 h
  obtain ⟨p, h1, h2⟩ := hp i hi
  refine ⟨p, h1, h2.length, fun t ht => ?_⟩
  have : T.paths.getD i [] = p := by simp [List.getD, h1]
  unfold Trajectories.val
  rw [this, List.getD_eq_getElem _ _ (by rw [h2.length]; omega), List.getElem?_eq_getElem (by rw [h2.length]; omega)]

end Verif.Stochastics
