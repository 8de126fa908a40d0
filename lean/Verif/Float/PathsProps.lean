import Verif.Float.PathsSpec
import Verif.Float.NanLemmas
import Verif.Float.SumProps
import Verif.Float.NanSpec
import Verif.Float.JumpsProps
import Verif.Float.Schemes

/-!
# C117: simulated paths beyond the finite numbers, for all schemes and processes

The specification is in `PathsSpec`: being finite, and what the platform's functions return outside their domains.
-/

namespace Verif.Float.Paths

open X64
open Verif.Float.Nan (zero le)

/-! ## One step -/

/-- What a value can be followed by: NaN only by NaN, and an infinity by itself or NaN. -/
def Leads (x y : X64) : Prop := (x = nan → y = nan) ∧ ∀ s, x = inf s → y = inf s ∨ y = nan

theorem Leads.refl (x : X64) : Leads x x := ⟨id, fun _ h => Or.inl h⟩

theorem Leads.trans {x y z : X64} (h : Leads x y) (g : Leads y z) : Leads x z := by
  refine ⟨fun e => g.1 (h.1 e), fun s e => ?_⟩
  rcases h.2 s e with e' | e'
  · exact g.2 s e'
  · exact Or.inr (g.1 e')

theorem nan_add (a : X64) : nan.add a = nan := by cases a <;> rfl

theorem add_nan (a : X64) : a.add nan = nan := by cases a <;> rfl

theorem nan_mul (a : X64) : nan.mul a = nan := by cases a <;> rfl

theorem mul_nan (a : X64) : a.mul nan = nan := by cases a <;> rfl

theorem sub_nan (a : X64) : a.sub nan = nan := by cases a <;> rfl

theorem nan_sub (a : X64) : nan.sub a = nan := by unfold X64.sub; exact nan_add _

theorem leads_add (x a : X64) : Leads x (x.add a) := by
  refine ⟨fun e => by rw [e, nan_add], fun s e => ?_⟩
  subst e
  cases a with
  | fin a => exact Or.inl rfl
  | nan => exact Or.inr rfl
  | inf t =>
    by_cases h : s = t
    · left; simp [X64.add, h]
    · right; simp [X64.add, h]

theorem leads_nan {x : X64} (h : Leads nan x) : x = nan := h.1 rfl

variable {P : Process} {dt scale z time x y jump : X64}

theorem emStep_leads (h : emStep P dt scale z time x jump = some y) : Leads x y := by
  simp only [emStep, Option.bind_eq_bind, Option.bind_eq_some_iff, Option.pure_def, Option.some.injEq] at h
  obtain ⟨a, -, b, -, rfl⟩ := h
  exact ((leads_add _ _).trans (leads_add _ _)).trans (leads_add _ _)

theorem milsteinStep_leads (h : milsteinStep P dt z time x jump = some y) : Leads x y := by
  simp only [milsteinStep, Option.bind_eq_bind, Option.bind_eq_some_iff, Option.pure_def, Option.some.injEq] at h
  obtain ⟨a, -, b, -, u, -, d, -, b', -, rfl⟩ := h
  exact (((leads_add _ _).trans (leads_add _ _)).trans (leads_add _ _)).trans (leads_add _ _)

theorem strangStep_leads (h : strangStep P dt z time x jump = some y) : Leads x y := by
  simp only [strangStep, Option.bind_eq_bind, Option.bind_eq_some_iff, Option.pure_def, Option.some.injEq] at h
  obtain ⟨a, -, b, -, rfl⟩ := h
  exact (((leads_add _ _).trans (leads_add _ _)).trans (leads_add _ _)).trans (leads_add _ _)

theorem step_leads {s : Scheme} {jumps : List X64} {noise : ℕ → X64} {k : ℕ} (h : step s P dt scale jumps noise k time x = some y) :
    Leads x y := by
  simp only [step, Option.bind_eq_bind, Option.bind_eq_some_iff] at h
  obtain ⟨j, -, h⟩ := h
  cases s with
  | eulerMaruyama => exact emStep_leads h
  | milstein => exact milsteinStep_leads h
  | strangSplitting => exact strangStep_leads h

/-- A NaN drift, a NaN diffusion or NaN noise make the next value NaN. -/
theorem step_nan {s : Scheme} {jumps : List X64} {noise : ℕ → X64} {k : ℕ} (h : step s P dt scale jumps noise k time x = some y)
    (hn : noise k = nan ∨ P.drift x time = some nan ∨ s ≠ .strangSplitting ∧ P.diffusion x time = some nan) : y = nan := by
  simp only [step, Option.bind_eq_bind, Option.bind_eq_some_iff] at h
  obtain ⟨j, -, h⟩ := h
  cases s with
  | eulerMaruyama =>
    simp only [emStep, Option.bind_eq_bind, Option.bind_eq_some_iff, Option.pure_def, Option.some.injEq] at h
    obtain ⟨a, ha, b, hb, rfl⟩ := h
    rcases hn with e | e | ⟨-, e⟩
    · rw [e, mul_nan, add_nan, nan_add]
    · rw [ha] at e; cases e; rw [nan_mul, add_nan, nan_add, nan_add]
    · rw [hb] at e; cases e; rw [nan_mul, nan_mul, add_nan, nan_add]
  | milstein =>
    simp only [milsteinStep, Option.bind_eq_bind, Option.bind_eq_some_iff, Option.pure_def, Option.some.injEq] at h
    obtain ⟨a, ha, b, hb, u, -, d, -, b', -, rfl⟩ := h
    rcases hn with e | e | ⟨-, e⟩
    · rw [e, mul_nan, add_nan, nan_add, nan_add]
    · rw [ha] at e; cases e; rw [nan_mul, add_nan, nan_add, nan_add, nan_add]
    · rw [hb] at e; cases e; rw [nan_mul, add_nan, nan_add, nan_add]
  | strangSplitting =>
    simp only [strangStep, Option.bind_eq_bind, Option.bind_eq_some_iff, Option.pure_def, Option.some.injEq] at h
    obtain ⟨a, ha, b, hb, rfl⟩ := h
    rcases hn with e | e | ⟨e, -⟩
    · rw [e, mul_nan, add_nan, nan_add, nan_add]
    · rw [ha] at e; cases e; simp only [mul_nan, nan_mul, add_nan, nan_add]
    · exact absurd rfl e

/-! ## Whole paths -/

theorem run_next {f : ℕ → X64 → X64 → Option X64} {times : List X64} {x0 : X64} {n : ℕ} {p : List X64} (h : run f times x0 n = some p) :
    p.length = n + 1 ∧ p[0]? = some x0 ∧
      ∀ k < n, ∃ t x y, times[k]? = some t ∧ p[k]? = some x ∧ f k t x = some y ∧ p[k + 1]? = some y := by
  induction n generalizing p with
  | zero => cases h; exact ⟨rfl, rfl, fun k hk => absurd hk (by omega)⟩
  | succ n ih =>
    simp only [run, Option.bind_eq_bind, Option.bind_eq_some_iff, Option.pure_def, Option.some.injEq] at h
    obtain ⟨q, hq, t, ht, x, hx, y, hy, rfl⟩ := h
    obtain ⟨i1, i2, i3⟩ := ih hq
    refine ⟨by simp [i1], ?_, fun k hk => ?_⟩
    · rw [List.getElem?_append_left (by omega)]; exact i2
    · rcases Nat.lt_or_ge k n with hlt | hge
      · obtain ⟨t', x', y', h1, h2, h3, h4⟩ := i3 k hlt
        refine ⟨t', x', y', h1, ?_, h3, ?_⟩
        · rw [List.getElem?_append_left (by omega)]; exact h2
        · rw [List.getElem?_append_left (by omega)]; exact h4
      · have : k = n := by omega
        subst this
        refine ⟨t, x, y, ht, ?_, hy, ?_⟩
        · rw [List.getElem?_append_left (by omega)]; exact hx
        · rw [List.getElem?_append_right (by omega), i1]; simp

variable {sqrt : X64 → X64} {c : Config} {jumps : List X64} {noise : ℕ → X64} {times path : List X64}

theorem simulate_next (h : simulate sqrt P c jumps noise = some (times, path)) :
    c.t0.lt c.tn = true ∧ times = c.times ∧ path.length = c.nSteps + 1 ∧ path[0]? = some c.x0 ∧
      ∀ k < c.nSteps, ∃ t x y, times[k]? = some t ∧ path[k]? = some x ∧
        step c.scheme P c.dt (sqrt c.dt) jumps noise k t x = some y ∧ path[k + 1]? = some y := by
  unfold simulate at h
  split_ifs at h with hc
  simp only [Option.bind_eq_bind, Option.bind_eq_some_iff, Option.pure_def, Option.some.injEq, Prod.mk.injEq] at h
  obtain ⟨p, hp, rfl, rfl⟩ := h
  exact ⟨hc, rfl, run_next hp⟩

theorem path_leads (h : simulate sqrt P c jumps noise = some (times, path)) {i j : ℕ} (hij : i ≤ j) {x y : X64} (hx : path[i]? = some x)
    (hy : path[j]? = some y) : Leads x y := by
  obtain ⟨-, -, hl, -, hn⟩ := simulate_next h
  induction j, hij using Nat.le_induction generalizing y with
  | base => rw [hx] at hy; cases hy; exact Leads.refl _
  | succ j hj ih =>
    have hjl := (List.getElem?_eq_some_iff.1 hy).1
    obtain ⟨t, a, b, -, h2, h3, h4⟩ := hn j (by omega)
    rw [h4] at hy
    cases hy
    exact (ih h2).trans (step_leads h3)

/-- C117: whatever is simulated, with whatever scheme, noise and jumps: a value that is not finite is never followed by a finite one. NaN is
followed by NaN only, and an infinity by the same infinity or NaN. -/
theorem C117_not_finite_stays (sqrt : X64 → X64) (P : Process) (c : Config) (jumps : List X64) (noise : ℕ → X64) (times path : List X64)
    (h : simulate sqrt P c jumps noise = some (times, path)) (i j : ℕ) (hij : i ≤ j) (x y : X64) (hx : path[i]? = some x)
    (hy : path[j]? = some y) : (¬ Finite x → ¬ Finite y) ∧ (x = nan → y = nan) ∧ ∀ s, x = inf s → y = inf s ∨ y = nan := by
  have hL := path_leads h hij hx hy
  refine ⟨fun hf hy' => ?_, hL.1, hL.2⟩
  cases x with
  | fin a => exact hf trivial
  | nan => rw [hL.1 rfl] at hy'; exact hy'
  | inf s => rcases hL.2 s rfl with e | e <;> (rw [e] at hy'; exact hy')

/-- C117: so looking at the last value is enough: if it is finite, the path has one more values than steps, starts at the initial value, and all
of its values are finite. -/
theorem C117_last_value (sqrt : X64 → X64) (P : Process) (c : Config) (jumps : List X64) (noise : ℕ → X64) (times path : List X64)
    (h : simulate sqrt P c jumps noise = some (times, path)) :
    path.length = c.nSteps + 1 ∧ path[0]? = some c.x0 ∧ ∃ y, path.getLast? = some y ∧ (Finite y ↔ ∀ x ∈ path, Finite x) := by
  obtain ⟨-, -, hl, h0, -⟩ := simulate_next h
  have hne : path ≠ [] := by intro e; rw [e] at hl; simp at hl
  refine ⟨hl, h0, path.getLast hne, List.getLast?_eq_getLast_of_ne_nil hne, fun hf x hx => ?_, fun ha => ha _ (List.getLast_mem hne)⟩
  obtain ⟨i, hi, rfl⟩ := List.getElem_of_mem hx
  have hlast : path[path.length - 1]? = some (path.getLast hne) := by
    rw [← List.getLast?_eq_getElem?]; exact List.getLast?_eq_getLast_of_ne_nil hne
  by_contra hc
  exact (C117_not_finite_stays sqrt P c jumps noise times path h i (path.length - 1) (by omega) path[i] _
    (List.getElem?_eq_getElem hi) hlast).1 hc hf

theorem nan_after (h : simulate sqrt P c jumps noise = some (times, path)) {k : ℕ}
    (hn : ∀ t x, times[k]? = some t → path[k]? = some x →
      noise k = nan ∨ P.drift x t = some nan ∨ c.scheme ≠ .strangSplitting ∧ P.diffusion x t = some nan)
    {j : ℕ} (hkj : k < j) (hj : j ≤ c.nSteps) : path[j]? = some nan := by
  obtain ⟨-, -, hl, -, hnext⟩ := simulate_next h
  obtain ⟨t, a, b, h1, h2, h3, h4⟩ := hnext k (by omega)
  rw [step_nan h3 (hn t a h1 h2)] at h4
  have hjl : j < path.length := by omega
  have e := List.getElem?_eq_getElem hjl
  rw [e, (path_leads h (show k + 1 ≤ j from hkj) h4 e).1 rfl]

/-- C117: NaN noise makes all later values NaN, and so does a drift that is NaN, and, in the Euler-Maruyama and the Milstein scheme, a
diffusion that is. -/
theorem C117_nan_from (sqrt : X64 → X64) (P : Process) (c : Config) (jumps : List X64) (noise : ℕ → X64) (times path : List X64)
    (h : simulate sqrt P c jumps noise = some (times, path)) (k : ℕ) (t x : X64) (ht : times[k]? = some t) (hx : path[k]? = some x)
    (hn : noise k = nan ∨ P.drift x t = some nan ∨ c.scheme ≠ .strangSplitting ∧ P.diffusion x t = some nan)
    (j : ℕ) (hkj : k < j) (hj : j ≤ c.nSteps) : path[j]? = some nan :=
  nan_after h (fun t' x' ht' hx' => by rw [ht] at ht'; rw [hx] at hx'; cases ht'; cases hx'; exact hn) hkj hj

/-- C117 (defect): a Cox-Ingersoll-Ross path that falls below zero is NaN from then on, without any error, in the Euler-Maruyama and the
Milstein scheme. -/
theorem C117_cir_negative (sqrt ln : X64 → X64) (powf : X64 → X64 → X64) (hm : Ieee sqrt ln powf) (mu sigma theta : X64 → X64) (c : Config)
    (hc : c.scheme ≠ .strangSplitting) (jumps : List X64) (noise : ℕ → X64) (times path : List X64)
    (h : simulate sqrt (cir sqrt mu sigma theta) c jumps noise = some (times, path)) (k : ℕ) (x : F64) (hx : path[k]? = some (fin x))
    (h0 : x.val < 0) (j : ℕ) (hkj : k < j) (hj : j ≤ c.nSteps) : path[j]? = some nan := by
  obtain ⟨-, -, -, -, hnext⟩ := simulate_next h
  obtain ⟨t, a, b, h1, h2, h3, -⟩ := hnext k (by omega)
  rw [hx] at h2
  cases h2
  refine C117_nan_from sqrt _ c jumps noise times path h k t _ h1 hx (Or.inr (Or.inr ⟨hc, ?_⟩)) j hkj hj
  by_cases hs : le zero (sigma t) = true
  · simp only [cir, hs, if_true, hm.sqrt_neg x h0, mul_nan]
  · have hd : (cir sqrt mu sigma theta).diffusion (fin x) t = none := by simp only [cir, if_neg hs]
    simp only [step, Option.bind_eq_bind, Option.bind_eq_some_iff] at h3
    obtain ⟨jj, -, h3⟩ := h3
    cases hsch : c.scheme with
    | strangSplitting => exact absurd hsch hc
    | eulerMaruyama => rw [hsch] at h3; simp [emStep, hd] at h3
    | milstein => rw [hsch] at h3; simp [milsteinStep, hd] at h3

/-- C117 (defect): so is a path of constant elasticity of variance that falls below zero, if the elasticity is strictly between 0 and 1. -/
theorem C117_cev_negative (sqrt ln : X64 → X64) (powf : X64 → X64 → X64) (hm : Ieee sqrt ln powf) (mu sigma elasticity : X64 → X64)
    (he : ∀ t, ∃ e : F64, elasticity t = fin e ∧ 0 < e.val ∧ e.val < 1) (c : Config)
    (hc : c.scheme ≠ .strangSplitting) (jumps : List X64) (noise : ℕ → X64) (times path : List X64)
    (h : simulate sqrt (cev powf mu sigma elasticity) c jumps noise = some (times, path)) (k : ℕ) (x : F64) (hx : path[k]? = some (fin x))
    (h0 : x.val < 0) (j : ℕ) (hkj : k < j) (hj : j ≤ c.nSteps) : path[j]? = some nan := by
  obtain ⟨-, -, -, -, hnext⟩ := simulate_next h
  obtain ⟨t, a, b, h1, h2, h3, -⟩ := hnext k (by omega)
  rw [hx] at h2
  cases h2
  obtain ⟨e, e1, e2, e3⟩ := he t
  refine C117_nan_from sqrt _ c jumps noise times path h k t _ h1 hx (Or.inr (Or.inr ⟨hc, ?_⟩)) j hkj hj
  by_cases hs : (le zero (sigma t) && (le zero (elasticity t) && le (elasticity t) (ofQ 1))) = true
  · simp only [cev]
    rw [if_pos hs, e1, hm.pow_neg x e h0 e2 e3, mul_nan]
  · have hd : (cev powf mu sigma elasticity).diffusion (fin x) t = none := by simp only [cev, if_neg hs]
    simp only [step, Option.bind_eq_bind, Option.bind_eq_some_iff] at h3
    obtain ⟨jj, -, h3⟩ := h3
    cases hsch : c.scheme with
    | strangSplitting => exact absurd hsch hc
    | eulerMaruyama => rw [hsch] at h3; simp [emStep, hd] at h3
    | milstein => rw [hsch] at h3; simp [milsteinStep, hd] at h3

theorem inf_div_mul (a b : X64) (z : F64) (hz : z.val = 0) (ha : a = nan ∨ ∃ s, a = inf s) : ((a.div b).mul (fin z)) = nan := by
  rcases ha with rfl | ⟨s, rfl⟩
  · cases b <;> rfl
  · cases b with
    | fin b => simp [X64.div, X64.mul, hz]
    | inf t => rfl
    | nan => rfl

/-- C117 (defect): a geometric Brownian bridge that reaches zero or falls below it is NaN from then on, in every scheme; with a negative end value it is
NaN from the first step on. -/
theorem C117_bridge (sqrt ln : X64 → X64) (powf : X64 → X64 → X64) (hm : Ieee sqrt ln powf) (mu sigma : X64 → X64) (endValue : F64)
    (endTime : X64) (c : Config) (jumps : List X64) (noise : ℕ → X64) (times path : List X64)
    (h : simulate sqrt (bridge ln mu sigma (fin endValue) endTime) c jumps noise = some (times, path)) :
    (∀ (k : ℕ) (x : F64), path[k]? = some (fin x) → x.val ≤ 0 → ∀ j, k < j → j ≤ c.nSteps → path[j]? = some nan) ∧
    (endValue.val < 0 → ∀ j, 0 < j → j ≤ c.nSteps → path[j]? = some nan) := by
  refine ⟨fun k x hx h0 j hkj hj => nan_after h (fun t x' _ hx' => ?_) hkj hj,
    fun he j hkj hj => nan_after h (fun t x' _ hx' => ?_) hkj hj⟩
  · rw [hx] at hx'
    cases hx'
    refine Or.inr (Or.inl ?_)
    simp only [bridge]
    rcases h0.lt_or_eq with h0 | h0
    · rw [hm.ln_neg x h0, sub_nan, Nan.nan_div, nan_mul, add_nan]
    · rw [hm.ln_zero x h0]
      have : ((ln (fin endValue)).sub (inf true)) = nan ∨ ∃ s, ((ln (fin endValue)).sub (inf true)) = inf s := by
        cases ln (fin endValue) with
        | fin a => exact Or.inr ⟨_, rfl⟩
        | nan => exact Or.inl rfl
        | inf s => cases s <;> simp [X64.sub, X64.neg, X64.add]
      rw [inf_div_mul _ _ _ h0 this, add_nan]
  · refine Or.inr (Or.inl ?_)
    simp only [bridge]
    rw [hm.ln_neg endValue he, nan_sub, Nan.nan_div, nan_mul, add_nan]

theorem add_left_not_finite {a : X64} (h : ¬ Finite a) (b : X64) : ¬ Finite (a.add b) := by
  cases a with
  | fin a => exact absurd trivial h
  | nan => rw [nan_add]; exact id
  | inf s =>
    cases b with
    | fin b => exact id
    | nan => exact id
    | inf t => simp only [X64.add]; split_ifs <;> exact id

theorem add_right_not_finite {b : X64} (h : ¬ Finite b) (a : X64) : ¬ Finite (a.add b) := by
  cases b with
  | fin b => exact absurd trivial h
  | nan => rw [add_nan]; exact id
  | inf s =>
    cases a with
    | fin a => exact id
    | nan => exact id
    | inf t => simp only [X64.add]; split_ifs <;> exact id

theorem mul_left_not_finite {a : X64} (h : ¬ Finite a) (b : X64) : ¬ Finite (a.mul b) := by
  cases a with
  | fin a => exact absurd trivial h
  | nan => rw [nan_mul]; exact id
  | inf s =>
    cases b with
    | fin b => simp only [X64.mul]; split_ifs <;> exact id
    | nan => exact id
    | inf t => exact id

theorem mul_right_not_finite {b : X64} (h : ¬ Finite b) (a : X64) : ¬ Finite (a.mul b) := by
  cases b with
  | fin b => exact absurd trivial h
  | nan => rw [mul_nan]; exact id
  | inf s =>
    cases a with
    | fin a => simp only [X64.mul]; split_ifs <;> exact id
    | nan => exact id
    | inf t => exact id

theorem div_zero_not_finite {z : F64} (hz : z.val = 0) (a : X64) : ¬ Finite (a.div (fin z)) := by
  cases a with
  | fin a => simp only [X64.div, hz, if_true]; split_ifs <;> exact id
  | nan => exact id
  | inf s => exact id

/-- A drift that is not finite makes the next value so. -/
theorem step_not_finite {s : Scheme} {jumps : List X64} {noise : ℕ → X64} {k : ℕ} {a : X64}
    (h : step s P dt scale jumps noise k time x = some y) (hd : P.drift x time = some a) (ha : ¬ Finite a) : ¬ Finite y := by
  simp only [step, Option.bind_eq_bind, Option.bind_eq_some_iff] at h
  obtain ⟨j, -, h⟩ := h
  cases s with
  | eulerMaruyama =>
    simp only [emStep, Option.bind_eq_bind, Option.bind_eq_some_iff, Option.pure_def, Option.some.injEq] at h
    obtain ⟨a', ha', b, hb, rfl⟩ := h
    rw [hd] at ha'
    cases ha'
    exact add_left_not_finite (add_left_not_finite (add_right_not_finite (mul_left_not_finite ha _) _) _) _
  | milstein =>
    simp only [milsteinStep, Option.bind_eq_bind, Option.bind_eq_some_iff, Option.pure_def, Option.some.injEq] at h
    obtain ⟨a', ha', b, hb, u, -, d, -, b', -, rfl⟩ := h
    rw [hd] at ha'
    cases ha'
    exact add_left_not_finite (add_left_not_finite (add_left_not_finite (add_right_not_finite (mul_left_not_finite ha _) _) _) _) _
  | strangSplitting =>
    simp only [strangStep, Option.bind_eq_bind, Option.bind_eq_some_iff, Option.pure_def, Option.some.injEq] at h
    obtain ⟨a', ha', b, hb, rfl⟩ := h
    rw [hd] at ha'
    cases ha'
    exact add_left_not_finite (add_left_not_finite (add_left_not_finite (add_right_not_finite
      (mul_left_not_finite (mul_right_not_finite ha _) _) _) _) _) _

/-- C117 (defect): a Black-Derman-Toy path whose volatility is zero at a time is not finite from the next step on, in every scheme, without any
error. -/
theorem C117_bdt_zero_volatility (sqrt : X64 → X64) (root : X64) (sigma theta : X64 → X64) (c : Config) (jumps : List X64) (noise : ℕ → X64)
    (times path : List X64) (h : simulate sqrt (blackDermanToy root sigma theta) c jumps noise = some (times, path)) (k : ℕ) (t : X64) (z : F64)
    (ht : times[k]? = some t) (hs : sigma t = fin z) (hz : z.val = 0) (j : ℕ) (hkj : k < j) (y : X64) (hy : path[j]? = some y) : ¬ Finite y := by
  obtain ⟨-, -, hl, -, hnext⟩ := simulate_next h
  have hjl := (List.getElem?_eq_some_iff.1 hy).1
  obtain ⟨t', x, b, h1, h2, h3, h4⟩ := hnext k (by omega)
  rw [ht] at h1
  cases h1
  have hd : (blackDermanToy root sigma theta).drift x t = some ((theta t).add (((diff root sigma t).div (fin z)).mul x)) := by
    simp only [blackDermanToy, hs]
  have hb := step_not_finite h3 hd (add_right_not_finite (mul_left_not_finite (div_zero_not_finite hz _) _) _)
  exact (C117_not_finite_stays sqrt _ c jumps noise times path h (k + 1) j hkj b y h4 hy).1 hb

/-- A product of ordinary numbers, doubled, is a number other than zero. -/
theorem double_mul_ne {r t : F64} (hr : 2 ^ (-100 : ℤ) ≤ |r.val|) (hr1 : |r.val| ≤ 2 ^ (100 : ℤ)) (ht : 2 ^ (-100 : ℤ) ≤ |t.val|)
    (ht1 : |t.val| ≤ 2 ^ (100 : ℤ)) : ∃ e b : F64, (fin r).mul (fin t) = fin e ∧ (ofQ 2).mul (fin e) = fin b ∧ b.val ≠ 0 := by
  have rep : ∀ k : ℤ, -1074 ≤ k → Rep ((2 : ℚ) ^ k) := fun k hk => by
    have := rep_of_le 1 k (by norm_num) hk
    simpa using this
  have lo : ∀ (q : ℚ) (k : ℤ), -1074 ≤ k → 2 ^ k ≤ |q| → 2 ^ k ≤ |rnd q| := by
    intro q k hk hq
    rcases le_total 0 q with h | h
    · rw [abs_of_nonneg h] at hq
      exact (le_rnd (rep k hk) hq).trans (le_abs_self _)
    · rw [abs_of_nonpos h] at hq
      have hn : Rep (-(2 : ℚ) ^ k) := by
        have := rep_of_le (-1) k (by norm_num) hk
        simpa using this
      have h2 : rnd q ≤ -(2 : ℚ) ^ k := rnd_le hn (by linarith)
      exact le_trans (by linarith) (neg_le_abs _)
  have big : ∀ k : ℤ, k < 1024 → (2 : ℚ) ^ k < 2 ^ 1024 := fun k hk => by
    rw [← zpow_natCast]
    exact zpow_lt_zpow_right₀ (by norm_num) (by exact_mod_cast hk)
  have p1 : |r.val * t.val| ≤ 2 ^ (200 : ℤ) := by
    rw [abs_mul, show (200 : ℤ) = 100 + 100 by norm_num, zpow_add₀ (by norm_num)]
    exact mul_le_mul hr1 ht1 (abs_nonneg _) (by positivity)
  have p2 : 2 ^ (-200 : ℤ) ≤ |r.val * t.val| := by
    rw [abs_mul, show (-200 : ℤ) = -100 + -100 by norm_num, zpow_add₀ (by norm_num)]
    exact mul_le_mul hr ht (by positivity) (abs_nonneg _)
  obtain ⟨e, e1, e2⟩ := toF64_isSome (x := r.val * t.val) ((rnd_abs_le (rep 200 (by norm_num)) p1).trans_lt (big 200 (by norm_num)))
  have q1 : |e.val| ≤ 2 ^ (200 : ℤ) := by rw [e2]; exact rnd_abs_le (rep 200 (by norm_num)) p1
  have q2 : 2 ^ (-200 : ℤ) ≤ |e.val| := by rw [e2]; exact lo _ _ (by norm_num) p2
  have v2 : (lit 2).val = 2 := by decide +kernel
  have o2 : ofQ 2 = fin (lit 2) := Nan.fin_of (by have := toF64_val (lit 2); rwa [v2] at this)
  have r1 : |2 * e.val| ≤ 2 ^ (201 : ℤ) := by
    rw [abs_mul, abs_two, show (201 : ℤ) = 1 + 200 by norm_num, zpow_add₀ (by norm_num), zpow_one]
    exact mul_le_mul_of_nonneg_left q1 (by norm_num)
  have r2 : 2 ^ (-200 : ℤ) ≤ |2 * e.val| := by
    rw [abs_mul, abs_two]
    have := abs_nonneg e.val
    linarith
  obtain ⟨b, b1, b2⟩ := toF64_isSome (x := 2 * e.val) ((rnd_abs_le (rep 201 (by norm_num)) r1).trans_lt (big 201 (by norm_num)))
  refine ⟨e, b, Nan.fin_of e1, ?_, fun h => ?_⟩
  · rw [o2]
    have : (fin (lit 2)).mul (fin e) = ofQ ((lit 2).val * e.val) := rfl
    rw [this, v2]
    exact Nan.fin_of b1
  · have := lo _ _ (by norm_num) r2
    rw [← b2, h, abs_zero] at this
    have hp : (0 : ℚ) < 2 ^ (-200 : ℤ) := by positivity
    linarith

/-- C117: with a constant volatility other than zero, the drift of the Black-Derman-Toy process is exactly `theta(t)` at every finite value,
at time zero and at times within `2^±100`. -/
theorem C117_bdt_constant_volatility (root : F64) (hr : 2 ^ (-100 : ℤ) ≤ |root.val|) (hr1 : |root.val| ≤ 2 ^ (100 : ℤ)) (s : F64) (hs : s.val ≠ 0)
    (theta : X64 → X64) (x t a : F64) (ha : theta (fin t) = fin a)
    (ht : t.val = 0 ∨ 2 ^ (-100 : ℤ) ≤ |t.val| ∧ |t.val| ≤ 2 ^ (100 : ℤ)) :
    (blackDermanToy (fin root) (fun _ => fin s) theta).drift (fin x) (fin t) = some (fin a) := by
  have v1 : (lit 1).val = 1 := by decide +kernel
  have h1 : (2 : ℚ) ^ (-100 : ℤ) ≤ |(lit 1).val| := by
    rw [v1, abs_one, ← zpow_zero (2 : ℚ)]; exact zpow_le_zpow_right₀ (by norm_num) (by norm_num)
  have h2 : |(lit 1).val| ≤ (2 : ℚ) ^ (100 : ℤ) := by
    rw [v1, abs_one, ← zpow_zero (2 : ℚ)]; exact zpow_le_zpow_right₀ (by norm_num) (by norm_num)
  obtain ⟨e, b, e1, e2, e3⟩ : ∃ e b : F64, (if isZero (fin t) then fin root else (fin root).mul (fin t)) = fin e ∧ (ofQ 2).mul (fin e) = fin b ∧
      b.val ≠ 0 := by
    rcases ht with h0 | ⟨g1, g2⟩
    · obtain ⟨e, b, k1, k2, k3⟩ := double_mul_ne hr hr1 h1 h2
      have : (fin root).mul (fin (lit 1)) = fin root := by
        have hm : (fin root).mul (fin (lit 1)) = ofQ (root.val * (lit 1).val) := rfl
        rw [hm, v1, mul_one]
        exact Nan.fin_of (toF64_val root)
      rw [this] at k1
      cases k1
      exact ⟨root, b, by simp [isZero, h0], k2, k3⟩
    · obtain ⟨e, b, k1, k2, k3⟩ := double_mul_ne hr hr1 g1 g2
      have h0 : t.val ≠ 0 := by
        intro h
        rw [h, abs_zero] at g1
        have hp : (0 : ℚ) < 2 ^ (-100 : ℤ) := by positivity
        linarith
      exact ⟨e, b, by simp [isZero, h0, k1], k2, k3⟩
  have o0 : ofQ 0 = zero := Nan.fin_of (toF64_val F64.zero)
  have z1 : (fin s).sub (fin s) = zero := by
    obtain ⟨n, n1, n2⟩ := toF64_isSome (x := -s.val) (by rw [rnd_rep (rep_neg s.rep), abs_neg]; exact s.fin)
    rw [rnd_rep (rep_neg s.rep)] at n2
    have h : (fin s).neg = fin n := Nan.fin_of n1
    have h' : (fin s).sub (fin s) = (fin s).add (fin s).neg := rfl
    rw [h', h]
    have h'' : (fin s).add (fin n) = ofQ (s.val + n.val) := rfl
    rw [h'', n2, add_neg_cancel]; exact o0
  have z2 : ∀ c : F64, c.val ≠ 0 → zero.div (fin c) = zero := by
    intro c hc
    have : zero.div (fin c) = if c.val = 0 then (if (0 : ℚ) = 0 then nan else inf (decide ((0 : ℚ) < 0))) else ofQ (0 / c.val) := rfl
    rw [this, if_neg hc, zero_div, o0]
  have z3 : zero.mul (fin x) = zero := by
    have : zero.mul (fin x) = ofQ (0 * x.val) := rfl
    rw [this, zero_mul, o0]
  have z4 : (fin a).add zero = fin a := by
    have : (fin a).add zero = ofQ (a.val + 0) := rfl
    rw [this, _root_.add_zero]
    exact Nan.fin_of (toF64_val a)
  simp only [blackDermanToy, diff, e1, e2, z1, z2 _ e3, z2 _ hs, z3, ha, z4]

/-- `2^-17` for the step, a volatility and a time of 1. -/
example (theta : X64 → X64) (x a : F64) (ha : theta (fin (lit 1)) = fin a) :
    (blackDermanToy (fin (lit (1 / 2 ^ 17))) (fun _ => fin (lit 1)) theta).drift (fin x) (fin (lit 1)) = some (fin a) :=
  C117_bdt_constant_volatility _ (by decide +kernel) (by decide +kernel) _ (by decide +kernel) theta x _ a ha
    (Or.inr ⟨by decide +kernel, by decide +kernel⟩)

/-! ## Where everything is finite -/

/-- A process on all values continues one on the finite ones. -/
structure Continues (P : Process) (Q : Sim.Process) (sizes : ℕ → Option F64) : Prop where
  drift : ∀ x t a, Q.drift x t = some a → P.drift (fin x) (fin t) = some (fin a)
  diffusion : ∀ x t a, Q.diffusion x t = some a → P.diffusion (fin x) (fin t) = some (fin a)
  jump : ∀ k x t, P.jump k (fin x) (fin t) = (sizes k).map fin

theorem add_of {a b c : F64} (h : a.add b = some c) : (fin a).add (fin b) = fin c := Nan.fin_of h

theorem mul_of {a b c : F64} (h : a.mul b = some c) : (fin a).mul (fin b) = fin c := Nan.fin_of h

theorem jumpTerm_continues {P : Process} {Q : Sim.Process} {sizes : ℕ → Option F64} (hP : Continues P Q sizes) {jumps : List F64} {k : ℕ}
    {t x j : F64} (h : Sim.jumpTerm jumps sizes k = some j) : jumpTerm P (jumps.map fin) k (fin t) (fin x) = some (fin j) := by
  unfold Sim.jumpTerm at h
  unfold jumpTerm
  rw [List.isEmpty_map]
  split_ifs at h ⊢ with he
  · rw [← Option.some.inj h]; rfl
  · rw [List.getElem?_map, hP.jump]
    obtain ⟨a, ha, rfl⟩ := Option.map_eq_some_iff.1 h
    rw [ha, Option.map_some, Option.map_some]
    unfold calculateJump Sim.calculateJump
    cases sizes k with
    | none => rfl
    | some s =>
      have : zero.lt (fin a) = decide (0 < a.val) := rfl
      simp only [Option.map_some, this, decide_eq_true_eq]
      split_ifs <;> rfl

theorem emStep_continues {P : Process} {Q : Sim.Process} {sizes : ℕ → Option F64} (hP : Continues P Q sizes) {dt scale t z j x y : F64}
    (h : Sim.jumpStep Q dt scale t z j x = some y) : emStep P (fin dt) (fin scale) (fin z) (fin t) (fin x) (fin j) = some (fin y) := by
  simp only [Sim.jumpStep, Option.bind_eq_bind, Option.bind_eq_some_iff] at h
  obtain ⟨a, h1, b, h2, q, h3, d, h4, e, h5, f, h6, g, h7, h8⟩ := h
  simp only [emStep, hP.drift _ _ _ h1, hP.diffusion _ _ _ h4, Option.bind_eq_bind, Option.bind_some, Option.pure_def, mul_of h2, add_of h3,
    mul_of h5, mul_of h6, add_of h7, add_of h8]

theorem run_continues {P : Process} {Q : Sim.Process} {sizes : ℕ → Option F64} (hP : Continues P Q sizes) {dt scale x0 : F64}
    {times jumps : List F64} {z : ℕ → F64} {n : ℕ} {p : List F64} (h : Sim.jumpPath Q dt scale times jumps z sizes x0 n = some p) :
    run (step .eulerMaruyama P (fin dt) (fin scale) (jumps.map fin) fun k => fin (z k)) (times.map fin) (fin x0) n = some (p.map fin) := by
  induction n generalizing p with
  | zero => rw [← Option.some.inj h]; rfl
  | succ n ih =>
    simp only [Sim.jumpPath, Option.bind_eq_bind, Option.bind_eq_some_iff, Option.pure_def, Option.some.injEq] at h
    obtain ⟨q, hq, t, ht, j, hj, x, hx, y, hy, rfl⟩ := h
    simp only [run, ih hq, List.getElem?_map, ht, hx, Option.map_some, Option.bind_eq_bind, Option.bind_some, step, jumpTerm_continues hP hj,
      emStep_continues hP hy, Option.pure_def, List.map_append, List.map_cons, List.map_nil]

theorem ofNat_of {n : ℕ} {a : F64} (h : Verif.Float.ofNat n = some a) : X64.ofNat n = fin a := Nan.fin_of h

theorem grid_continues {c : Sim.Config} {dt : F64} {ts : List F64} (h1 : c.dt = some dt) (h2 : c.times dt = some ts) (d : Config)
    (hd0 : d.t0 = fin c.t0) (hdn : d.tn = fin c.tn) (hds : d.nSteps = c.nSteps) : d.dt = fin dt ∧ d.times = ts.map fin := by
  have e1 : d.dt = fin dt := by
    simp only [Sim.Config.dt, Option.bind_eq_bind, Option.bind_eq_some_iff] at h1
    obtain ⟨a, a1, b, b1, b2⟩ := h1
    simp only [Config.dt, hd0, hdn, hds, Nan.sub_of a1, ofNat_of b1, Nan.div_of b2]
  have e2 : d.times = ts.map fin := by
    unfold Config.times
    rw [hds]
    unfold Sim.Config.times at h2
    have : ∀ (l : List ℕ) (ts : List F64), l.mapM (c.time dt) = some ts →
        l.map (fun t => d.t0.add (d.dt.mul (X64.ofNat t))) = ts.map fin := by
      intro l
      induction l with
      | nil => intro ts h; simp only [List.mapM_nil, Option.pure_def, Option.some.injEq] at h; subst h; rfl
      | cons a l ih =>
        intro ts h
        simp only [List.mapM_cons, Option.bind_eq_bind, Option.bind_eq_some_iff, Option.pure_def, Option.some.injEq] at h
        obtain ⟨t, ht, us, hu, rfl⟩ := h
        simp only [Sim.Config.time, Option.bind_eq_bind, Option.bind_eq_some_iff] at ht
        obtain ⟨n, n1, m, n2, m1⟩ := ht
        rw [List.map_cons, List.map_cons, ih us hu, hd0, e1, ofNat_of n1, mul_of n2]
        exact congrArg (· :: _) (add_of m1)
    exact this _ _ h2
  exact ⟨e1, e2⟩

/-- C117: where an Euler-Maruyama path in double precision is finite, with or without jumps, carrying on infinities and NaN makes no
difference: C97 and C116 are about these paths. -/
theorem C117_same (sqrt' : F64 → Option F64) (hs : Nan.Extends sqrt' sqrt) (P : Process) (Q : Sim.Process) (sizes : ℕ → Option F64)
    (hP : Continues P Q sizes) (c : Sim.Config) (jumps : List F64) (z : ℕ → F64) (times path : List F64)
    (h : Sim.simulateJumps Q sqrt' c jumps z sizes = some (times, path)) :
    simulate sqrt P ⟨fin c.x0, fin c.t0, fin c.tn, c.nSteps, .eulerMaruyama⟩ (jumps.map fin) (fun k => fin (z k)) =
      some (times.map fin, path.map fin) := by
  unfold Sim.simulateJumps at h
  split_ifs at h with hc
  simp only [Option.bind_eq_bind, Option.bind_eq_some_iff, Option.pure_def, Option.some.injEq, Prod.mk.injEq] at h
  obtain ⟨dt, h1, ts, h2, sc, h3, p, h4, rfl, rfl⟩ := h
  set d : Config := ⟨fin c.x0, fin c.t0, fin c.tn, c.nSteps, .eulerMaruyama⟩ with hd
  obtain ⟨e1, e2⟩ := grid_continues h1 h2 d rfl rfl rfl
  have e3 : d.t0.lt d.tn = true := decide_eq_true hc
  unfold simulate
  rw [if_pos e3, e1, hs _ _ h3, e2]
  simp only [hd, run_continues hP h4, Option.bind_eq_bind, Option.bind_some, Option.pure_def]

theorem milsteinStep_continues {P : Process} {Q : Sim.Process} {sizes : ℕ → Option F64} (hP : Continues P Q sizes) {dt t z x y : F64}
    (h : Sim.milsteinStep Q dt t z x = some y) : milsteinStep P (fin dt) (fin z) (fin t) (fin x) zero = some (fin y) := by
  unfold Sim.milsteinStep at h
  obtain ⟨a, a1, h'⟩ := Option.bind_eq_some_iff.1 h; clear h; rename' h' => h
  obtain ⟨b, b1, h'⟩ := Option.bind_eq_some_iff.1 h; clear h; rename' h' => h
  obtain ⟨q, q1, h'⟩ := Option.bind_eq_some_iff.1 h; clear h; rename' h' => h
  obtain ⟨d, d1, h'⟩ := Option.bind_eq_some_iff.1 h; clear h; rename' h' => h
  obtain ⟨f, f1, h'⟩ := Option.bind_eq_some_iff.1 h; clear h; rename' h' => h
  obtain ⟨r, r1, h'⟩ := Option.bind_eq_some_iff.1 h; clear h; rename' h' => h
  obtain ⟨e, e1, h'⟩ := Option.bind_eq_some_iff.1 h; clear h; rename' h' => h
  obtain ⟨xu, u1, h'⟩ := Option.bind_eq_some_iff.1 h; clear h; rename' h' => h
  obtain ⟨up, u2, h'⟩ := Option.bind_eq_some_iff.1 h; clear h; rename' h' => h
  obtain ⟨xd, w1, h'⟩ := Option.bind_eq_some_iff.1 h; clear h; rename' h' => h
  obtain ⟨dn, w2, h'⟩ := Option.bind_eq_some_iff.1 h; clear h; rename' h' => h
  obtain ⟨g, g1, h'⟩ := Option.bind_eq_some_iff.1 h; clear h; rename' h' => h
  obtain ⟨two, t1, h'⟩ := Option.bind_eq_some_iff.1 h; clear h; rename' h' => h
  obtain ⟨g', g2, h'⟩ := Option.bind_eq_some_iff.1 h; clear h; rename' h' => h
  obtain ⟨sl, s1, h'⟩ := Option.bind_eq_some_iff.1 h; clear h; rename' h' => h
  obtain ⟨zz, z1, h'⟩ := Option.bind_eq_some_iff.1 h; clear h; rename' h' => h
  obtain ⟨sq, z2, h'⟩ := Option.bind_eq_some_iff.1 h; clear h; rename' h' => h
  obtain ⟨hf, k1, h'⟩ := Option.bind_eq_some_iff.1 h; clear h; rename' h' => h
  obtain ⟨d', d2, h'⟩ := Option.bind_eq_some_iff.1 h; clear h; rename' h' => h
  obtain ⟨m, m1, h'⟩ := Option.bind_eq_some_iff.1 h; clear h; rename' h' => h
  obtain ⟨m', m2, h'⟩ := Option.bind_eq_some_iff.1 h; clear h; rename' h' => h
  obtain ⟨m'', m3, h'⟩ := Option.bind_eq_some_iff.1 h; clear h; rename' h' => h
  obtain ⟨v, v1, h'⟩ := Option.bind_eq_some_iff.1 h; clear h; rename' h' => h
  have ee : ofQ (1 / 100000) = fin e := Nan.fin_of e1
  have e2 : ofQ 2 = fin two := Nan.fin_of t1
  have eh : ofQ (1 / 2) = fin hf := Nan.fin_of k1
  have ev : (fin v).add zero = fin y := add_of h
  rw [d1] at d2
  cases d2
  unfold milsteinStep
  rw [ee, e2, eh, hP.drift _ _ _ a1, hP.diffusion _ _ _ d1]
  dsimp only
  rw [add_of u1, Nan.sub_of w1, hP.diffusion _ _ _ u2, hP.diffusion _ _ _ w2]
  change some _ = some _
  rw [mul_of b1, add_of q1, mul_of f1, add_of r1, Nan.sub_of g1, Nan.div_of g2, mul_of s1, mul_of z1, Nan.sub_of z2, mul_of m1, mul_of m2, mul_of m3,
    add_of v1, ev]

theorem halfDrift_continues {P : Process} {Q : Sim.Process} {sizes : ℕ → Option F64} (hP : Continues P Q sizes) {dt t x y : F64}
    (h : Sim.halfDrift Q dt t x = some y) :
    ∃ a, P.drift (fin x) (fin t) = some a ∧ ((ofQ (1 / 2)).mul a).mul (fin dt) = fin y := by
  unfold Sim.halfDrift at h
  obtain ⟨hf, k1, h'⟩ := Option.bind_eq_some_iff.1 h; clear h; rename' h' => h
  obtain ⟨a, a1, h'⟩ := Option.bind_eq_some_iff.1 h; clear h; rename' h' => h
  obtain ⟨b, b1, h'⟩ := Option.bind_eq_some_iff.1 h; clear h; rename' h' => h
  have eh : ofQ (1 / 2) = fin hf := Nan.fin_of k1
  exact ⟨fin a, hP.drift _ _ _ a1, by rw [eh, mul_of b1, mul_of h]⟩

theorem strangStep_continues {P : Process} {Q : Sim.Process} {sizes : ℕ → Option F64} (hP : Continues P Q sizes) {dt t z x y : F64}
    (h : Sim.strangStep Q dt t z x = some y) : strangStep P (fin dt) (fin z) (fin t) (fin x) zero = some (fin y) := by
  unfold Sim.strangStep at h
  obtain ⟨a, a1, h'⟩ := Option.bind_eq_some_iff.1 h; clear h; rename' h' => h
  obtain ⟨q, q1, h'⟩ := Option.bind_eq_some_iff.1 h; clear h; rename' h' => h
  obtain ⟨a', a2, h'⟩ := Option.bind_eq_some_iff.1 h; clear h; rename' h' => h
  obtain ⟨w, w1, h'⟩ := Option.bind_eq_some_iff.1 h; clear h; rename' h' => h
  obtain ⟨mt, t1, h'⟩ := Option.bind_eq_some_iff.1 h; clear h; rename' h' => h
  obtain ⟨d, d1, h'⟩ := Option.bind_eq_some_iff.1 h; clear h; rename' h' => h
  obtain ⟨f, f1, h'⟩ := Option.bind_eq_some_iff.1 h; clear h; rename' h' => h
  obtain ⟨r, r1, h'⟩ := Option.bind_eq_some_iff.1 h; clear h; rename' h' => h
  obtain ⟨a'', a3, h'⟩ := Option.bind_eq_some_iff.1 h; clear h; rename' h' => h
  obtain ⟨v, v1, h'⟩ := Option.bind_eq_some_iff.1 h; clear h; rename' h' => h
  rw [a1] at a2 a3
  cases a2
  cases a3
  rw [q1] at w1
  cases w1
  obtain ⟨dr, e1, e2⟩ := halfDrift_continues hP a1
  have et : (fin t).add ((ofQ (1 / 2)).mul (fin dt)) = fin mt := by
    unfold Sim.midTime at t1
    obtain ⟨hf, k1, t1⟩ := Option.bind_eq_some_iff.1 t1
    obtain ⟨b, b1, t1⟩ := Option.bind_eq_some_iff.1 t1
    have eh : ofQ (1 / 2) = fin hf := Nan.fin_of k1
    rw [eh, mul_of b1, add_of t1]
  have ev : (fin v).add zero = fin y := add_of h
  unfold strangStep
  rw [e1]
  simp only [Option.bind_eq_bind, Option.bind_some, e2, add_of q1, et, hP.diffusion _ _ _ d1, mul_of f1, add_of r1, add_of v1, ev, Option.pure_def]

theorem runWith_continues {f : F64 → F64 → F64 → Option F64} {g : ℕ → X64 → X64 → Option X64} {z : ℕ → F64}
    (hfg : ∀ k t x y, f t (z k) x = some y → g k (fin t) (fin x) = some (fin y)) {times : List F64} {x0 : F64} {n : ℕ} {p : List F64}
    (h : Sim.runWith f times z x0 n = some p) : run g (times.map fin) (fin x0) n = some (p.map fin) := by
  induction n generalizing p with
  | zero => rw [← Option.some.inj h]; rfl
  | succ n ih =>
    simp only [Sim.runWith, Option.bind_eq_bind, Option.bind_eq_some_iff, Option.pure_def, Option.some.injEq] at h
    obtain ⟨q, hq, t, ht, x, hx, y, hy, rfl⟩ := h
    simp only [run, ih hq, List.getElem?_map, ht, hx, Option.map_some, Option.bind_eq_bind, Option.bind_some, hfg _ _ _ _ hy, Option.pure_def,
      List.map_append, List.map_cons, List.map_nil]

/-- C117: the same for Milstein and Strang-splitting paths without jumps, which C115 is about. -/
theorem C117_same_schemes (P : Process) (Q : Sim.Process) (sizes : ℕ → Option F64) (hP : Continues P Q sizes) (c : Sim.Config) (z : ℕ → F64)
    (times path : List F64) :
    (Sim.milstein Q c z = some (times, path) →
      simulate sqrt P ⟨fin c.x0, fin c.t0, fin c.tn, c.nSteps, .milstein⟩ [] (fun k => fin (z k)) = some (times.map fin, path.map fin)) ∧
    (Sim.strang Q c z = some (times, path) →
      simulate sqrt P ⟨fin c.x0, fin c.t0, fin c.tn, c.nSteps, .strangSplitting⟩ [] (fun k => fin (z k)) =
        some (times.map fin, path.map fin)) := by
  constructor
  all_goals
    intro h
    first | unfold Sim.milstein at h | unfold Sim.strang at h
    unfold Sim.simulateWith at h
    split_ifs at h with hc
    simp only [Option.bind_eq_bind, Option.bind_eq_some_iff, Option.pure_def, Option.some.injEq, Prod.mk.injEq] at h
    obtain ⟨dt, h1, ts, h2, p, h4, rfl, rfl⟩ := h
    unfold simulate
  · obtain ⟨e1, e2⟩ := grid_continues h1 h2 ⟨fin c.x0, fin c.t0, fin c.tn, c.nSteps, .milstein⟩ rfl rfl rfl
    have e3 : (fin c.t0).lt (fin c.tn) = true := decide_eq_true hc
    rw [if_pos e3, e1, e2]
    have := runWith_continues (g := step .milstein P (fin dt) (sqrt (fin dt)) [] fun k => fin (z k))
      (fun k t x y hy => milsteinStep_continues hP hy) h4
    simp only [this, Option.bind_eq_bind, Option.bind_some, Option.pure_def]
  · obtain ⟨e1, e2⟩ := grid_continues h1 h2 ⟨fin c.x0, fin c.t0, fin c.tn, c.nSteps, .strangSplitting⟩ rfl rfl rfl
    have e3 : (fin c.t0).lt (fin c.tn) = true := decide_eq_true hc
    rw [if_pos e3, e1, e2]
    have := runWith_continues (g := step .strangSplitting P (fin dt) (sqrt (fin dt)) [] fun k => fin (z k))
      (fun k t x y hy => strangStep_continues hP hy) h4
    simp only [this, Option.bind_eq_bind, Option.bind_some, Option.pure_def]

/-! ## A path that fails -/

theorem ofQ_lit {q : ℚ} (h : (lit q).val = q) : ofQ q = fin (lit q) := Nan.fin_of (by
  have := toF64_val (lit q)
  rwa [h] at this)

theorem v0 : (lit 0).val = 0 := by decide +kernel
theorem v1 : (lit 1).val = 1 := by decide +kernel
theorem v2 : (lit 2).val = 2 := by decide +kernel
theorem w1 : (lit (-1)).val = -1 := by decide +kernel
theorem w3 : (lit (-3)).val = -3 := by decide +kernel

/-- Two steps from time 0 to time 2, from the value 1. -/
def twoSteps : Config := ⟨fin (lit 1), fin (lit 0), fin (lit 2), 2, .eulerMaruyama⟩

theorem twoSteps_dt : twoSteps.dt = fin (lit 1) := by
  have h0 : ofQ (0 : ℚ) = fin (lit 0) := ofQ_lit v0
  have h1 : ofQ (1 : ℚ) = fin (lit 1) := ofQ_lit v1
  have h2 : ofQ (2 : ℚ) = fin (lit 2) := ofQ_lit v2
  have e1 : (fin (lit 2)).sub (fin (lit 0)) = fin (lit 2) := by
    simp only [X64.sub, X64.neg, v0, neg_zero, h0, X64.add, v2, _root_.add_zero, h2]
  have e2 : X64.ofNat 2 = fin (lit 2) := by simp only [X64.ofNat, Nat.cast_ofNat, h2]
  unfold Config.dt twoSteps
  simp only [e1, e2, X64.div, v2]
  norm_num
  exact h1

theorem twoSteps_lt : twoSteps.t0.lt twoSteps.tn = true := by
  simp only [twoSteps, X64.lt, v0, v2]
  norm_num

/-- C117 (defect): such a path exists. A Cox-Ingersoll-Ross process with mean 2, volatility 1 and speed 1, simulated from 1 in two steps of length 1 with
noise -3, gives the values 1, -1 and NaN, whatever the noise of the second step. -/
theorem C117_cir_fails (sqrt ln : X64 → X64) (powf : X64 → X64 → X64) (hm : Ieee sqrt ln powf) (noise : ℕ → X64)
    (hz : noise 0 = fin (lit (-3))) :
    ∃ times, simulate sqrt (cir sqrt (fun _ => fin (lit 2)) (fun _ => fin (lit 1)) fun _ => fin (lit 1)) twoSteps [] noise =
      some (times, [fin (lit 1), fin (lit (-1)), nan]) := by
  have h0 : ofQ (0 : ℚ) = fin (lit 0) := ofQ_lit v0
  have h1 : ofQ (1 : ℚ) = fin (lit 1) := ofQ_lit v1
  have g1 : ofQ (-1 : ℚ) = fin (lit (-1)) := ofQ_lit w1
  have h2 : ofQ (2 : ℚ) = fin (lit 2) := ofQ_lit v2
  have g3 : ofQ (-3 : ℚ) = fin (lit (-3)) := ofQ_lit w3
  have hsq : sqrt (fin (lit 1)) = fin (lit 1) := by rw [← h1]; exact hm.sqrt_one
  have hle : le zero (fin (lit 1)) = true := by
    have : le zero (fin (lit 1)) = decide ((0 : ℚ) ≤ (lit 1).val) := rfl
    rw [this, v1]; norm_num
  set P := cir sqrt (fun _ => fin (lit 2)) (fun _ => fin (lit 1)) fun _ => fin (lit 1) with hP
  have hz' : zero = fin (lit 0) := congrArg fin (F64.ext v0.symm)
  have hle0 : le (fin (lit 0)) (fin (lit 1)) = true := by rw [← hz']; exact hle
  have s1 : ∀ t, step .eulerMaruyama P (fin (lit 1)) (fin (lit 1)) [] noise 0 t (fin (lit 1)) = some (fin (lit (-1))) := by
    intro t
    have a1 : (fin (lit 2)).sub (fin (lit 1)) = fin (lit 1) := by
      have : (2 : ℚ) + -1 = 1 := by norm_num
      simp only [X64.sub, X64.neg, v1, g1, X64.add, v2, w1, this, h1]
    have a4 : (fin (lit 1)).add (fin (lit 1)) = fin (lit 2) := by
      have : (1 : ℚ) + 1 = 2 := by norm_num
      simp only [X64.add, v1, this, h2]
    have a5 : (fin (lit 1)).mul (fin (lit 1)) = fin (lit 1) := by simp only [X64.mul, v1, mul_one, h1]
    have a6 : (fin (lit 1)).mul (fin (lit (-3))) = fin (lit (-3)) := by simp only [X64.mul, v1, w3, one_mul, g3]
    have a7 : (fin (lit 2)).add (fin (lit (-3))) = fin (lit (-1)) := by
      have : (2 : ℚ) + -3 = -1 := by norm_num
      simp only [X64.add, v2, w3, this, g1]
    have a8 : (fin (lit (-1))).add (fin (lit 0)) = fin (lit (-1)) := by simp only [X64.add, w1, v0, _root_.add_zero, g1]
    simp only [step, jumpTerm, List.isEmpty_nil, if_true, Option.bind_eq_bind, Option.bind_some, emStep, hP, cir, hle0, hsq, hz, hz', a1, a4,
      a5, a6, a7, a8, Option.pure_def]
  have s2 : ∀ t, step .eulerMaruyama P (fin (lit 1)) (fin (lit 1)) [] noise 1 t (fin (lit (-1))) = some nan := by
    intro t
    have hn : sqrt (fin (lit (-1))) = nan := hm.sqrt_neg _ (by rw [w1]; norm_num)
    simp only [step, jumpTerm, List.isEmpty_nil, if_true, Option.bind_eq_bind, Option.bind_some, emStep, hP, cir, hle, hn, mul_nan, nan_mul, add_nan,
      nan_add, Option.pure_def]
  refine ⟨twoSteps.times, ?_⟩
  unfold simulate
  rw [if_pos twoSteps_lt, twoSteps_dt, hsq]
  have ht : ∀ k < 3, ∃ t, twoSteps.times[k]? = some t := fun k hk => ⟨_, List.getElem?_eq_getElem (by simpa [Config.times, twoSteps] using hk)⟩
  obtain ⟨t0, ht0⟩ := ht 0 (by norm_num)
  obtain ⟨t1, ht1⟩ := ht 1 (by norm_num)
  have r : run (step .eulerMaruyama P (fin (lit 1)) (fin (lit 1)) [] noise) twoSteps.times (fin (lit 1)) 2 =
      some [fin (lit 1), fin (lit (-1)), nan] := by
    simp [run, ht0, ht1, s1, s2]
  simp only [show twoSteps.scheme = .eulerMaruyama from rfl, show twoSteps.x0 = fin (lit 1) from rfl, show twoSteps.nSteps = 2 from rfl, r,
    Option.bind_eq_bind, Option.bind_some, Option.pure_def]

/-! ## The hypotheses can be met -/

/-- Functions as IEEE 754 asks for them. -/
def someSqrt : X64 → X64
  | fin a => if a.val < 0 then nan else fin a
  | _ => nan

def someLn : X64 → X64
  | fin a => if a.val < 0 then nan else if a.val = 0 then inf true else fin a
  | _ => nan

def somePow : X64 → X64 → X64
  | fin a, _ => if a.val < 0 then nan else fin a
  | _, _ => nan

theorem some_ieee : Ieee someSqrt someLn somePow where
  sqrt_neg := fun a h => by simp [someSqrt, h]
  sqrt_one := by rw [ofQ_lit v1]; simp [someSqrt, v1]
  ln_neg := fun a h => by simp [someLn, h]
  ln_zero := fun a h => by simp [someLn, h]
  pow_neg := fun a e h _ _ => by simp [somePow, h]

/-- The failing path meets the hypotheses of `C117_cir_negative`, `C117_nan_from`, `C117_not_finite_stays` and `C117_last_value`. -/
example : ∃ times path, simulate someSqrt (cir someSqrt (fun _ => fin (lit 2)) (fun _ => fin (lit 1)) fun _ => fin (lit 1)) twoSteps []
    (fun _ => fin (lit (-3))) = some (times, path) ∧ path[2]? = some nan ∧ ∃ y, path.getLast? = some y ∧ ¬ Finite y := by
  obtain ⟨times, h⟩ := C117_cir_fails someSqrt someLn somePow some_ieee (fun _ => fin (lit (-3))) rfl
  refine ⟨times, _, h, C117_cir_negative someSqrt someLn somePow some_ieee _ _ _ twoSteps (by simp [twoSteps]) [] _ times _ h 1 (lit (-1)) rfl
    (by rw [w1]; norm_num) 2 (by norm_num) le_rfl, nan, rfl, id⟩

/-- One step of length 2. -/
def oneStep (x0 : X64) : Config := ⟨x0, fin (lit 0), fin (lit 2), 1, .eulerMaruyama⟩

theorem oneStep_runs (sqrt : X64 → X64) (P : Process) (x0 : X64) (z : ℕ → X64) (hd : ∀ x t, ∃ a, P.drift x t = some a)
    (hs : ∀ x t, ∃ a, P.diffusion x t = some a) : ∃ times path, simulate sqrt P (oneStep x0) [] z = some (times, path) := by
  have hlt : (oneStep x0).t0.lt (oneStep x0).tn = true := by
    simp only [oneStep, X64.lt, v0, v2]
    norm_num
  obtain ⟨t, ht⟩ : ∃ t, (oneStep x0).times[0]? = some t := by
    have hl : 0 < (oneStep x0).times.length := by rw [Config.times, List.length_map, List.length_range]; omega
    exact ⟨_, List.getElem?_eq_getElem hl⟩
  obtain ⟨a, ha⟩ := hd x0 t
  obtain ⟨b, hb⟩ := hs x0 t
  unfold simulate
  rw [if_pos hlt]
  simp only [show (oneStep x0).nSteps = 1 from rfl, show (oneStep x0).x0 = x0 from rfl, show (oneStep x0).scheme = .eulerMaruyama from rfl]
  simp [run, step, jumpTerm, emStep, ht, ha, hb]

/-- A Black-Derman-Toy process without volatility meets the hypotheses of `C117_bdt_zero_volatility`. -/
example : ∃ times path y, simulate someSqrt (blackDermanToy (fin (lit 1)) (fun _ => zero) (fun _ => fin (lit 1))) (oneStep (fin (lit 1))) []
    (fun _ => zero) = some (times, path) ∧ path[1]? = some y ∧ ¬ Finite y := by
  obtain ⟨times, path, h⟩ := oneStep_runs someSqrt (blackDermanToy (fin (lit 1)) (fun _ => zero) (fun _ => fin (lit 1))) (fin (lit 1))
    (fun _ => zero) (fun x t => ⟨_, rfl⟩) (fun x t => ⟨_, rfl⟩)
  obtain ⟨t, x, y, h1, -, -, h4⟩ := (simulate_next h).2.2.2.2 0 (by norm_num [oneStep])
  exact ⟨times, path, y, h, h4, C117_bdt_zero_volatility _ _ _ _ _ _ _ _ _ h 0 t F64.zero h1 rfl rfl 1 (by norm_num) y h4⟩

/-- A bridge from -1 meets the hypotheses of `C117_bridge`. -/
example : ∃ times path, simulate someSqrt (bridge someLn (fun _ => zero) (fun _ => zero) (fin (lit 1)) (fin (lit 2))) (oneStep (fin (lit (-1)))) []
    (fun _ => zero) = some (times, path) ∧ path[1]? = some nan := by
  have hle : le zero zero = true := by decide
  obtain ⟨times, path, h⟩ := oneStep_runs someSqrt (bridge someLn (fun _ => zero) (fun _ => zero) (fin (lit 1)) (fin (lit 2))) (fin (lit (-1)))
    (fun _ => zero) (fun x t => ⟨_, rfl⟩) (fun x t => ⟨zero.mul x, by simp only [bridge, hle, if_true]⟩)
  exact ⟨times, path, h, (C117_bridge someSqrt someLn somePow some_ieee _ _ _ _ _ _ _ _ _ h).1 0 (lit (-1)) (C117_last_value _ _ _ _ _ _ _ h).2.1
    (by rw [w1]; norm_num) 1 (by norm_num) le_rfl⟩

/-- A path of constant elasticity of variance from -1, with an elasticity of 1/2, meets the hypotheses of `C117_cev_negative`. -/
example : ∃ times path, simulate someSqrt (cev somePow (fun _ => zero) (fun _ => zero) fun _ => fin (lit (1 / 2))) (oneStep (fin (lit (-1)))) []
    (fun _ => zero) = some (times, path) ∧ path[1]? = some nan := by
  have hv : (lit (1 / 2)).val = 1 / 2 := by decide +kernel
  have hle : le zero zero = true := by decide
  have hl2 : le zero (fin (lit (1 / 2))) = true := by
    have : le zero (fin (lit (1 / 2))) = decide ((0 : ℚ) ≤ (lit (1 / 2)).val) := rfl
    rw [this, hv]; norm_num
  have hl3 : le (fin (lit (1 / 2))) (ofQ 1) = true := by
    rw [ofQ_lit v1]
    have : le (fin (lit (1 / 2))) (fin (lit 1)) = decide ((lit (1 / 2)).val ≤ (lit 1).val) := rfl
    rw [this, hv, v1]; norm_num
  obtain ⟨times, path, h⟩ := oneStep_runs someSqrt (cev somePow (fun _ => zero) (fun _ => zero) fun _ => fin (lit (1 / 2))) (fin (lit (-1)))
    (fun _ => zero) (fun x t => ⟨_, rfl⟩) (fun x t => ⟨zero.mul (somePow x (fin (lit (1 / 2)))), by simp only [cev, hle, hl2, hl3, Bool.and_self, if_true]⟩)
  exact ⟨times, path, h, C117_cev_negative someSqrt someLn somePow some_ieee _ _ _ (fun _ => ⟨_, rfl, by rw [hv]; norm_num, by rw [hv]; norm_num⟩) _
    (by simp [oneStep]) _ _ _ _ h 0 (lit (-1)) (C117_last_value _ _ _ _ _ _ _ h).2.1 (by rw [w1]; norm_num) 1 (by norm_num) le_rfl⟩

/-- Brownian motion on all values continues the one on the finite values, and its Milstein and Strang-splitting paths in twelve steps are finite
(`C115`): the hypotheses of `C117_same_schemes` are met. -/
example : Continues ⟨fun _ _ => some zero, fun _ _ => some (ofQ 1), fun _ _ _ => none⟩ Sim.bm (fun _ => none) where
  drift := fun x t a h => by cases h; rfl
  diffusion := fun x t a h => by
    have h' : toF64 1 = some a := h
    exact congrArg some (Nan.fin_of h')
  jump := fun _ _ _ => rfl

/-- The twelve steps of Merton's process beside `C116_merton_error` meet the hypotheses of `C117_same`. -/
example : ∃ (sqrt : X64 → X64) (P : Process) (times path : List F64), path.length = 13 ∧
    simulate sqrt P ⟨fin Sim.someConfig.x0, fin Sim.someConfig.t0, fin Sim.someConfig.tn, 12, .eulerMaruyama⟩ ((List.replicate 12 (lit 1)).map fin)
      (fun _ => fin (lit 1)) = some (times.map fin, path.map fin) := by
  obtain ⟨times, path, h1, h2, _⟩ := Sim.C116_merton_error Sim.someSqrt Sim.someSqrt_accurate (fun _ => lit 1) (fun _ => lit 1) 1 1 (by norm_num)
    (by norm_num) Sim.lit_one_le Sim.lit_one_in Sim.someConfig Sim.someConfig_ordinary (fun _ => lit 1) (fun _ => lit 1) (List.replicate 12 (lit 1))
    (by simp [Sim.someConfig]) Sim.noise_small Sim.someCounts_size
  refine ⟨fun x => match x with | fin a => (match Sim.someSqrt a with | some b => fin b | none => nan) | _ => nan,
    ⟨fun x _ => some ((fin (lit 1)).mul x), fun x _ => some ((fin (lit 1)).mul x), fun _ _ _ => some (fin (lit 1))⟩, times, path, h2, ?_⟩
  refine C117_same Sim.someSqrt (fun a b h => by simp only [h]) _ (Sim.merton (fun _ => lit 1) fun _ => lit 1) (fun _ => some (lit 1))
    ⟨fun x t a h => congrArg some (mul_of h), fun x t a h => ?_, fun _ _ _ => rfl⟩ Sim.someConfig _ _ _ _ h1
  have hn : ¬ (lit 1).val < 0 := by rw [v1]; norm_num
  simp only [Sim.merton, if_neg hn] at h
  exact congrArg some (mul_of h)

end Verif.Float.Paths
