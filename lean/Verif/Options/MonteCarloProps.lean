import Verif.Options.MonteCarloLemmas
import Verif.Stochastics.SimulationProps

/-!
# C76: Monte-Carlo pricing

`generate env P c sched` is the outcome of `process.generate(config)` for the generators `env` and any schedule of the
parallel run; `T.val i t` the value of path `i` after `t` steps.
-/

namespace Verif.Options

open Real Classical Stochastics

/-- C76: for every instrument, process and configuration the price is the discounted mean of what the instrument pays
on the simulated paths; it exists exactly if there is a path and every payoff exists. -/
theorem C76_price (ins : McInstrument) (env : Env) (P : Process) (c : Config) (sched : List ℕ)
    (hs : c.parallel = true → ValidSched c sched) (T : Trajectories) (h : generate env P c sched = some T) (rate v : ℝ) :
    ins.price (generate env P c sched) c rate = some v ↔ Spec.IsEstimate ins T.paths rate (c.tn - c.t0) v := by
  rw [h, price_some_iff]
  have hl : ∀ i, (hi : i < T.paths.length) → ∃ S, (T.paths[i]).getLast? = some S := by
    intro i hi
    have := ((C49_shape env P c none none sched hs T h).2.1 _ (List.getElem_mem hi)).1
    have hne : T.paths[i] ≠ [] := by intro e; rw [e] at this; simp at this
    exact ⟨_, List.getLast?_eq_some_getLast hne⟩
  unfold Spec.IsEstimate
  refine exists_congr fun pays => and_congr_right fun _ => and_congr_left fun _ => forall_congr' fun i =>
    forall_congr' fun hi => ?_
  obtain ⟨S, hS⟩ := hl i hi
  rw [payoff_iff ins _ S _ hS]
  constructor
  · intro h'; exact ⟨S, hS, h'⟩
  · rintro ⟨S', hS', h'⟩
    rw [hS] at hS'
    rwa [Option.some.inj hS']

theorem generate_terminal {env : Env} {P : Process} {c : Config} {sched : List ℕ}
    (hs : c.parallel = true → ValidSched c sched) {T : Trajectories} (h : generate env P c sched = some T) :
    T.paths.length = c.mPaths ∧
      ∀ i, (hi : i < T.paths.length) → (T.paths[i]).getLast? = some (T.val i c.nSteps) := by
  have hl := (C49_shape env P c none none sched hs T h).1
  refine ⟨hl, fun i hi => ?_⟩
  obtain ⟨p, h1, h2, h3⟩ := simulate_path hs h i (hl ▸ hi)
  rw [List.getElem?_eq_getElem hi] at h1
  rw [Option.some.inj h1, List.getLast?_eq_getElem?, h2]
  exact h3 _ le_rfl

/-- C76: a European option always has a price on at least one path: the discounted mean of its payoffs at the last
points of the paths. -/
theorem C76_vanilla (env : Env) (P : Process) (c : Config) (sched : List ℕ)
    (hs : c.parallel = true → ValidSched c sched) (T : Trajectories) (h : generate env P c sched = some T)
    (hm : 0 < c.mPaths) (k rate : ℝ) (f : TypeFlag) :
    (McInstrument.vanilla k f).price (generate env P c sched) c rate = some (exp (-(rate * (c.tn - c.t0))) *
      ((∑ i ∈ Finset.range c.mPaths, Spec.gain f (T.val i c.nSteps) k) / c.mPaths)) := by
  obtain ⟨hl, ht⟩ := generate_terminal hs h
  rw [C76_price _ env P c sched hs T h]
  refine ⟨fun i => Spec.gain f (T.val i c.nSteps) k, hl ▸ hm, fun i hi => ⟨_, ht i hi, rfl⟩, by rw [hl]⟩

/-- C76: put-call parity holds exactly in every run: the call less the put is worth the discounted mean of the last
points less the discounted strike. -/
theorem C76_parity (env : Env) (P : Process) (c : Config) (sched : List ℕ)
    (hs : c.parallel = true → ValidSched c sched) (T : Trajectories) (h : generate env P c sched = some T)
    (k rate vc vp : ℝ) (hc : (McInstrument.vanilla k .call).price (generate env P c sched) c rate = some vc)
    (hp : (McInstrument.vanilla k .put).price (generate env P c sched) c rate = some vp) :
    vc - vp = exp (-(rate * (c.tn - c.t0))) *
      ((∑ i ∈ Finset.range c.mPaths, T.val i c.nSteps) / c.mPaths - k) := by
  have hm : 0 < c.mPaths := by
    rw [C76_price _ env P c sched hs T h] at hc
    obtain ⟨-, h0, -⟩ := hc
    rwa [(generate_terminal hs h).1] at h0
  have hm' : (c.mPaths : ℝ) ≠ 0 := by exact_mod_cast hm.ne'
  rw [C76_vanilla env P c sched hs T h hm] at hc hp
  rw [← Option.some.inj hc, ← Option.some.inj hp, ← mul_sub, ← sub_div, ← Finset.sum_sub_distrib]
  have e : ∀ x, Spec.gain .call x k - Spec.gain .put x k = x - k := by
    intro x
    simp only [Spec.gain, if_true, reduceCtorEq, if_false]
    rcases le_total x k with h | h
    · rw [max_eq_right (by linarith), max_eq_left (by linarith)]; ring
    · rw [max_eq_left (by linarith), max_eq_right (by linarith)]; ring
  simp only [e, Finset.sum_sub_distrib, Finset.sum_const, Finset.card_range, nsmul_eq_mul]
  rw [sub_div, mul_div_cancel_left₀ _ hm']

/-- C76: in every run a knock-in and a knock-out option together are worth exactly the European option. -/
theorem C76_barrier_parity (env : Env) (P : Process) (c : Config) (sched : List ℕ)
    (hs : c.parallel = true → ValidSched c sched) (T : Trajectories) (h : generate env P c sched = some T)
    (hm : 0 < c.mPaths) (f : TypeFlag) (b k rate : ℝ) (r r' : Option ℝ) (tin tout : BarrierType)
    (ht : (tin = .upAndIn ∧ tout = .upAndOut) ∨ (tin = .downAndIn ∧ tout = .downAndOut)) :
    ∃ vin vout, (McInstrument.barrier ⟨f, tin, b, k, r⟩).price (generate env P c sched) c rate = some vin ∧
      (McInstrument.barrier ⟨f, tout, b, k, r'⟩).price (generate env P c sched) c rate = some vout ∧
      0 ≤ vin ∧ 0 ≤ vout ∧
      (McInstrument.vanilla k f).price (generate env P c sched) c rate = some (vin + vout) := by
  obtain ⟨hl, hterm⟩ := generate_terminal hs h
  have hg : ∀ x, 0 ≤ Spec.gain f x k := fun x => le_max_right _ _
  refine ⟨_, _, (C76_price _ env P c sched hs T h rate _).2 ⟨fun i => if Spec.alive tin b (T.paths.getD i []) then
      Spec.gain f (T.val i c.nSteps) k else 0, hl ▸ hm, fun i hi => ⟨_, hterm i hi, ?_⟩, rfl⟩,
    (C76_price _ env P c sched hs T h rate _).2 ⟨fun i => if Spec.alive tout b (T.paths.getD i []) then
      Spec.gain f (T.val i c.nSteps) k else 0, hl ▸ hm, fun i hi => ⟨_, hterm i hi, ?_⟩, rfl⟩, ?_, ?_, ?_⟩
  · simp only [Spec.Pays, List.getD, List.getElem?_eq_getElem hi, Option.getD_some]
  · simp only [Spec.Pays, List.getD, List.getElem?_eq_getElem hi, Option.getD_some]
  · refine mul_nonneg (exp_pos _).le (div_nonneg (Finset.sum_nonneg fun i _ => ?_) (Nat.cast_nonneg _))
    split_ifs
    exacts [hg _, le_rfl]
  · refine mul_nonneg (exp_pos _).le (div_nonneg (Finset.sum_nonneg fun i _ => ?_) (Nat.cast_nonneg _))
    split_ifs
    exacts [hg _, le_rfl]
  · rw [C76_vanilla env P c sched hs T h hm, ← mul_add, ← add_div, ← Finset.sum_add_distrib, hl]
    congr 4
    funext i
    have key : ∀ (p q : Prop) (x : ℝ), (q ↔ ¬ p) → x = (if p then x else 0) + if q then x else 0 := by
      intro p q x hpq
      by_cases hp : p <;> simp [hp, hpq]
    rcases ht with ⟨rfl, rfl⟩ | ⟨rfl, rfl⟩ <;> exact key _ _ _ Iff.rfl

/-- C76: no price of an instrument that pays nothing or a gain is negative. -/
theorem C76_nonneg (ins : McInstrument) (env : Env) (P : Process) (c : Config) (sched : List ℕ)
    (hs : c.parallel = true → ValidSched c sched) (T : Trajectories) (h : generate env P c sched = some T) (rate v : ℝ)
    (hins : match ins with
      | .asian _ | .vanilla _ _ | .power _ _ _ | .barrier _ | .powered _ _ _ | .logOption _ => True
      | .binary k b f => 0 ≤ k ∧ (b = .cashOrNothing ∨ f = .call)
      | .supershare a _ => 0 < a
      | .cappedPower _ _ cap _ => 0 ≤ cap
      | .powerContract _ _ | .logMoneyness _ | .logUnderlying _ => False)
    (hv : ins.price (generate env P c sched) c rate = some v) : 0 ≤ v := by
  obtain ⟨pays, h0, hp, rfl⟩ := (C76_price ins env P c sched hs T h rate v).1 hv
  refine mul_nonneg (exp_pos _).le (div_nonneg (Finset.sum_nonneg fun i hi => ?_) (Nat.cast_nonneg _))
  obtain ⟨S, -, hpay⟩ := hp i (Finset.mem_range.1 hi)
  have hg : ∀ f x k, 0 ≤ Spec.gain f x k := fun f x k => le_max_right _ _
  cases ins with
  | asian o =>
    rcases hpay with ⟨a, -, ⟨-, e⟩ | ⟨-, e⟩⟩ | ⟨-, -, -, e⟩ <;> rw [e]
    exacts [hg _ _ _, hg _ _ _]
  | binary k b f =>
    simp only [Spec.Pays] at hpay
    rw [hpay]
    obtain ⟨hk, hb⟩ := hins
    split_ifs with h1 h2
    · exact hk
    · rcases hb with hb | hb
      · exact absurd hb h2
      · subst hb
        simp only [true_and, reduceCtorEq, false_and, or_false] at h1
        linarith
    · exact le_rfl
  | vanilla k f => simp only [Spec.Pays] at hpay; rw [hpay]; exact hg _ _ _
  | powerContract k p => exact hins.elim
  | power k p f =>
    rcases hpay with ⟨y, -, e⟩ | ⟨-, -, e⟩ | ⟨-, e⟩ <;> rw [e]
    exact hg _ _ _
  | supershare a b =>
    rcases hpay with ⟨h1, -, h3, -⟩ | ⟨-, e⟩
    · by_contra hneg
      push Not at hneg
      have ha : 0 < a := hins
      nlinarith [mul_pos_of_neg_of_neg hneg (neg_neg_of_pos ha)]
    · rw [e]
  | barrier o =>
    simp only [Spec.Pays] at hpay
    rw [hpay]
    split_ifs
    exacts [hg _ _ _, le_rfl]
  | cappedPower k p cap f =>
    rcases hpay with ⟨y, -, e⟩ | ⟨-, -, e⟩ | ⟨-, -, e⟩ | ⟨-, e⟩ <;> rw [e]
    exacts [le_min (hg _ _ _) hins, hins, le_min le_rfl hins, le_min le_rfl hins]
  | powered k p f =>
    rcases hpay with ⟨-, e⟩ | ⟨-, ⟨-, e⟩ | ⟨-, e⟩⟩ | ⟨hneg, -⟩
    · rw [e]; exact (exp_pos _).le
    · rw [e]
    · rw [e]; norm_num
    · exact absurd hneg (not_lt.2 (hg _ _ _))
  | logMoneyness k => exact hins.elim
  | logUnderlying k => exact hins.elim
  | logOption k =>
    rcases hpay with ⟨-, ⟨h1, h2⟩ | ⟨-, e⟩⟩
    · rw [← h2] at h1
      by_contra hneg
      push Not at hneg
      have := exp_lt_exp.2 hneg
      rw [exp_zero] at this
      linarith
    · rw [e]

/-- C76: in every run the price of a call falls, by at most the discounted increase of the strike, as the strike rises,
and is convex in the strike. -/
theorem C76_strike (env : Env) (P : Process) (c : Config) (sched : List ℕ)
    (hs : c.parallel = true → ValidSched c sched) (T : Trajectories) (h : generate env P c sched = some T)
    (hm : 0 < c.mPaths) (rate : ℝ) :
    ∃ call : ℝ → ℝ, (∀ k, (McInstrument.vanilla k .call).price (generate env P c sched) c rate = some (call k)) ∧
      Antitone call ∧ ConvexOn ℝ Set.univ call ∧
      ∀ k k', k ≤ k' → call k - call k' ≤ exp (-(rate * (c.tn - c.t0))) * (k' - k) := by
  have hm' : (0:ℝ) < c.mPaths := by exact_mod_cast hm
  have e : ∀ x k, Spec.gain .call x k = max (x - k) 0 := fun x k => by simp [Spec.gain]
  refine ⟨_, fun k => C76_vanilla env P c sched hs T h hm k rate .call, fun k k' hk => ?_,
    ⟨convex_univ, fun k _ k' _ a b ha hb hab => ?_⟩, fun k k' hk => ?_⟩
  · refine mul_le_mul_of_nonneg_left (div_le_div_of_nonneg_right (Finset.sum_le_sum fun i _ => ?_) hm'.le) (exp_pos _).le
    rw [e, e]
    exact max_le_max (by linarith) le_rfl
  · simp only [smul_eq_mul]
    rw [mul_left_comm a, mul_left_comm b, ← mul_add]
    refine mul_le_mul_of_nonneg_left ?_ (exp_pos _).le
    rw [← mul_div_assoc, ← mul_div_assoc, ← add_div, Finset.mul_sum, Finset.mul_sum, ← Finset.sum_add_distrib]
    refine div_le_div_of_nonneg_right (Finset.sum_le_sum fun i _ => ?_) hm'.le
    rw [e, e, e]
    refine max_le ?_ (by positivity)
    have h1 := mul_le_mul_of_nonneg_left (le_max_left (T.val i c.nSteps - k) 0) ha
    have h2 := mul_le_mul_of_nonneg_left (le_max_left (T.val i c.nSteps - k') 0) hb
    have h3 : T.val i c.nSteps = a * T.val i c.nSteps + b * T.val i c.nSteps := by rw [← add_mul, hab, one_mul]
    linarith
  · rw [← mul_sub, ← sub_div, ← Finset.sum_sub_distrib]
    refine mul_le_mul_of_nonneg_left ?_ (exp_pos _).le
    rw [div_le_iff₀ hm']
    calc _ ≤ ∑ i ∈ Finset.range c.mPaths, (k' - k) := Finset.sum_le_sum fun i _ => by
          rw [e, e]
          rcases le_total (T.val i c.nSteps - k) 0 with h1 | h1
          · rw [max_eq_right h1]; linarith [le_max_right (T.val i c.nSteps - k') 0]
          · rw [max_eq_left h1]; linarith [le_max_left (T.val i c.nSteps - k') 0]
      _ = _ := by rw [Finset.sum_const, Finset.card_range, nsmul_eq_mul, mul_comm]

/-- C76: with a seed the price is the same on every run, however the parallel run is scheduled. -/
theorem C76_reproducible (ins : McInstrument) (env env' : Env) (P : Process) (c : Config) (sched sched' : List ℕ)
    (hs : c.parallel = true → ValidSched c sched) (hs' : c.parallel = true → ValidSched c sched')
    (hseed : c.seed.isSome) (henv : env.normals = env'.normals) (rate : ℝ) :
    ins.price (generate env P c sched) c rate = ins.price (generate env' P c sched') c rate := by
  rw [C49_reproducible env env' P c sched sched' hs hs' hseed henv]

/-- C76: without paths, or if the end is not after the start, there is no price. -/
theorem C76_no_price (ins : McInstrument) (env : Env) (P : Process) (c : Config) (sched : List ℕ)
    (hs : c.parallel = true → ValidSched c sched) (h : c.mPaths = 0 ∨ c.tn ≤ c.t0) (rate : ℝ) :
    ins.price (generate env P c sched) c rate = none := by
  cases hT : generate env P c sched with
  | none => rw [price_eq]; rfl
  | some T =>
    rcases h with h | h
    · cases hv : ins.price (some T) c rate with
      | none => rfl
      | some v =>
        obtain ⟨-, h0, -⟩ := (price_some_iff ins T c rate v).1 hv
        rw [(generate_terminal hs hT).1, h] at h0
        exact absurd h0 (lt_irrefl 0)
    · have : generate env P c sched = none := C49_panics_times env P c none none sched h
      rw [hT] at this
      simp at this

/-- C76 (defect): a power option whose underlying ends below zero and whose power is not a whole number is worth zero
there, call and put alike, instead of failing. -/
theorem C76_power_negative (env : Env) (P : Process) (c : Config) (sched : List ℕ)
    (hs : c.parallel = true → ValidSched c sched) (T : Trajectories) (h : generate env P c sched = some T)
    (hm : 0 < c.mPaths) (hneg : ∀ i < c.mPaths, T.val i c.nSteps < 0) (k p rate : ℝ) (hp : ∀ n : ℤ, p ≠ n)
    (f : TypeFlag) : (McInstrument.power k p f).price (generate env P c sched) c rate = some 0 := by
  obtain ⟨hl, ht⟩ := generate_terminal hs h
  rw [C76_price _ env P c sched hs T h]
  exact ⟨fun _ => 0, hl ▸ hm, fun i hi => ⟨_, ht i hi, Or.inr (Or.inr ⟨⟨hneg i (hl ▸ hi), hp⟩, rfl⟩)⟩, by simp⟩

/-- Example: a seeded geometric Brownian motion on two paths of two steps can be simulated, so the theorems about the
price of a run apply to it. -/
theorem demo_run (env : Env) : ∃ T, generate env (geometricBrownianMotion (fun _ => 1 / 2) (fun _ => 1 / 5))
    ⟨100, 0, 2, 2, .eulerMaruyama, 2, false, some 5⟩ [] = some T :=
  C49_total env _ _ [] (by simp) (by norm_num) (fun _ _ => by simp [geometricBrownianMotion])
    (fun _ _ => by norm_num [geometricBrownianMotion, assertNonneg])

example (env : Env) := C76_price (.vanilla 90 .call) env _ _ [] (by simp) _ (demo_run env).choose_spec (1 / 20)

example (env : Env) := C76_parity env _ _ [] (by simp) _ (demo_run env).choose_spec 90 (1 / 20)

example (env : Env) := C76_barrier_parity env _ _ [] (by simp) _ (demo_run env).choose_spec (by norm_num) .call 120 90
  (1 / 20) none (some 3) .upAndIn .upAndOut (Or.inl ⟨rfl, rfl⟩)

example (env : Env) (v : ℝ) := C76_nonneg (.vanilla 90 .call) env _ _ [] (by simp) _ (demo_run env).choose_spec
  (1 / 20) v trivial

example (env : Env) := C76_strike env _ _ [] (by simp) _ (demo_run env).choose_spec (by norm_num) (1 / 20)

/-- Example: two orders in which four threads may finish give the same price. -/
example (env : Env) (P : Process) := C76_reproducible (.vanilla 90 .call) env env P
  ⟨100, 0, 2, 2, .eulerMaruyama, 4, true, some 5⟩ [0, 1, 2, 3, 0, 1, 2, 3] [3, 1, 3, 1, 0, 2, 2, 0]
  (fun _ => by simp only [ValidSched]; decide) (fun _ => by simp only [ValidSched]; decide) rfl rfl (1 / 20)

example (env : Env) (P : Process) := C76_no_price (.vanilla 90 .call) env P
  ⟨100, 2, 2, 2, .eulerMaruyama, 4, false, some 5⟩ [] (by simp) (Or.inr le_rfl) (1 / 20)

/-- Example: a noiseless run of two paths, growing by half in each of two steps from 100 to 225; the price of a call
struck at 200. -/
example (env : Env) : (McInstrument.vanilla 200 .call).price
    (generate env (geometricBrownianMotion (fun _ => 1 / 2) (fun _ => 0)) ⟨100, 0, 2, 2, .eulerMaruyama, 2, false, some 5⟩ [])
      ⟨100, 0, 2, 2, .eulerMaruyama, 2, false, some 5⟩ 0 = some 25 := by
  set c : Config := ⟨100, 0, 2, 2, .eulerMaruyama, 2, false, some 5⟩ with hc
  set P := geometricBrownianMotion (fun _ => 1 / 2) (fun _ => 0)
  obtain ⟨T, hT⟩ := C49_total env P c [] (by simp [hc]) (by norm_num [hc])
    (fun _ _ => by simp [P, geometricBrownianMotion]) (fun _ _ => by simp [P, geometricBrownianMotion, assertNonneg])
  have hv : ∀ i < 2, T.val i 2 = 225 := by
    intro i hi
    have h0 := ((simulate_val (by simp [hc]) hT).2.choose_spec.2 i hi).1
    obtain ⟨a, b, ha, hb, h1⟩ := C49_euler env P c [] (by simp [hc]) rfl 5 rfl T hT i hi 0 (by norm_num [hc])
    obtain ⟨a', b', ha', hb', h2⟩ := C49_euler env P c [] (by simp [hc]) rfl 5 rfl T hT i hi 1 (by norm_num [hc])
    simp only [P, geometricBrownianMotion, assertNonneg, le_refl, if_true, Option.some.injEq] at ha hb ha' hb'
    rw [← hb', ← ha', h1, ← ha, ← hb, h0] at h2
    norm_num [hc] at h2 ⊢
    linarith
  rw [C76_vanilla env P c [] (by simp [hc]) T hT (by norm_num [hc])]
  simp only [show c.mPaths = 2 from rfl, show c.nSteps = 2 from rfl, Finset.sum_range_succ, Finset.sum_range_zero]
  rw [hv 0 (by norm_num), hv 1 (by norm_num)]
  norm_num [Spec.gain]

end Verif.Options
