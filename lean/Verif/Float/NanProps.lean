import Verif.Float.NanLemmas
import Verif.Float.MonteCarloRun

/-!
# C102: options and Monte-Carlo prices when values are not finite
-/

namespace Verif.Float.Nan

open X64
open Verif.Options (TypeFlag BarrierType BinaryType StrikeFlag AveragingMethod)

/-- **C102**: where the Monte-Carlo price of finite paths is finite at every step, infinities and NaN make no difference:
European, binary, barrier and Asian options. -/
theorem C102_same {exp : F64 → Option F64} {exp' : X64 → X64} (he : Extends exp exp') (pow : X64 → X64 → X64) (rate t0 tn v : F64)
    (paths : List (List F64)) :
    let p := fun payoff => price exp' payoff (fin rate) (fin t0) (fin tn) (paths.map (List.map fin))
    (∀ strike flag, Mc.price exp (Mc.european strike flag) rate t0 tn paths = some v → p (european (fin strike) flag) = some (fin v)) ∧
    (∀ strike kind flag, Mc.price exp (Mc.binary kind strike flag) rate t0 tn paths = some v →
      p (fun path => some (binary (fin strike) kind flag (lastPoint path))) = some (fin v)) ∧
    (∀ kind level strike flag, Mc.price exp (Mc.barrier kind level strike flag) rate t0 tn paths = some v →
      p (barrier kind (fin level) (fin strike) flag) = some (fin v)) ∧
    (∀ o : Mean.Asian, Mc.price exp (Mc.asian pow o) rate t0 tn paths = some v →
      p (asian pow o.averagingMethod (o.strike.map fin) o.strikeFlag o.typeFlag) = some (fin v)) := by
  have key : ∀ (payoff : List F64 → Option F64) (payoff' : List X64 → Option X64),
      (∀ path v, payoff path = some v → payoff' (path.map fin) = some (fin v)) → Mc.price exp payoff rate t0 tn paths = some v →
      price exp' payoff' (fin rate) (fin t0) (fin tn) (paths.map (List.map fin)) = some (fin v) := by
    intro payoff payoff' h hv
    obtain ⟨ps, h1, h2⟩ := Option.bind_eq_some_iff.1 hv
    unfold price
    rw [mapM_of h h1]
    exact congrArg some (estimate_of he h2)
  refine ⟨fun strike flag => key _ _ fun path v h => european_of h, fun strike kind flag => key _ _ fun path v h => ?_,
    fun kind level strike flag => key _ _ fun path v h => barrier_of h, fun o => key _ _ fun path v h => ?_⟩
  · exact congrArg some (binary_of h)
  · rw [asian_eq]
    unfold Mc.asian at h
    obtain ⟨x, h1, h2⟩ := Option.bind_eq_some_iff.1 h
    rw [h1]
    cases x with
    | fin a => exact congrArg (fun a => some (fin a)) (Option.some.inj h2)
    | inf s => cases h2
    | nan => cases h2

/-- C102 (defect): on an underlying that is NaN, options report a payoff of exactly zero, which looks like a worthless option: European, binary,
supershare, log and power options, and every barrier option whose path ends in NaN. -/
theorem C102_nan_pays_nothing {exp ln : X64 → X64} {pow : X64 → X64 → X64} (h : Propagates exp ln pow) (strike strike2 p : X64)
    (hp : p ≠ fin F64.zero) (flag : TypeFlag) :
    vanilla strike flag nan = zero ∧ (∀ kind, binary strike kind flag nan = zero) ∧ supershare strike strike2 nan = zero ∧
    logOption ln strike nan = zero ∧ power pow strike p flag nan = zero ∧
    ∀ kind level path, barrier kind level strike flag (path ++ [nan]) = some zero := by
  refine ⟨vanilla_nan strike flag, fun kind => ?_, ?_, ?_, ?_, fun kind level path => ?_⟩
  · cases flag <;> cases kind <;> simp [binary, nan_lt, lt_nan]
  · simp [supershare, nan_le, le_nan]
  · unfold logOption
    rw [nan_div, h.ln, nan_max]
  · unfold power
    rw [h.pow p hp, vanilla_nan]
  · unfold barrier
    rw [List.getLast?_concat]
    cases kind <;> simp only [Option.bind_eq_bind, Option.bind_some, vanilla_nan, ite_self, Option.pure_def]

/-- C102 (defect): so does a capped power option with a cap that is not negative, and so does a powered option where the power of zero is zero; a NaN
strike has the same effect as a NaN underlying. -/
theorem C102_nan_capped {exp ln : X64 → X64} {pow : X64 → X64 → X64} (h : Propagates exp ln pow) (strike p : X64) (hp : p ≠ fin F64.zero)
    (flag : TypeFlag) : (∀ cap : X64, X64.lt cap zero = false → cappedPower pow strike p cap flag nan = zero) ∧
    (pow zero p = zero → powered pow strike p flag nan = zero) ∧ (∀ s : X64, vanilla nan flag s = zero) := by
  refine ⟨fun cap hc => ?_, fun h0 => ?_, fun s => ?_⟩
  · unfold cappedPower
    rw [(C102_nan_pays_nothing h strike strike p hp flag).2.2.2.2.1]
    match cap, hc with
    | fin a, hc =>
      show (if X64.lt (fin a) zero then fin a else zero) = zero
      rw [hc]; rfl
    | inf s, hc =>
      show (if X64.lt (inf s) zero then inf s else zero) = zero
      rw [hc]; rfl
    | nan, _ => rfl
  · unfold powered
    rw [vanilla_nan, h0]
  · cases flag
    · show (s.sub nan).max zero = _
      rw [sub_nan, nan_max]
    · show (nan.sub s).max zero = _
      rw [nan_sub, nan_max]

/-- C102 (defect): an Asian option with a NaN anywhere in its path pays exactly zero, whatever the rest of the path is. -/
theorem C102_nan_asian {exp ln : X64 → X64} {pow : X64 → X64 → X64} (h : Propagates exp ln pow) (method : AveragingMethod)
    (hm : method = .arithmeticDiscrete ∨ method = .geometricDiscrete) (strike : Option X64) (strikeFlag : StrikeFlag) (flag : TypeFlag)
    (path : List X64) (hn : nan ∈ path) (hl : path.length ≤ 2 ^ 53) :
    asian pow method strike (some strikeFlag) flag path = some zero := by
  have h0 : 0 < path.length := List.length_pos_of_mem hn
  have ha : average pow method path = some nan := by
    rcases hm with rfl | rfl
    · show some ((sum path).div _) = _
      unfold sum
      rw [foldl_add_mem hn, nan_div]
    · obtain ⟨p, h1, h2⟩ := Mean.recip h0 hl
      show some (pow (path.foldl X64.mul (ofQ 1)) _) = _
      rw [foldl_mul_mem hn, h1, h.pow]
      intro h3
      cases h3
      have h4 : (0 : ℚ) < F64.zero.val := h2.2.1
      exact absurd h4 (lt_irrefl _)
  obtain ⟨t, ht⟩ := Option.isSome_iff_exists.1 (by rw [List.getLast?_isSome]; exact List.ne_nil_of_mem hn : path.getLast?.isSome)
  unfold asian
  rw [ht, ha]
  cases strikeFlag <;> cases flag <;>
    simp only [Option.bind_eq_bind, Option.bind_some, vanilla_nan, sub_nan, nan_sub, nan_max, Option.pure_def]

/-- **C102**: European, barrier and Asian options report payoffs that are not negative and not NaN, on every path: also with infinities and NaN in it, in
the strike or in the barrier. -/
theorem C102_payoff_sign (pow : X64 → X64 → X64) (strike : X64) (flag : TypeFlag) (path : List X64) :
    (∀ v, european strike flag path = some v → Nonneg v) ∧
    (∀ kind level v, barrier kind level strike flag path = some v → Nonneg v) ∧
    (∀ method strike strikeFlag v, asian pow method strike strikeFlag flag path = some v → Nonneg v) :=
  ⟨fun v h => by rw [← Option.some.inj h]; exact vanilla_nonneg _ _ _, fun _ _ _ h => barrier_nonneg h, fun _ _ _ _ h => asian_nonneg h⟩

/-- **C102**: so the Monte-Carlo price of such options is never NaN and never negative, given a positive finite discount factor and a path: whatever values
the simulated paths have. -/
theorem C102_price_sign (exp : X64 → X64) (payoff : List X64 → Option X64) (hp : ∀ path v, payoff path = some v → Nonneg v) (rate t0 tn : X64)
    (d : F64) (hd : exp (rate.neg.mul (tn.sub t0)) = fin d) (hd0 : 0 < d.val) (paths : List (List X64)) (h0 : paths ≠ [])
    (hn : paths.length ≤ 2 ^ 53) (v : X64) (hv : price exp payoff rate t0 tn paths = some v) : Nonneg v := by
  obtain ⟨ps, h1, h2⟩ := Option.bind_eq_some_iff.1 hv
  obtain ⟨i1, i2, _⟩ := mapM_mem h1
  obtain ⟨m, hm, hm0⟩ := count_fin (n := ps.length) (by rw [i1]; exact List.length_pos_of_ne_nil h0) (by rw [i1]; exact hn)
  rw [← Option.some.inj h2]
  unfold estimate sum
  rw [hd, hm]
  refine div_nonneg' hm0 (mul_nonneg' hd0 (sum_nonneg' (fun x hx => ?_) zero_nonneg))
  obtain ⟨q, _, hq⟩ := i2 x hx
  exact hp q x hq

/-- C102 (defect): paths that end in NaN are priced as worthless, and nothing tells the caller. A European option gets the price it would have if each of them
ended at the strike instead. -/
theorem C102_nan_paths (exp : X64 → X64) (strike : F64) (flag : TypeFlag) (rate t0 tn : X64) (paths : List (List X64)) :
    price exp (european (fin strike) flag) rate t0 tn paths =
      price exp (european (fin strike) flag) rate t0 tn (paths.map fun p => if isNan (lastPoint p) then [fin strike] else p) := by
  have h0 : ∀ f, vanilla (fin strike) f (fin strike) = zero := by
    intro f
    have h1 : (fin strike).sub (fin strike) = fin F64.zero := by rw [sub_fin, sub_self]; exact ofQ_of_eq _ rfl
    cases f
    · show ((fin strike).sub (fin strike)).max zero = _
      rw [h1, zero, max_of]; rfl
    · show ((fin strike).sub (fin strike)).max zero = _
      rw [h1, zero, max_of]; rfl
  unfold price
  rw [List.mapM_map]
  congr 2
  funext p
  show european _ _ _ = european _ _ (if isNan (lastPoint p) = true then [fin strike] else p)
  split_ifs with h
  · unfold european
    cases hl : lastPoint p with
    | nan => rw [vanilla_nan]; exact congrArg some (h0 flag).symm
    | fin a => rw [hl] at h; cases h
    | inf s => rw [hl] at h; cases h
  · rfl

/-- **C102**: the contracts with no floor under their payoff do show it: if one path ends in NaN, the price of a power contract, of a log-moneyness contract
and of a log contract is NaN. -/
theorem C102_contracts {exp ln : X64 → X64} {pow : X64 → X64 → X64} (h : Propagates exp ln pow) (strike p rate t0 tn : X64) (hp : p ≠ fin F64.zero)
    (paths : List (List X64)) (path : List X64) (hm : path ∈ paths) (hl : lastPoint path = nan) :
    price exp (fun q => some (powerContract pow strike p (lastPoint q))) rate t0 tn paths = some nan ∧
    price exp (fun q => some (logMoneyness ln strike (lastPoint q))) rate t0 tn paths = some nan ∧
    price exp (fun q => some (logUnderlying ln (lastPoint q))) rate t0 tn paths = some nan := by
  have key : ∀ f : X64 → X64, f nan = nan → price exp (fun q => some (f (lastPoint q))) rate t0 tn paths = some nan := by
    intro f hf
    have h1 : (paths.mapM fun q => some (f (lastPoint q))) = some (paths.map fun q => f (lastPoint q)) := by
      have := List.mapM_pure (m := Option) (l := paths) (f := fun q => f (lastPoint q))
      exact this
    unfold price
    rw [h1]
    refine congrArg some ?_
    unfold estimate sum
    rw [foldl_add_mem (List.mem_map.2 ⟨path, hm, by rw [hl, hf]⟩), mul_nan, nan_div]
  refine ⟨key (powerContract pow strike p) ?_, key (logMoneyness ln strike) ?_, key (logUnderlying ln) h.ln⟩
  · unfold powerContract; rw [nan_div, h.pow p hp]
  · unfold logMoneyness; rw [nan_div, h.ln]

/-- **C102**: one infinite payoff makes the whole price infinite (given a positive finite discount factor), and with no path at all the price is NaN. -/
theorem C102_infinite (exp : X64 → X64) (payoff : List X64 → Option X64) (hp : ∀ path v, payoff path = some v → Nonneg v) (rate t0 tn : X64)
    (d : F64) (hd : exp (rate.neg.mul (tn.sub t0)) = fin d) (hd0 : 0 < d.val) (paths : List (List X64)) (hn : paths.length ≤ 2 ^ 53)
    (v : X64) (hv : price exp payoff rate t0 tn paths = some v) :
    ((∃ path ∈ paths, payoff path = some (inf false)) → v = inf false) ∧ (paths = [] → v = nan) := by
  obtain ⟨ps, h1, h2⟩ := Option.bind_eq_some_iff.1 hv
  obtain ⟨i1, i2, i3⟩ := mapM_mem h1
  rw [← Option.some.inj h2]
  unfold estimate sum
  refine ⟨fun ⟨path, hm, hq⟩ => ?_, fun h => ?_⟩
  · obtain ⟨m, hm1, hm0⟩ := count_fin (n := ps.length) (by rw [i1]; exact List.length_pos_of_mem hm) (by rw [i1]; exact hn)
    obtain ⟨w, hw, hw2⟩ := i3 path hm
    rw [hq, Option.some.injEq] at hw2
    rw [hd, hm1, foldl_add_inf (fun x hx => by obtain ⟨q, _, hq⟩ := i2 x hx; exact hp q x hq) (hw2 ▸ hw) zero_nonneg]
    show X64.div (if d.val = 0 then nan else inf (false != decide (d.val < 0))) (fin m) = _
    rw [if_neg hd0.ne']
    show inf ((false != decide (d.val < 0)) != decide (m.val < 0)) = _
    rw [decide_eq_false (not_lt.2 hd0.le), decide_eq_false (not_lt.2 hm0.le)]
    rfl
  · subst h
    have : ps = [] := List.length_eq_zero_iff.1 i1
    subst this
    rw [hd]
    have h3 : (fin d).mul zero = fin F64.zero := ofQ_of_eq _ (by show d.val * 0 = 0; ring)
    show ((fin d).mul zero).div (X64.ofNat 0) = nan
    rw [h3, show X64.ofNat 0 = fin F64.zero from ofQ_of_eq _ (by simp [F64.zero])]
    rfl

/-- C102 (defect): a NaN inside a path is not seen by a barrier option: it neither knocks in nor knocks out, and the payoff is that of the path without it. -/
theorem C102_nan_barrier (kind : BarrierType) (level strike : X64) (flag : TypeFlag) (path : List X64) (last : X64) (hl : isNan last = false) :
    barrier kind level strike flag (path ++ [last]) = barrier kind level strike flag (known (path ++ [last])) := by
  have h1 : known (path ++ [last]) = known path ++ [last] := by unfold known; rw [List.filter_append]; simp [hl]
  have key : ∀ (g : X64 → Bool), g nan = false → ∀ l : List X64, (known l).any g = l.any g := by
    intro g hg l
    induction l with
    | nil => rfl
    | cons x l ih =>
      unfold known at ih ⊢
      cases x with
      | nan => rw [List.filter_cons_of_neg (by simp [isNan]), ih, List.any_cons, hg, Bool.false_or]
      | fin a => rw [List.filter_cons_of_pos (by simp [isNan]), List.any_cons, List.any_cons, ih]
      | inf s => rw [List.filter_cons_of_pos (by simp [isNan]), List.any_cons, List.any_cons, ih]
  unfold barrier
  rw [key _ (le_nan level), key _ (nan_le level), h1, List.getLast?_concat, List.getLast?_concat]

/-- **C102**: knock-in plus knock-out is still the vanilla option on every path, also with infinities and NaN: one of the two pays what it pays and the
other pays zero. -/
theorem C102_in_out (level strike : X64) (flag : TypeFlag) (path : List X64) (last : X64) :
    let v := vanilla strike flag last
    let pays := fun kind => barrier kind level strike flag (path ++ [last])
    (pays .upAndIn = some v ∧ pays .upAndOut = some zero ∨ pays .upAndIn = some zero ∧ pays .upAndOut = some v) ∧
    (pays .downAndIn = some v ∧ pays .downAndOut = some zero ∨ pays .downAndIn = some zero ∧ pays .downAndOut = some v) := by
  simp only [barrier, List.getLast?_concat, Option.bind_eq_bind, Option.bind_some, Option.pure_def]
  constructor <;> split_ifs <;> simp

end Verif.Float.Nan
