import Verif.Float.NanProps

/-!
# C102: simulated paths beyond the finite numbers
-/

namespace Verif.Float.Nan

open X64
open Verif.Options (TypeFlag BarrierType BinaryType StrikeFlag AveragingMethod)

theorem emStep_of {mu sigma : F64 → F64} {dt scale t z x y : F64} (h : Sim.emStep (Sim.gbm mu sigma) dt scale t z x = some y) :
    emStep (gbm mu sigma) dt scale t z (fin x) = some (fin y) := by
  unfold Sim.emStep Sim.gbm at h
  obtain ⟨a, h1, h⟩ := Option.bind_eq_some_iff.1 h
  obtain ⟨b, h2, h⟩ := Option.bind_eq_some_iff.1 h
  obtain ⟨q, h3, h⟩ := Option.bind_eq_some_iff.1 h
  obtain ⟨e, h4, h⟩ := Option.bind_eq_some_iff.1 h
  obtain ⟨f, h5, h⟩ := Option.bind_eq_some_iff.1 h
  obtain ⟨g, h6, h⟩ := Option.bind_eq_some_iff.1 h
  obtain ⟨r, h7, h⟩ := Option.bind_eq_some_iff.1 h
  dsimp only at h1 h4
  split_ifs at h4 with hs
  unfold emStep gbm
  simp only [if_neg hs, Option.bind_eq_bind, Option.bind_some, Option.pure_def]
  rw [show (fin (mu t)).mul (fin x) = fin a from fin_of h1, show (fin a).mul (fin dt) = fin b from fin_of h2,
    show (fin x).add (fin b) = fin q from fin_of h3, show (fin (sigma t)).mul (fin x) = fin e from fin_of h4,
    show (fin e).mul (fin scale) = fin f from fin_of h5, show (fin f).mul (fin z) = fin g from fin_of h6,
    show (fin q).add (fin g) = fin r from fin_of h7, show (fin r).add zero = fin y from fin_of h]

/-- **C102**: where every step of a simulated geometric Brownian motion is finite, infinities and NaN make no difference. -/
theorem C102_same_path (mu sigma : F64 → F64) (dt scale : F64) (times : List F64) (noise : ℕ → F64) (x0 : F64) (n : ℕ) (p : List F64)
    (h : Sim.runPath (Sim.gbm mu sigma) dt scale times noise x0 n = some p) :
    runPath (gbm mu sigma) dt scale times noise (fin x0) n = some (p.map fin) := by
  induction n generalizing p with
  | zero => rw [← Option.some.inj h]; rfl
  | succ n ih =>
    unfold Sim.runPath at h
    obtain ⟨q, h1, h⟩ := Option.bind_eq_some_iff.1 h
    obtain ⟨t, h2, h⟩ := Option.bind_eq_some_iff.1 h
    obtain ⟨x, h3, h⟩ := Option.bind_eq_some_iff.1 h
    obtain ⟨y, h4, h⟩ := Option.bind_eq_some_iff.1 h
    unfold runPath
    rw [ih q h1]
    simp only [Option.bind_eq_bind, Option.bind_some, h2, List.getElem?_map, h3, Option.map_some, emStep_of h4, Option.pure_def]
    rw [← Option.some.inj h, List.map_append]
    rfl

/-- The values of a path, step by step. -/
theorem path_steps {P : Process} {dt scale : F64} {times : List F64} {noise : ℕ → F64} {x0 : X64} {n : ℕ} {p : List X64}
    (h : runPath P dt scale times noise x0 n = some p) : p.length = n + 1 ∧
    ∀ i < n, ∃ t x y, times[i]? = some t ∧ p[i]? = some x ∧ p[i + 1]? = some y ∧ emStep P dt scale t (noise i) x = some y := by
  induction n generalizing p with
  | zero => rw [← Option.some.inj h]; simp
  | succ n ih =>
    unfold runPath at h
    obtain ⟨q, h1, h⟩ := Option.bind_eq_some_iff.1 h
    obtain ⟨t, h2, h⟩ := Option.bind_eq_some_iff.1 h
    obtain ⟨x, h3, h⟩ := Option.bind_eq_some_iff.1 h
    obtain ⟨y, h4, h⟩ := Option.bind_eq_some_iff.1 h
    obtain ⟨i1, i2⟩ := ih h1
    rw [← Option.some.inj h]
    refine ⟨by simp [i1], fun i hi => ?_⟩
    rcases Nat.lt_succ_iff_lt_or_eq.1 hi with hi | rfl
    · obtain ⟨t', x', y', j1, j2, j3, j4⟩ := i2 i hi
      exact ⟨t', x', y', j1, by rw [List.getElem?_append_left (by omega)]; exact j2, by rw [List.getElem?_append_left (by omega)]; exact j3, j4⟩
    · exact ⟨t, x, y, h2, by rw [List.getElem?_append_left (by omega)]; exact h3, by rw [← i1, List.getElem?_concat_length], h4⟩

theorem step_nan {P : Process} {dt scale t z : F64} {y : X64} (h : emStep P dt scale t z nan = some y) : y = nan := by
  unfold emStep at h
  obtain ⟨a, _, h⟩ := Option.bind_eq_some_iff.1 h
  obtain ⟨b, _, h⟩ := Option.bind_eq_some_iff.1 h
  rw [← Option.some.inj h, nan_add, nan_add, nan_add]

/-- **C102**: for every process, once a value of the path is NaN, all later ones are. -/
theorem C102_nan_stays (P : Process) (dt scale : F64) (times : List F64) (noise : ℕ → F64) (x0 : X64) (n : ℕ) (p : List X64)
    (h : runPath P dt scale times noise x0 n = some p) (i j : ℕ) (hij : i ≤ j) (hj : j ≤ n) (hi : p[i]? = some nan) : p[j]? = some nan := by
  induction j, hij using Nat.le_induction with
  | base => exact hi
  | succ j hij ih =>
    obtain ⟨t, x, y, _, h2, h3, h4⟩ := (path_steps h).2 j (by omega)
    rw [ih (by omega), Option.some.injEq] at h2
    subst h2
    rw [h3, step_nan h4]

/-- **C102**: an infinite value of a geometric Brownian motion is followed by the same infinity only if the drift, the volatility and the noise are all positive;
otherwise the two terms of the step cancel or are zero times infinity, and NaN follows. -/
theorem C102_overflow (mu sigma : F64 → F64) (dt scale : F64) (hdt : 0 < dt.val) (hscale : 0 < scale.val) (times : List F64) (noise : ℕ → F64)
    (x0 : X64) (n : ℕ) (p : List X64) (h : runPath (gbm mu sigma) dt scale times noise x0 n = some p) (i : ℕ) (hi : i < n) (s : Bool)
    (hx : p[i]? = some (inf s)) (t : F64) (ht : times[i]? = some t) :
    p[i + 1]? = some (if 0 < (mu t).val ∧ 0 < (sigma t).val ∧ 0 < (noise i).val then inf s else nan) := by
  obtain ⟨t', x, y, h1, h2, h3, h4⟩ := (path_steps h).2 i hi
  rw [ht, Option.some.injEq] at h1
  rw [hx, Option.some.injEq] at h2
  subst h1; subst h2
  have hsig : ¬ (sigma t).val < 0 := by
    intro hneg
    unfold emStep gbm at h4
    simp [if_pos hneg] at h4
  have hmul : ∀ (a : F64) (b : Bool), (fin a).mul (inf b) = if a.val = 0 then nan else inf (b != decide (a.val < 0)) := fun _ _ => rfl
  have hmul' : ∀ (a : F64) (b : Bool), (inf b).mul (fin a) = if a.val = 0 then nan else inf (b != decide (a.val < 0)) := fun _ _ => rfl
  have hadd : ∀ b c : Bool, (inf b).add (inf c) = if b = c then inf b else nan := fun _ _ => rfl
  unfold emStep gbm at h4
  simp only [if_neg hsig, Option.bind_eq_bind, Option.bind_some, Option.pure_def, Option.some.injEq] at h4
  rw [h3, ← h4]
  refine congrArg some ?_
  rw [hmul, hmul]
  have hz : ∀ b : Bool, (inf b).add zero = inf b := fun _ => rfl
  rcases lt_trichotomy (mu t).val 0 with hm | hm | hm
  · rw [if_neg hm.ne, decide_eq_true hm, hmul', if_neg hdt.ne', decide_eq_false (not_lt.2 hdt.le), hadd, if_neg (by cases s <;> simp), nan_add, nan_add,
      if_neg (fun c => absurd c.1 (not_lt.2 hm.le))]
  · rw [if_pos hm, nan_mul, X64.add_nan, nan_add, nan_add, if_neg (fun c => absurd c.1 (not_lt.2 hm.le))]
  · rw [if_neg hm.ne', decide_eq_false (not_lt.2 hm.le), hmul', if_neg hdt.ne', decide_eq_false (not_lt.2 hdt.le), hadd, if_pos (by cases s <;> simp)]
    rcases (not_lt.1 hsig).eq_or_lt with hs | hs
    · rw [if_pos hs.symm, nan_mul, nan_mul, X64.add_nan, nan_add, if_neg (fun c => absurd c.2.1 (not_lt.2 hs.symm.le))]
    · rw [if_neg hs.ne', decide_eq_false (not_lt.2 hs.le), hmul', if_neg hscale.ne', decide_eq_false (not_lt.2 hscale.le), hmul']
      rcases lt_trichotomy (noise i).val 0 with hn | hn | hn
      · rw [if_neg hn.ne, decide_eq_true hn, hadd, if_neg (by cases s <;> simp), nan_add, if_neg (fun c => absurd c.2.2 (not_lt.2 hn.le))]
      · rw [if_pos hn, X64.add_nan, nan_add, if_neg (fun c => absurd c.2.2 (not_lt.2 hn.le))]
      · rw [if_neg hn.ne', decide_eq_false (not_lt.2 hn.le), hadd, if_pos (by cases s <;> simp), hz, if_pos ⟨hm, hs, hn⟩]

/-- C102 (defect): a geometric Brownian motion that overflows, and later meets one noise value that is not positive, ends in NaN; a call option on it, which should be
worth more than any number, pays zero. -/
theorem C102_exploded (mu sigma : F64 → F64) (dt scale : F64) (hdt : 0 < dt.val) (hscale : 0 < scale.val) (times : List F64) (noise : ℕ → F64)
    (x0 : X64) (n : ℕ) (p : List X64) (h : runPath (gbm mu sigma) dt scale times noise x0 n = some p) (i j : ℕ) (hij : i ≤ j) (hj : j < n)
    (hx : p[i]? = some (inf false)) (hz : (noise j).val ≤ 0) (strike : X64) (flag : TypeFlag) :
    lastPoint p = nan ∧ european strike flag p = some zero := by
  have key : p[j]? = some (inf false) ∨ p[j]? = some nan := by
    have : ∀ k, i ≤ k → k ≤ j → p[k]? = some (inf false) ∨ p[k]? = some nan := by
      intro k hik
      induction k, hik using Nat.le_induction with
      | base => exact fun _ => Or.inl hx
      | succ k hik ih =>
        intro hk
        rcases ih (by omega) with h1 | h1
        · obtain ⟨t, _, _, ht, _⟩ := (path_steps h).2 k (by omega)
          rw [C102_overflow mu sigma dt scale hdt hscale times noise x0 n p h k (by omega) false h1 t ht]
          split_ifs
          · exact Or.inl rfl
          · exact Or.inr rfl
        · exact Or.inr (C102_nan_stays _ _ _ _ _ _ n p h k (k + 1) (by omega) (by omega) h1)
    exact this j hij le_rfl
  have hnext : p[j + 1]? = some nan := by
    rcases key with h1 | h1
    · obtain ⟨t, _, _, ht, _⟩ := (path_steps h).2 j hj
      rw [C102_overflow mu sigma dt scale hdt hscale times noise x0 n p h j hj false h1 t ht, if_neg (fun c => absurd c.2.2 (not_lt.2 hz))]
    · exact C102_nan_stays _ _ _ _ _ _ n p h j (j + 1) (by omega) (by omega) h1
  have hend := C102_nan_stays _ _ _ _ _ _ n p h (j + 1) n (by omega) le_rfl hnext
  have hlast : lastPoint p = nan := by
    unfold lastPoint
    rw [List.getLast?_eq_getElem?, (path_steps h).1, Nat.add_sub_cancel, hend]
    rfl
  exact ⟨hlast, by unfold european; rw [hlast, vanilla_nan]⟩

/-! ## The hypotheses hold in concrete cases -/

/-- What can be seen of a value: a number, the sign of an infinity, or nothing. -/
def show' : X64 → Option (ℚ ⊕ Bool)
  | fin a => some (.inl a.val)
  | inf s => some (.inr s)
  | nan => none

theorem show_inj {x y : X64} (h : show' x = show' y) : x = y := by
  cases x <;> cases y <;> simp only [show', Option.some.injEq, Sum.inl.injEq, Sum.inr.injEq, reduceCtorEq] at h
  · rw [F64.ext h]
  · rw [h]
  · rfl

/-- A function that is one except on NaN. -/
def someFun : X64 → X64
  | nan => nan
  | _ => fin (lit 1)

/-- A power function that is zero except on NaN. -/
def someX : X64 → X64 → X64
  | nan, fin p => if p.val = 0 then fin (lit 1) else nan
  | nan, _ => nan
  | _, _ => zero

theorem some_propagates : Propagates someFun someFun someX where
  exp := rfl
  ln := rfl
  pow := by
    intro p hp
    cases p with
    | fin a =>
      show (if a.val = 0 then _ else nan) = nan
      rw [if_neg fun h : a.val = 0 => hp (congrArg fin (F64.ext h))]
    | inf s => rfl
    | nan => rfl

theorem some_extends : Extends (fun _ => some (lit 1)) someFun := by
  intro a b h
  rw [← Option.some.inj h]; rfl

example : ∃ v : F64, v.val = 8 ∧ price someFun (european (fin (lit 105)) .call) (fin (lit (1 / 20))) (fin (lit 0)) (fin (lit 1))
    (Mc.somePaths.map (List.map fin)) = some (fin v) := by
  have h : (Mc.price (fun _ => some (lit 1)) (Mc.european (lit 105) .call) (lit (1 / 20)) (lit 0) (lit 1) Mc.somePaths).map F64.val = some 8 := by
    decide +kernel
  obtain ⟨v, h1, h2⟩ := Option.map_eq_some_iff.1 h
  exact ⟨v, h2, (C102_same some_extends someX _ _ _ v Mc.somePaths).1 _ _ h1⟩

theorem lit_two_ne : fin (lit 2) ≠ fin F64.zero := by
  intro h
  have : (lit 2).val = F64.zero.val := congrArg (fun x => match x with | fin a => a.val | _ => 0) h
  exact absurd this (by decide +kernel)

example := C102_nan_pays_nothing some_propagates (fin (lit 100)) (fin (lit 110)) (fin (lit 2)) lit_two_ne .call

example := (C102_nan_capped some_propagates (fin (lit 100)) (fin (lit 2)) lit_two_ne .put).1 (fin (lit 30)) (by decide +kernel)

example := (C102_nan_capped some_propagates (fin (lit 100)) (fin (lit 2)) lit_two_ne .put).2.1 rfl

example := C102_nan_asian some_propagates .geometricDiscrete (Or.inr rfl) (some (fin (lit 100))) .fixed .call [fin (lit 500), nan, fin (lit 700)]
  (by simp) (by norm_num)

/-- Two simulated paths, one of which has failed. -/
def halfFailed : List (List X64) := [[fin (lit 100), fin (lit 121)], [fin (lit 100), nan]]

/-- The price of a call is half of what the path that did not fail says. -/
example : (price someFun (european (fin (lit 105)) .call) (fin (lit (1 / 20))) (fin (lit 0)) (fin (lit 1)) halfFailed).map show' = some (some (.inl 8)) ∧
    (price someFun (european (fin (lit 105)) .call) (fin (lit (1 / 20))) (fin (lit 0)) (fin (lit 1)) (halfFailed.take 1)).map show' =
      some (some (.inl 16)) := by decide +kernel

example : Nonneg (fin (lit 8)) := by show 0 ≤ (lit 8).val; decide +kernel

example := C102_nan_paths someFun (lit 105) .call (fin (lit (1 / 20))) (fin (lit 0)) (fin (lit 1)) halfFailed

theorem one_pos' : 0 < (lit 1).val := by decide +kernel

theorem someFun_discount : someFun ((fin (lit (1 / 20))).neg.mul ((fin (lit 1)).sub (fin (lit 0)))) = fin (lit 1) := by
  refine show_inj ?_
  decide +kernel

example (v : X64) (hv : price someFun (european (fin (lit 105)) .call) (fin (lit (1 / 20))) (fin (lit 0)) (fin (lit 1)) halfFailed = some v) :=
  C102_price_sign someFun _ (fun path => (C102_payoff_sign someX (fin (lit 105)) .call path).1) _ _ _ (lit 1) someFun_discount one_pos' halfFailed
    (by simp [halfFailed]) (by norm_num [halfFailed]) v hv

example := C102_contracts some_propagates (fin (lit 100)) (fin (lit 2)) (fin (lit (1 / 20))) (fin (lit 0)) (fin (lit 1)) lit_two_ne halfFailed
  [fin (lit 100), nan] (by simp [halfFailed]) rfl

example : price someFun (european (fin (lit 105)) .call) (fin (lit (1 / 20))) (fin (lit 0)) (fin (lit 1)) [[fin (lit 100)], [inf false]] =
    some (inf false) := by
  have h1 : (price someFun (european (fin (lit 105)) .call) (fin (lit (1 / 20))) (fin (lit 0)) (fin (lit 1)) [[fin (lit 100)], [inf false]]).isSome := rfl
  obtain ⟨v, hv⟩ := Option.isSome_iff_exists.1 h1
  rw [hv, (C102_infinite someFun _ (fun path => (C102_payoff_sign someX (fin (lit 105)) .call path).1) _ _ _ (lit 1) someFun_discount one_pos' _
    (by norm_num) v hv).1 ⟨[inf false], by simp, congrArg some (show_inj (by decide +kernel))⟩]

/-- The barrier at 130 is not seen to be hit when the value that hit it was lost. -/
example : barrier .upAndOut (fin (lit 130)) (fin (lit 105)) .call [fin (lit 100), nan, fin (lit 121)] =
    barrier .upAndOut (fin (lit 130)) (fin (lit 105)) .call [fin (lit 100), fin (lit 121)] :=
  C102_nan_barrier .upAndOut _ _ .call [fin (lit 100), nan] (fin (lit 121)) rfl

example : (barrier .upAndOut (fin (lit 130)) (fin (lit 105)) .call [fin (lit 100), nan, fin (lit 121)]).map show' = some (some (.inl 16)) := by
  decide +kernel

example := C102_in_out (fin (lit 130)) (fin (lit 105)) .call [fin (lit 100), nan] (fin (lit 121))

/-- A path that overflows in its first step: 2^1023, +∞, NaN, NaN. -/
def exploding : Option (List X64) := runPath (gbm (fun _ => lit 1) fun _ => lit 1) (lit 1) (lit 1) [lit 0, lit 1, lit 2] (fun i => if i = 0 then lit 0 else lit (-1))
  (fin (lit (2 ^ 1023))) 3

theorem exploding_values : (exploding.map (List.map show')) = some [some (.inl (2 ^ 1023)), some (.inr false), none, none] := by decide +kernel

example : ∃ p, exploding = some p ∧ lastPoint p = nan ∧ european (fin (lit 100)) .call p = some zero := by
  obtain ⟨p, h1, h2⟩ := Option.map_eq_some_iff.1 exploding_values
  refine ⟨p, h1, C102_exploded _ _ (lit 1) (lit 1) one_pos' one_pos' _ _ _ 3 p h1 1 1 le_rfl (by norm_num) ?_ ?_ _ _⟩
  · have h3 := congrArg (fun l => l[1]?) h2
    simp only [List.getElem?_map, List.getElem?_cons_succ, List.getElem?_cons_zero] at h3
    obtain ⟨x, h4, h5⟩ := Option.map_eq_some_iff.1 h3
    rw [h4, show_inj (y := inf false) h5]
  · show (if 1 = 0 then lit 0 else lit (-1)).val ≤ 0
    decide +kernel

end Verif.Float.Nan
