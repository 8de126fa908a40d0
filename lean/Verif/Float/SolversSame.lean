import Verif.Float.SolversNan

/-! C104, continued: bisection on all values of `f64` agrees with bisection on finite ones (C90). -/

namespace Verif.Float.Solve

open X64
open Nan (zero le nan_lt lt_nan nan_le le_nan nan_div fin_of sub_of)

/-- The same settings. -/
def lift (c : Bisect.Config) : Config := ⟨fin c.accuracy, fin c.stepsize, fin c.lower, fin c.upper, c.enforced⟩

/-- The same answer, unless the search on finite numbers met one that is not. -/
def Same : Bisect.Ret → Ret → Prop
  | .panic, r => r = .panic
  | .nonfinite, _ => True
  | .gaveUp, r => r = .gaveUp
  | .found x, r => r = .found (fin x)

theorem add_of {a b c : F64} (h : a.add b = some c) : (fin a).add (fin b) = fin c := fin_of h

theorem mul_of {a b c : F64} (h : a.mul b = some c) : (fin a).mul (fin b) = fin c := fin_of h

theorem bound_lift (c : Bisect.Config) (x : F64) : (lift c).bound (fin x) = fin (c.bound x) := by
  unfold Config.bound Bisect.Config.bound
  have h1 : (fin x).lt (lift c).lower = decide (x.val < c.lower.val) := rfl
  have h2 : (lift c).upper.lt (fin x) = decide (c.upper.val < x.val) := rfl
  have h3 : (lift c).enforced = c.enforced := rfl
  rw [h1, h2, h3]
  simp only [Bool.and_eq_true, decide_eq_true_eq]
  split_ifs <;> rfl

theorem grow_lift {x y z : F64} (h : Bisect.grow x y = some z) : grow (fin x) (fin y) = fin z := by
  unfold Bisect.grow at h
  obtain ⟨g, hg, h⟩ := Option.bind_eq_some_iff.1 h
  obtain ⟨d, hd, h⟩ := Option.bind_eq_some_iff.1 h
  obtain ⟨p, hp, h⟩ := Option.bind_eq_some_iff.1 h
  unfold grow
  rw [fin_of hg, sub_of hd, mul_of hp, add_of h]

/-- The same bracket. -/
def liftB (b : Bisect.Bracket) : Bracket := ⟨fin b.xMin, fin b.xMax, fin b.yMin, fin b.yMax⟩

theorem down_lift {f : F64 → F64} {g : X64 → X64} (hg : ∀ x, g (fin x) = fin (f x)) {c : Bisect.Config} {b b' : Bisect.Bracket}
    (h : b.down f c = some b') : (liftB b).down g (lift c) = liftB b' := by
  unfold Bisect.Bracket.down at h
  obtain ⟨x, hx, h⟩ := Option.bind_eq_some_iff.1 h
  cases h
  unfold Bracket.down
  show Bracket.mk ((lift c).bound (grow (fin b.xMin) (fin b.xMax))) _ (g ((lift c).bound (grow (fin b.xMin) (fin b.xMax)))) _ = _
  rw [grow_lift hx, bound_lift, hg]; rfl

theorem up_lift {f : F64 → F64} {g : X64 → X64} (hg : ∀ x, g (fin x) = fin (f x)) {c : Bisect.Config} {b b' : Bisect.Bracket}
    (h : b.up f c = some b') : (liftB b).up g (lift c) = liftB b' := by
  unfold Bisect.Bracket.up at h
  obtain ⟨x, hx, h⟩ := Option.bind_eq_some_iff.1 h
  cases h
  unfold Bracket.up
  show Bracket.mk _ ((lift c).bound (grow (fin b.xMax) (fin b.xMin))) _ (g ((lift c).bound (grow (fin b.xMax) (fin b.xMin)))) = _
  rw [grow_lift hx, bound_lift, hg]; rfl

/-- The same decision. -/
def SameNext : Bisect.Next → Next → Prop
  | .stop .nonfinite, _ => True
  | .stop r, n => ∃ r', n = .stop r' ∧ Same r r'
  | .bisect, n => n = .refine
  | .again flip b, n => n = .again flip (liftB b)
  | .skip b, n => n = .skip (liftB b)

theorem abs_lt_abs (a b : F64) : (abs (fin a)).lt (abs (fin b)) = decide (|a.val| < |b.val|) := by
  obtain ⟨a', ha, hav⟩ := abs_fin a
  obtain ⟨b', hb, hbv⟩ := abs_fin b
  rw [ha, hb, ← hav, ← hbv]; rfl

theorem pass_lift {f : F64 → F64} {g : X64 → X64} (hg : ∀ x, g (fin x) = fin (f x)) (c : Bisect.Config) (flip : Bool) (b : Bisect.Bracket) :
    SameNext (Bisect.pass f c flip b) (pass g (lift c) flip (liftB b)) := by
  have h1 : le ((liftB b).yMin.mul (liftB b).yMax) zero = decide (rnd (b.yMin.val * b.yMax.val) ≤ 0) := le_mul_fin _ _
  have h2 : close (liftB b).yMin zero = decide (Bisect.closeZero b.yMin) := close_fin _
  have h3 : close (liftB b).yMax zero = decide (Bisect.closeZero b.yMax) := close_fin _
  have h4 : (abs (liftB b).yMin).lt (abs (liftB b).yMax) = decide (|b.yMin.val| < |b.yMax.val|) := abs_lt_abs _ _
  have h5 : (abs (liftB b).yMax).lt (abs (liftB b).yMin) = decide (|b.yMax.val| < |b.yMin.val|) := abs_lt_abs _ _
  unfold Bisect.pass pass
  rw [h1, h2, h3, h4, h5]
  simp only [decide_eq_true_eq, gt_iff_lt]
  split_ifs
  · exact ⟨_, rfl, rfl⟩
  · exact ⟨_, rfl, rfl⟩
  · rfl
  · cases hd : b.down f c with
    | none => trivial
    | some b' => exact congrArg _ (down_lift hg hd)
  · cases hd : b.up f c with
    | none => trivial
    | some b' => exact congrArg _ (up_lift hg hd)
  · cases hd : b.down f c with
    | none => trivial
    | some b' => exact congrArg _ (down_lift hg hd)
  · cases hd : b.up f c with
    | none => trivial
    | some b' => exact congrArg _ (up_lift hg hd)

theorem search_lift {f : F64 → F64} {g : X64 → X64} (hg : ∀ x, g (fin x) = fin (f x)) (c : Bisect.Config) (bisect : Bisect.Bracket → ℕ → Bisect.Ret)
    (impl : Bracket → ℕ → Ret) (hi : ∀ b k, Same (bisect b k) (impl (liftB b) k)) :
    ∀ n flip b, Same (Bisect.search (Bisect.pass f c) bisect n flip b) (search (pass g (lift c)) impl n flip (liftB b)) := by
  intro n
  induction n using Nat.strong_induction_on with
  | _ n ih =>
    intro flip b
    cases n with
    | zero => rfl
    | succ n =>
      have hp := pass_lift hg c flip b
      unfold Bisect.search search
      cases hq : Bisect.pass f c flip b with
      | stop r =>
        rw [hq] at hp
        cases r with
        | nonfinite => trivial
        | panic => obtain ⟨r', h1, h2⟩ := hp; rw [h1]; exact h2
        | gaveUp => obtain ⟨r', h1, h2⟩ := hp; rw [h1]; exact h2
        | found x => obtain ⟨r', h1, h2⟩ := hp; rw [h1]; exact h2
      | bisect =>
        rw [hq] at hp
        have h1 : pass g (lift c) flip (liftB b) = .refine := hp
        rw [h1]
        exact hi b (n + 1)
      | again flip' b' =>
        rw [hq] at hp
        have h1 : pass g (lift c) flip (liftB b) = .again flip' (liftB b') := hp
        rw [h1]
        exact ih n (by omega) flip' b'
      | skip b' =>
        rw [hq] at hp
        have h1 : pass g (lift c) flip (liftB b) = .skip (liftB b') := hp
        rw [h1]
        cases n with
        | zero => rfl
        | succ n => exact ih n (by omega) true b'

theorem two_fin : X64.ofNat 2 = fin Bisect.two := ofQ_of_eq Bisect.two (by rw [Bisect.two_val]; norm_num)

theorem loop_lift {f : F64 → F64} {g : X64 → X64} (hg : ∀ x, g (fin x) = fin (f x)) (acc : F64) :
    ∀ n root dx, Same (Bisect.loop f acc n root dx) (bisectLoop g (fin acc) n (fin root) (fin dx)) := by
  intro n
  induction n with
  | zero => intro root dx; rfl
  | succ n ih =>
    intro root dx
    unfold Bisect.loop Bisect.repeatWith
    cases hd : dx.div Bisect.two with
    | none => unfold Bisect.step; rw [hd]; trivial
    | some d =>
      cases hm : root.add d with
      | none => unfold Bisect.step; rw [hd]; simp only [hm]; trivial
      | some m =>
        have hstep : Bisect.step f acc root dx = if |d.val| < acc.val ∨ Bisect.closeZero (f m)
            then .inl (.found (if (f m).val ≤ 0 then m else root)) else .inr (if (f m).val ≤ 0 then m else root, d) := by
          unfold Bisect.step; rw [hd]; simp only [hm]
        rw [hstep]
        unfold bisectLoop
        dsimp only
        obtain ⟨d', hd', hdv⟩ := abs_fin d
        have h1 : (abs (fin d)).lt (fin acc) = decide (|d.val| < acc.val) := by rw [hd', ← hdv]; rfl
        have h2 : le (fin (f m)) zero = decide ((f m).val ≤ 0) := rfl
        have h3 : (if (f m).val ≤ 0 then fin m else fin root) = fin (if (f m).val ≤ 0 then m else root) := (apply_ite fin _ _ _).symm
        rw [two_fin, Nan.div_of hd, add_of hm, hg, h1, h2, close_fin]
        simp only [Bool.or_eq_true, decide_eq_true_eq, h3]
        by_cases hc : |d.val| < acc.val ∨ Bisect.closeZero (f m)
        · rw [if_pos hc, if_pos hc]; rfl
        · rw [if_neg hc, if_neg hc]; exact ih _ _

theorem impl_lift {f : F64 → F64} {g : X64 → X64} (hg : ∀ x, g (fin x) = fin (f x)) (acc : F64) (b : Bisect.Bracket) (k : ℕ) :
    Same (Bisect.impl f acc b k) (bisectImpl g (fin acc) (liftB b) k) := by
  unfold Bisect.impl bisectImpl
  have h1 : (liftB b).yMin.lt zero = decide (b.yMin.val < 0) := rfl
  rw [h1]
  by_cases hc : b.yMin.val < 0
  · rw [if_pos hc, if_pos (by simpa using hc)]
    cases hs : b.xMax.sub b.xMin with
    | none => trivial
    | some dx =>
      have h2 : (liftB b).xMax.sub (liftB b).xMin = fin dx := sub_of hs
      rw [h2]; exact loop_lift hg acc k _ _
  · rw [if_neg hc, if_neg (by simpa using hc)]
    cases hs : b.xMin.sub b.xMax with
    | none => trivial
    | some dx =>
      have h2 : (liftB b).xMin.sub (liftB b).xMax = fin dx := sub_of hs
      rw [h2]; exact loop_lift hg acc k _ _

/-- C104: as long as it meets finite numbers only, bisection on all values of `f64` is the bisection of C90. -/
theorem C104_same (f : F64 → F64) (g : X64 → X64) (hg : ∀ x, g (fin x) = fin (f x)) (c : Bisect.Config) (guess : F64) :
    Same (Bisect.solve f c guess) (bisection g (lift c) (fin guess)) := by
  unfold Bisect.solve bisection solve
  have h1 : zero.lt (lift c).accuracy = decide (0 < c.accuracy.val) := rfl
  have h2 : (lift c).accuracy.max epsilon = fin (c.accuracy.max Bisect.epsilon) := by rw [epsilon_fin]; exact Nan.max_of _ _
  rw [hg, close_fin, h2]
  by_cases ha : c.accuracy.val ≤ 0
  · rw [if_pos ha, if_neg (by rw [h1]; simpa using ha)]; rfl
  · rw [if_neg ha, if_pos (h1.trans (decide_eq_true (not_le.1 ha)))]
    dsimp only
    by_cases hz : Bisect.closeZero (f guess)
    · rw [if_pos hz, if_pos (by simpa using hz)]; rfl
    · rw [if_neg hz, if_neg (by simpa using hz)]
      cases hs : Bisect.start f c guess with
      | none => trivial
      | some b =>
        have h3 : start g (lift c) (fin guess) = liftB b := by
          unfold Bisect.start at hs
          unfold start
          have h4 : zero.lt (g (fin guess)) = decide (0 < (f guess).val) := by rw [hg]; rfl
          rw [h4]
          by_cases hp : 0 < (f guess).val
          · rw [if_pos hp] at hs
            rw [if_pos (by simpa using hp)]
            obtain ⟨x, hx, hs⟩ := Option.bind_eq_some_iff.1 hs
            cases hs
            have h5 : (fin guess).sub (lift c).stepsize = fin x := sub_of hx
            rw [h5, bound_lift, hg, hg]; rfl
          · rw [if_neg hp] at hs
            rw [if_neg (by simpa using hp)]
            obtain ⟨x, hx, hs⟩ := Option.bind_eq_some_iff.1 hs
            cases hs
            have h5 : (fin guess).add (lift c).stepsize = fin x := add_of hx
            rw [h5, bound_lift, hg, hg]; rfl
        rw [h3]
        exact search_lift hg c _ _ (impl_lift hg _) _ _ _

end Verif.Float.Solve
