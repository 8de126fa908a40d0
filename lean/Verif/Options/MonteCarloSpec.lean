import Verif.Options.MonteCarlo

/-!
# Specification for C76: what each instrument pays on a price path

`Pays ins path S v`: along the non-empty `path`, which ends at `S`, the instrument pays `v`. Written from the contract
terms. A power that is not a real number counts as worthless for the options that floor their payoff at zero.
-/

namespace Verif.Options.Spec

open Real Classical

/-- The gain of a call or a put. -/
noncomputable def gain (flag : TypeFlag) (a k : ℝ) : ℝ := max (if flag = .call then a - k else k - a) 0

/-- `y` is the real number `x` to the power `p`. -/
def IsPow (x p y : ℝ) : Prop :=
  (0 < x ∧ y = exp (p * log x)) ∨ (x = 0 ∧ ((0 < p ∧ y = 0) ∨ (p = 0 ∧ y = 1))) ∨ (x < 0 ∧ ∃ n : ℤ, p = n ∧ y = x ^ n)

/-- The power is infinite. -/
def InfinitePow (x p : ℝ) : Prop := x = 0 ∧ p < 0

/-- The power is not defined. -/
def NoPow (x p : ℝ) : Prop := x < 0 ∧ ∀ n : ℤ, p ≠ n

/-- The barrier is touched or crossed from the side named. -/
def touched (b : BarrierType) (level : ℝ) (path : List ℝ) : Prop :=
  match b with
  | .upAndOut | .upAndIn => ∃ x ∈ path, level ≤ x
  | .downAndOut | .downAndIn => ∃ x ∈ path, x ≤ level

/-- The barrier option is alive at expiry. -/
def alive (b : BarrierType) (level : ℝ) (path : List ℝ) : Prop :=
  match b with
  | .upAndOut | .downAndOut => ¬ touched b level path
  | .upAndIn | .downAndIn => touched b level path

/-- The average of a path. -/
def IsAverage (m : AveragingMethod) (path : List ℝ) (a : ℝ) : Prop :=
  (m = .arithmeticDiscrete ∧ a * path.length = path.sum) ∨
    (m = .geometricDiscrete ∧ IsPow path.prod (1 / path.length) a)

/-- The instrument pays `v` along a path that ends at `S`. -/
def Pays (ins : McInstrument) (path : List ℝ) (S v : ℝ) : Prop :=
  match ins with
  | .asian o =>
      (∃ a, IsAverage o.averagingMethod path a ∧
        ((o.strikeFlag = some .fixed ∧ v = gain o.typeFlag a (o.strike.getD 0)) ∨
         (o.strikeFlag = some .floating ∧ v = gain o.typeFlag S a))) ∨
      (o.averagingMethod = .geometricDiscrete ∧ NoPow path.prod (1 / path.length) ∧ o.strikeFlag.isSome ∧ v = 0)
  | .binary k b f => v = if (f = .call ∧ k < S) ∨ (f = .put ∧ S < k) then
      (if b = .cashOrNothing then k else S) else 0
  | .vanilla k f => v = gain f S k
  | .powerContract k p => k ≠ 0 ∧ IsPow (S / k) p v
  | .power k p f => (∃ y, IsPow S p y ∧ v = gain f y k) ∨ (InfinitePow S p ∧ f = .put ∧ v = 0) ∨ (NoPow S p ∧ v = 0)
  | .supershare a b => (a ≤ S ∧ S ≤ b ∧ v * a = S ∧ a ≠ 0) ∨ (¬ (a ≤ S ∧ S ≤ b) ∧ v = 0)
  | .barrier o => v = if alive o.barrierType o.barrier path then gain o.typeFlag S o.strike else 0
  | .cappedPower k p cap f => (∃ y, IsPow S p y ∧ v = min (gain f y k) cap) ∨
      (InfinitePow S p ∧ f = .call ∧ v = cap) ∨ (InfinitePow S p ∧ f = .put ∧ v = min 0 cap) ∨ (NoPow S p ∧ v = min 0 cap)
  | .powered k p f => IsPow (gain f S k) p v
  | .logMoneyness k => 0 < S / k ∧ exp v = S / k
  | .logUnderlying _ => exp v = S
  | .logOption k => k ≠ 0 ∧ ((1 ≤ S / k ∧ exp v = S / k) ∨ (S / k < 1 ∧ v = 0))

/-- `v` is the Monte-Carlo price over the paths: discounting times the mean of what the instrument pays on each. -/
def IsEstimate (ins : McInstrument) (paths : List (List ℝ)) (rate time v : ℝ) : Prop :=
  ∃ pays : ℕ → ℝ, 0 < paths.length ∧
    (∀ i, (hi : i < paths.length) → ∃ S, (paths[i]).getLast? = some S ∧ Pays ins paths[i] S (pays i)) ∧
    v = exp (-(rate * time)) * ((∑ i ∈ Finset.range paths.length, pays i) / paths.length)

end Verif.Options.Spec
