import Mathlib.Data.Real.Basic
import Mathlib.Algebra.BigOperators.Group.List.Basic

/-!
# Model of `RustQuant_math::sequences` for `T = f64`

Source: `crates/RustQuant_math/src/sequences.rs`. The trait is generic; it is modelled at `T = f64`, with `f64` as an
exact real. Panics are `none`. `logspace` (67-69) is `todo!()`: it panics on every input and is not modelled.
-/

namespace Verif.Math.Sequences

/-- sequences.rs 37: `Vec::with_capacity(((end - start) / step).to_usize().unwrap())`. `f64::to_usize` is `None` for a
non-finite quotient (here: `step = 0`), for a quotient `≤ -1`, and above the range of `usize`; `with_capacity` then
panics when the capacity needs more than `isize::MAX` bytes of eight-byte elements. -/
noncomputable def capacityOk (start stop step : ℝ) : Prop :=
  step ≠ 0 ∧ -1 < (stop - start) / step ∧ (stop - start) / step < 2 ^ 60

/-- sequences.rs 40-43: the loop `while x <= end { seq.push(x); x = x + step; }`. The relation holds when the loop,
entered at `x`, ends having pushed `l`; a loop that never ends is related to nothing. -/
inductive Loop (stop step : ℝ) : ℝ → List ℝ → Prop
  | done (x : ℝ) : ¬ x ≤ stop → Loop stop step x []
  | push (x : ℝ) (l : List ℝ) : x ≤ stop → Loop stop step (x + step) l → Loop stop step x (x :: l)

/-- sequences.rs 36-46: `seq(start, end, step)` finishes with outcome `r` (`none` is a panic). -/
def Seq (start stop step : ℝ) (r : Option (List ℝ)) : Prop :=
  (¬ capacityOk start stop step ∧ r = none) ∨
  (capacityOk start stop step ∧ ∃ l, r = some l ∧ Loop stop step start l)

/-- sequences.rs 48-50. -/
def rep (x : ℝ) (n : ℕ) : List ℝ := List.replicate n x

/-- sequences.rs 52-65. An entry `none` is NaN: for `n = 1` the step is `(end - start) / 0 = +inf` and the only entry
is `start + 0 * inf`. -/
noncomputable def linspace (start stop : ℝ) (n : ℕ) : Option (List (Option ℝ)) :=
  open Classical in
  if start < stop ∧ 0 < n then
    some ((List.range n).map fun (i : ℕ) =>
      if n - 1 = 0 then none else some (start + (i : ℝ) * ((stop - start) / ((n - 1 : ℕ) : ℝ))))
  else none

/-- sequences.rs 71-81: the `scan` with its running total. -/
def cumsumFrom (acc : ℝ) : List ℝ → List ℝ
  | [] => []
  | x :: l => (acc + x) :: cumsumFrom (acc + x) l

/-- sequences.rs 71-81. -/
def cumsum (v : List ℝ) : List ℝ := cumsumFrom 0 v

end Verif.Math.Sequences
