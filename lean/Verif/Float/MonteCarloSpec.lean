import Verif.Float.MonteCarlo
import Verif.Float.SimulationSpec
import Verif.Float.MeansSpec
import Mathlib.Analysis.SpecialFunctions.Exp

/-! What the theorems about rounded Monte-Carlo prices are stated with. -/

namespace Verif.Float.Mc

open Verif.Float.Sim

/-- A platform's `exp` with relative error `δ` for arguments between -500 and 500. -/
def AccurateExp (exp : F64 → Option F64) (δ : ℝ) : Prop :=
  ∀ x, |F64.real x| ≤ 500 → ∃ y, exp x = some y ∧ |F64.real y - Real.exp (F64.real x)| ≤ δ * Real.exp (F64.real x)

/-- The mean of `f` over a list. -/
noncomputable def avg {α : Type} (f : α → ℝ) (l : List α) : ℝ := (l.map f).sum / l.length

/-- The exact discount factor. -/
noncomputable def factor (rate t0 tn : F64) : ℝ := Real.exp (-(F64.real rate * (F64.real tn - F64.real t0)))

/-- The relative error of discounting and averaging `n` payoffs. -/
noncomputable def tolerance (δ : ℝ) (n : ℕ) (rate t0 tn : F64) : ℝ :=
  2 * δ + 2 ^ (-51 : ℤ) * (n + 2 * |F64.real rate * (F64.real tn - F64.real t0)| + 2)

/-- An accurate `exp`, an exponent of the discount factor up to 300 in size, and between one and `2^40` paths. -/
structure Ordinary (exp : F64 → Option F64) (δ : ℝ) (rate t0 tn : F64) (n : ℕ) : Prop where
  exp : AccurateExp exp δ
  error : δ ≤ 1 / 100
  exponent : |F64.real rate * (F64.real tn - F64.real t0)| ≤ 300
  period : |F64.real t0| ≤ 2 ^ 1000 ∧ |F64.real tn| ≤ 2 ^ 1000
  paths : 0 < n ∧ n ≤ 2 ^ 40

end Verif.Float.Mc
