import Verif.Float.Means
import Verif.Float.SimulationSpec
import Mathlib.Analysis.SpecialFunctions.Pow.Real

/-! What the theorems about rounded geometric and harmonic means and Asian options are stated with. -/

namespace Verif.Float.Mean

open X64 Verif.Float.Sim Verif.Options

/-- The exact product of the data. -/
noncomputable def total (xs : List F64) : ℝ := (xs.map F64.real).prod

/-- The geometric mean of positive data. -/
noncomputable def gmean (xs : List F64) : ℝ := total xs ^ (1 / (xs.length : ℝ))

/-- The harmonic mean of positive data. -/
noncomputable def hmean (xs : List F64) : ℝ := xs.length / (xs.map fun x => 1 / F64.real x).sum

/-- The arithmetic mean. -/
noncomputable def amean (xs : List F64) : ℝ := (xs.map F64.real).sum / xs.length

/-- A platform's `powf` with relative error `δ` for positive bases and exponents in `(0, 1]` (where the result is not subnormal), and with
the values IEEE 754 asks for at infinity and zero. -/
structure Accurate (pow : X64 → X64 → X64) (δ : ℝ) : Prop where
  finite : ∀ x p : F64, 0 < x.val → 0 < p.val → p.val ≤ 1 → 2 ^ (-1022 : ℤ) ≤ x.val ∨ p.val ≤ 1 / 2 →
    ∃ y, pow (fin x) (fin p) = fin y ∧ |F64.real y - F64.real x ^ F64.real p| ≤ δ * F64.real x ^ F64.real p
  infinite : ∀ p : F64, 0 < p.val → pow (inf false) (fin p) = inf false
  zero : ∀ p : F64, 0 < p.val → pow (fin F64.zero) (fin p) = fin F64.zero

/-- What an option pays that compares `a` with `b`. -/
noncomputable def gain : TypeFlag → ℝ → ℝ → ℝ
  | .call, a, b => max (a - b) 0
  | .put, a, b => max (b - a) 0

/-- What an Asian option pays, for an average `A`, a last price `S` and a strike `K`. -/
noncomputable def asianGain (f : TypeFlag) (s : StrikeFlag) (A S K : ℝ) : ℝ :=
  match s with
  | .fixed => gain f A K
  | .floating => gain f S A

/-- A product all of whose parts are ordinary numbers: it has at most `2^40` positive factors, and the exact product of the first `k` of them
lies between `2^-1021` and `2^1022`, for every `k`. -/
structure Safe (xs : List F64) : Prop where
  nonempty : xs ≠ []
  length : xs.length ≤ 2 ^ 40
  pos : ∀ x ∈ xs, 0 < x.val
  parts : ∀ k ≤ xs.length, 2 ^ (-1021 : ℤ) ≤ total (xs.take k) ∧ total (xs.take k) ≤ 2 ^ 1022

end Verif.Float.Mean
