import Verif.Float.Simulation
import Mathlib.Analysis.SpecialFunctions.Sqrt

/-! What the theorems about rounded simulated paths are stated with. -/

namespace Verif.Float.Sim

/-- The real number a finite `f64` stands for. -/
noncomputable def F64.real (a : F64) : ℝ := ((a.val : ℚ) : ℝ)

/-- The unit roundoff. -/
noncomputable def unit : ℝ := 2 ^ (-53 : ℤ)

/-- The Euler-Maruyama recursion in exact arithmetic, with drift `b`, diffusion `s`, step `dt`, scale of the noise `scale`, times `time`
and noise `z`. -/
noncomputable def euler (b s : F64 → ℝ → ℝ) (dt scale : ℝ) (time z : ℕ → F64) (x0 : ℝ) : ℕ → ℝ
  | 0 => x0
  | k + 1 =>
    euler b s dt scale time z x0 k + b (time k) (euler b s dt scale time z x0 k) * dt +
      s (time k) (euler b s dt scale time z x0 k) * scale * F64.real (z k)

/-- A bound on everything that is added up to the `k`-th value, when the drift is at most `B * |x| + C` in size and the diffusion at
most `S * |x| + T`: the same recursion, with every term taken at its largest. `2^-900` stands for the sizes at which underflow may matter. -/
noncomputable def size (B C S T dt scale : ℝ) (z : ℕ → F64) (x0 : ℝ) : ℕ → ℝ
  | 0 => |x0| + 2 ^ (-900 : ℤ)
  | k + 1 =>
    size B C S T dt scale z x0 k + (B * size B C S T dt scale z x0 k + C) * dt +
      (S * size B C S T dt scale z x0 k + T) * scale * |F64.real (z k)|

/-- `f` computes the function `b` of the value, at each time: `b` has Lipschitz constant `B`, is at most `B * |x| + C` in size, and `f`
is off by at most `η` of that, and the smallest positive number, for values up to `2^900`. -/
structure Computes (f : F64 → F64 → Option F64) (b : F64 → ℝ → ℝ) (B C η : ℝ) : Prop where
  slope : 0 ≤ B ∧ B ≤ 2 ^ 19
  offset : 0 ≤ C ∧ C ≤ 2 ^ 899
  lipschitz : ∀ t x y, |b t x - b t y| ≤ B * |x - y|
  growth : ∀ t x, |b t x| ≤ B * |x| + C
  computed : ∀ x t, |F64.real x| ≤ 2 ^ 900 →
    ∃ y, f x t = some y ∧ |F64.real y - b t (F64.real x)| ≤ η * (B * |F64.real x| + C) + 2 ^ (-1074 : ℤ)

/-- A square root with a relative error of at most `2^-52`. (IEEE 754 asks for half of that.) -/
def AccurateSqrt (sqrt : F64 → Option F64) : Prop :=
  ∀ a : F64, 0 < a.val → ∃ r, sqrt a = some r ∧ |F64.real r - Real.sqrt (F64.real a)| ≤ 2 * unit * Real.sqrt (F64.real a)

/-- The exact time step. -/
noncomputable def Config.step (c : Config) : ℝ := (F64.real c.tn - F64.real c.t0) / c.nSteps

/-- Between one and `2^40` steps, over a period of at least `2^-900` with ends up to `2^18` in size. -/
structure Config.Ordinary (c : Config) : Prop where
  steps : 0 < c.nSteps ∧ c.nSteps ≤ 2 ^ 40
  ends : |F64.real c.t0| ≤ 2 ^ 18 ∧ |F64.real c.tn| ≤ 2 ^ 18
  period : 2 ^ (-900 : ℤ) ≤ F64.real c.tn - F64.real c.t0

end Verif.Float.Sim
