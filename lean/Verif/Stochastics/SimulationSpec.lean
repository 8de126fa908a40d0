import Mathlib.Analysis.Real.Sqrt
import Mathlib.Analysis.SpecialFunctions.Pow.Real
import Mathlib.Analysis.SpecialFunctions.Log.Basic

/-!
# Specification of the simulated equations

A stochastic differential equation `dX = drift dt + diffusion dW` as one writes it down, with the pairs of state and time
for which it is to be accepted, and its Euler-Maruyama scheme.
-/

namespace Verif.Stochastics.Spec

/-- `dX = drift(X, t) dt + diffusion(X, t) dW`, accepted at the pairs `valid`. -/
structure Sde where
  drift : ℝ → ℝ → ℝ
  diffusion : ℝ → ℝ → ℝ
  valid : ℝ → ℝ → Prop

/-- Euler-Maruyama scheme for the increments `√dt z(t)`. -/
noncomputable def Sde.euler (S : Sde) (t0 dt x0 : ℝ) (z : ℕ → ℝ) : ℕ → ℝ
  | 0 => x0
  | t + 1 =>
    let x := S.euler t0 dt x0 z t
    x + S.drift x (t0 + dt * t) * dt + S.diffusion x (t0 + dt * t) * √dt * z t

variable (mu sigma theta alpha elasticity : ℝ → ℝ)

/-- `dX = dW`. -/
def brownian : Sde := ⟨fun _ _ => 0, fun _ _ => 1, fun _ _ => True⟩

/-- `dX = μ dt + σ dW`, `σ ≥ 0`. -/
def arithmetic : Sde := ⟨fun _ t => mu t, fun _ t => sigma t, fun _ t => 0 ≤ sigma t⟩

/-- `dX = μ X dt + σ X dW`, `σ ≥ 0`. -/
def geometric : Sde := ⟨fun x t => mu t * x, fun x t => sigma t * x, fun _ t => 0 ≤ sigma t⟩

/-- `dX = μ X dt + σ X^γ dW`, `σ ≥ 0`, `0 ≤ γ ≤ 1`, for `X ≥ 0`. -/
noncomputable def elasticVariance : Sde :=
  ⟨fun x t => mu t * x, fun x t => sigma t * x ^ elasticity t,
    fun x t => 0 ≤ sigma t ∧ elasticity t ∈ Set.Icc 0 1 ∧ 0 ≤ x⟩

/-- `dX = θ (μ - X) dt + σ √X dW`, `σ ≥ 0`, for `X ≥ 0`. -/
noncomputable def squareRoot : Sde :=
  ⟨fun x t => theta t * (mu t - x), fun x t => sigma t * √x, fun x t => 0 ≤ sigma t ∧ 0 ≤ x⟩

/-- `dX = θ (μ - X) dt + σ √X dW` for `X ≥ 0`, with any `σ`. -/
noncomputable def squareRootAnySign : Sde :=
  ⟨fun x t => theta t * (mu t - x), fun x t => sigma t * √x, fun x _ => 0 ≤ x⟩

/-- `dX = θ (μ - X) dt + σ dW`, `σ ≥ 0`. -/
def meanReverting : Sde :=
  ⟨fun x t => theta t * (mu t - x), fun _ t => sigma t, fun _ t => 0 ≤ sigma t⟩

/-- `dX = (θ - α X) dt + σ dW`. -/
def extendedVasicek : Sde := ⟨fun x t => theta t - alpha t * x, fun _ t => sigma t, fun _ _ => True⟩

/-- `dX = θ dt + σ dW`, `σ, θ ≥ 0`. -/
def hoLee : Sde := ⟨fun _ t => theta t, fun _ t => sigma t, fun _ t => 0 ≤ theta t ∧ 0 ≤ sigma t⟩

/-- `dX = (θ + σ'/σ X) dt + σ dW`, `σ ≠ 0`, where `slope` approximates `σ'`. -/
noncomputable def blackDermanToy (slope : ℝ → ℝ) : Sde :=
  ⟨fun x t => theta t + slope t / sigma t * x, fun _ t => sigma t, fun _ t => sigma t ≠ 0⟩

/-- `dX = (μ + (log e - log X)/(T - t)) X dt + σ X dW`, `σ ≥ 0`, for `X > 0` and `t ≠ T`. -/
noncomputable def bridge (e T : ℝ) : Sde :=
  ⟨fun x t => (mu t + (Real.log e - Real.log x) / (T - t)) * x, fun x t => sigma t * x,
    fun x t => 0 ≤ sigma t ∧ 0 < e ∧ 0 < x ∧ t ≠ T⟩

end Verif.Stochastics.Spec
