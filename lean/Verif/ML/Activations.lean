import Verif.Autodiff.Model

/-!
# Activation functions (crates/RustQuant_ml/src/activations.rs)

`f64` is modelled by `ℝ`.  The implementation for `Variable` is a program of the automatic
differentiation model: the first statement is the input and the last one the result.  The
implementation for `DVector<f64>` (activations.rs 134-174) maps the one for `f64` over the entries.
-/

namespace Verif.ML

open Verif.Autodiff

/-- The methods of `ActivationFunction` (activations.rs 15-44). -/
inductive Act
  | sigmoid | identity | logistic | relu | gelu | tanh | softplus | gaussian

open Classical in
/-- The implementation for `f64` (activations.rs 88-132). -/
noncomputable def Act.f64 : Act → ℝ → ℝ
  | .sigmoid, x => 1 / (1 + Real.exp (-x))
  | .identity, x => x
  | .logistic, x => 1 / (1 + Real.exp (-x))
  | .relu, x => if x > 0 then x else 0
  | .gelu, x => 0.5 * x * (1 + Autodiff.erf (x / √2))
  | .tanh, x => Real.tanh x
  | .softplus, x => Real.log (1 + Real.exp x)
  | .gaussian, x => Real.exp ((-x) ^ 2)

/-- The implementation for `DVector<f64>` (activations.rs 134-174). -/
noncomputable def Act.vector {n : ℕ} (a : Act) (v : Fin n → ℝ) : Fin n → ℝ :=
  match a with
  | .sigmoid => fun i => Act.sigmoid.f64 (v i)
  | .identity => v
  | .logistic => fun i => Act.logistic.f64 (v i)
  | .relu => fun i => Act.relu.f64 (v i)
  | .gelu => fun i => Act.gelu.f64 (v i)
  | .tanh => fun i => Real.tanh (v i)
  | .softplus => fun i => Act.softplus.f64 (v i)
  | .gaussian => fun i => Act.gaussian.f64 (v i)

/-- The implementation for `Variable` (activations.rs 46-86), as the statements it executes after the
one that creates its argument. -/
noncomputable def Act.variable : Act → List Instr
  | .sigmoid => [.neg 0, .un .exp 1, .vf .add 2 1, .un .recip 3]
  | .identity => []
  | .logistic => [.neg 0, .un .exp 1, .vf .add 2 1, .un .recip 3]
  | .relu => [.un .abs 0, .vv .add 0 1, .divF 2 2]
  | .gelu => [.fMul 0.5 0, .divF 0 (√2), .un .erf 2, .fAdd 1 3, .vv .mul 1 4]
  | .tanh => [.un .tanh 0]
  | .softplus => [.un .exp 0, .fAdd 1 1, .un .ln 2]
  | .gaussian => [.powi 0 2, .neg 1, .un .exp 2]

end Verif.ML
