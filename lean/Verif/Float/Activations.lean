import Verif.Float.Tape

/-!
# Activation functions on `f64` values with infinities and NaN (crates/RustQuant_ml/src/activations.rs)

Every operation is rounded. The functions of the platform are parameters. `identity` (95-97) and `tanh` (119-121, one call of the
platform) are left out, and so are `gelu` and `gaussian` for `Variable` (68-70, 83-85).
-/

namespace Verif.Float.Activation

open X64 Nan

/-- `f64::exp` (activations.rs 91, 101, 125, 130), `f64::ln` (125), `f64::sqrt` (115) and `RealErrorFunctions::erf` (115). -/
structure Lib where
  exp : X64 → X64
  ln : X64 → X64
  sqrt : X64 → X64
  erf : X64 → X64

/-- `sigmoid` and `logistic` for `f64` (activations.rs 90-92 and 100-102): `1.0 / (1.0 + (-self).exp())`. -/
def sigmoid (l : Lib) (x : X64) : X64 := (ofQ 1).div ((ofQ 1).add (l.exp x.neg))

/-- `relu` for `f64` (activations.rs 105-111). -/
def relu (x : X64) : X64 := if zero.lt x then x else zero

/-- `gelu` for `f64` (activations.rs 114-116): `0.5 * self * (1.0 + erf(self / 2_f64.sqrt()))`. -/
def gelu (l : Lib) (x : X64) : X64 :=
  ((ofQ (1 / 2)).mul x).mul ((ofQ 1).add (l.erf (x.div (l.sqrt (ofQ 2)))))

/-- `softplus` for `f64` (activations.rs 124-126): `(1.0 + self.exp()).ln()`. -/
def softplus (l : Lib) (x : X64) : X64 := l.ln ((ofQ 1).add (l.exp x))

/-- `gaussian` for `f64` (activations.rs 129-131): `f64::powi(-self, 2).exp()`. `powi(2)` is taken to be `x * x`. -/
def gaussian (l : Lib) (x : X64) : X64 := l.exp (x.neg.mul x.neg)

/-- `f64::abs`. Called at crates/RustQuant_autodiff/src/overload.rs 294. -/
def abs : X64 → X64
  | fin a => ofQ |a.val|
  | inf _ => inf false
  | nan => nan

/-- `f64::signum`: 1 or -1, NaN for NaN. Simplified: the zero is taken to be `+0.0`. Called at overload.rs 297. -/
def signum : X64 → X64
  | fin a => if a.val < 0 then ofQ (-1) else ofQ 1
  | inf s => if s then ofQ (-1) else ofQ 1
  | nan => nan

/-- The functions of the platform that the operators of `Variable` call. -/
def Lib.tape (l : Lib) : Tape.Lib := ⟨l.exp, l.ln, l.sqrt⟩

/-- `abs` for `Variable` (crates/RustQuant_autodiff/src/overload.rs 291-299). -/
def absV (g : Tape.Graph) (a : Tape.Var) : Option (Tape.Graph × Tape.Var) :=
  (Tape.push g .unary [a.index] [signum a.value]).map fun (g', i) => (g', ⟨i, abs a.value⟩)

/-- `sigmoid` and `logistic` for `Variable` (activations.rs 48-50 and 58-60): `((-(*self)).exp() + 1_f64).recip()`. -/
def sigmoidV (l : Lib) (g : Tape.Graph) (x : Tape.Var) : Option (Tape.Graph × Tape.Var) := do
  let (g, n) ← Tape.negV g x
  let (g, e) ← Tape.expV l.tape g n
  let (g, s) ← Tape.addVF g e (ofQ 1)
  Tape.recipV g s

/-- `relu` for `Variable` (activations.rs 63-65): `(*self + (*self).abs()) / 2_f64`. -/
def reluV (g : Tape.Graph) (x : Tape.Var) : Option (Tape.Graph × Tape.Var) := do
  let (g, a) ← absV g x
  let (g, s) ← Tape.addVV g x a
  Tape.divVF g s (ofQ 2)

/-- `softplus` for `Variable` (activations.rs 78-80): `(1.0 + self.exp()).ln()`. -/
def softplusV (l : Lib) (g : Tape.Graph) (x : Tape.Var) : Option (Tape.Graph × Tape.Var) := do
  let (g, e) ← Tape.expV l.tape g x
  let (g, s) ← Tape.addVF g e (ofQ 1)
  Tape.lnV l.tape g s

end Verif.Float.Activation
