import Verif.Autodiff.Model
import Mathlib.Analysis.SpecialFunctions.Pow.Real

/-!
# Model of `RustQuant_math::optimization::gradient_descent`

Source: `crates/RustQuant_math/src/optimization/gradient_descent.rs`. `f64` is an exact real; a panic is `none`. The
elapsed time and the `verbose` printing are not modelled.
-/

namespace Verif.Math.GradientDescent

open Verif.Autodiff (Instr Graph Var run accumulate wrtAll)

/-- gradient_descent.rs 88-97. -/
structure Optimizer where
  learningRate : ℝ
  maxIterations : ℕ
  tolerance : Option ℝ

/-- gradient_descent.rs 101-113 (without `elapsed`). -/
structure Result where
  minimizer : List ℝ
  minimum : ℝ
  iterations : ℕ

/-- gradient_descent.rs 122-132: `new` panics on a tolerance that is not positive. -/
noncomputable def new (learningRate : ℝ) (maxIterations : ℕ) (tolerance : Option ℝ) : Option Optimizer :=
  open Classical in
  match tolerance with
  | none => some ⟨learningRate, maxIterations, tolerance⟩
  | some t => if 0 < t then some ⟨learningRate, maxIterations, tolerance⟩ else none

/-- gradient_descent.rs 143-145. -/
noncomputable def norm (x : List ℝ) : ℝ := √((x.map fun a => a * a).sum)

/-- gradient_descent.rs 136-139. -/
def isStationary (gradient : List ℝ) (tol : ℝ) : Prop := norm gradient < tol

/-- gradient_descent.rs 187-191: `minimizer.iter_mut().zip(&gradient).for_each(..)`; entries beyond the gradient's
length are left alone. -/
noncomputable def update (lr : ℝ) (x gradient : List ℝ) : List ℝ :=
  List.zipWith (fun xi gi => xi - lr * gi) x gradient ++ x.drop gradient.length

/-- gradient_descent.rs 170-176, 193: `location = graph.vars(&minimizer); function = f(&location);
gradient = function.accumulate().wrt(&location)` on a fresh graph. The objective is a client program `body` over the
variables of `location`, in the autodiff model's instruction set, with its last statement as output. The second call
`f(&location).value` (193) repeats the same operations on the same inputs and is not run again. -/
noncomputable def evaluate (body : List Instr) (x : List ℝ) : Option (ℝ × List ℝ) := do
  let (g, env) ← run (List.replicate x.length Instr.leaf ++ body) (fun i => x.getD i 0)
  let z ← env.getLast?
  let adj ← accumulate g z
  let d ← wrtAll adj (env.take x.length)
  some (z.value, d)

open Classical in
/-- gradient_descent.rs 169-215: the loop, with `n` rounds left and `k` done. `oracle` is `evaluate` of the objective. -/
noncomputable def loop (oracle : List ℝ → Option (ℝ × List ℝ)) (lr tol : ℝ) : ℕ → ℕ → Result → Option Result
  | 0, _, r => some r
  | n + 1, k, r => do
    let (value, gradient) ← oracle r.minimizer
    if isStationary gradient tol then some { r with iterations := k + 1 }
    else loop oracle lr tol n (k + 1) ⟨update lr r.minimizer gradient, value, k + 1⟩

/-- gradient_descent.rs 160: `self.tolerance.unwrap_or(f64::EPSILON.sqrt())`; `EPSILON = 2^-52`. -/
noncomputable def Optimizer.tol (o : Optimizer) : ℝ := o.tolerance.getD (√(1 / 2 ^ 52))

/-- gradient_descent.rs 154-218. -/
noncomputable def optimizeWith (o : Optimizer) (oracle : List ℝ → Option (ℝ × List ℝ)) (x0 : List ℝ) : Option Result :=
  loop oracle o.learningRate o.tol o.maxIterations 0 ⟨x0, 0, 0⟩

/-- gradient_descent.rs 154-218, on a client program. -/
noncomputable def optimize (o : Optimizer) (body : List Instr) (x0 : List ℝ) : Option Result :=
  optimizeWith o (evaluate body) x0

end Verif.Math.GradientDescent
