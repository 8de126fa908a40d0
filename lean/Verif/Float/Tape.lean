import Verif.Float.NanPayoffs
import Verif.Float.Autodiff

/-!
# Automatic differentiation on `f64` values with infinities and NaN

The operators, the unary functions and the reverse accumulation of `crates/RustQuant_autodiff/src`, with every operation rounded and
infinities and NaN carried on. `none` is a panic. The functions of the platform are parameters.
-/

namespace Verif.Float.Tape

open X64 Nan
open Verif.Autodiff (Arity)

/-- `f64::exp`, `f64::ln` and `f64::sqrt`. Called at crates/RustQuant_autodiff/src/overload.rs 586, 672 and 880. -/
structure Lib where
  exp : X64 → X64
  ln : X64 → X64
  sqrt : X64 → X64

/-- `Vertex` (crates/RustQuant_autodiff/src/vertex.rs 19-25). -/
structure Vertex where
  partial0 : X64
  partial1 : X64
  parent0 : ℕ
  parent1 : ℕ

/-- `Graph` (crates/RustQuant_autodiff/src/graph.rs 29-40). -/
abbrev Graph := List Vertex

/-- `Variable` (crates/RustQuant_autodiff/src/variable.rs 30-37): position and value; the graph reference is threaded. -/
structure Var where
  index : ℕ
  value : X64

/-- `Graph::push` (crates/RustQuant_autodiff/src/graph.rs 125-186). -/
def push (g : Graph) (arity : Arity) (parents : List ℕ) (partials : List X64) : Option (Graph × ℕ) :=
  let len := g.length
  match arity, parents, partials with
  | .nullary, [], _ => some (g ++ [⟨zero, zero, len, len⟩], len)
  | .unary, [i], p :: _ => some (g ++ [⟨p, zero, i, len⟩], len)
  | .binary, [i, j], p :: q :: _ => some (g ++ [⟨p, q, i, j⟩], len)
  | _, _, _ => none

/-- `Graph::var` (crates/RustQuant_autodiff/src/graph.rs 77-83). -/
def var (g : Graph) (value : X64) : Option (Graph × Var) :=
  (push g .nullary [] []).map fun (g', i) => (g', ⟨i, value⟩)

/-- `x.recip()` on `f64`: `1 / x`. Called at overload.rs 675, 795, 799 and 884. -/
def recip (x : X64) : X64 := (ofQ 1).div x

/-- `Variable + Variable` (overload.rs 69-79). -/
def addVV (g : Graph) (a b : Var) : Option (Graph × Var) :=
  (push g .binary [a.index, b.index] [ofQ 1, ofQ 1]).map fun (g', i) => (g', ⟨i, a.value.add b.value⟩)

/-- `Variable * Variable` (overload.rs 1282-1294). -/
def mulVV (g : Graph) (a b : Var) : Option (Graph × Var) :=
  (push g .binary [a.index, b.index] [b.value, a.value]).map fun (g', i) => (g', ⟨i, a.value.mul b.value⟩)

/-- `Variable + f64` (overload.rs 101-109); `f64 + Variable` (131-133) calls it. -/
def addVF (g : Graph) (a : Var) (c : X64) : Option (Graph × Var) :=
  (push g .binary [a.index, a.index] [ofQ 1, zero]).map fun (g', i) => (g', ⟨i, a.value.add c⟩)

/-- `Variable * f64` (overload.rs 1316-1324); `f64 * Variable` (1346-1348) calls it. -/
def mulVF (g : Graph) (a : Var) (c : X64) : Option (Graph × Var) :=
  (push g .binary [a.index, a.index] [c, zero]).map fun (g', i) => (g', ⟨i, a.value.mul c⟩)

/-- `-Variable` (overload.rs 259-261): `self * -1.0`. -/
def negV (g : Graph) (a : Var) : Option (Graph × Var) := mulVF g a (ofQ (-1))

/-- `Variable - Variable` (overload.rs 1609-1613): `self.add(other.neg())`. -/
def subVV (g : Graph) (a b : Var) : Option (Graph × Var) := (negV g b).bind fun (g', nb) => addVV g' a nb

/-- `f64 / Variable` (overload.rs 238-248). -/
def divFV (g : Graph) (c : X64) (a : Var) : Option (Graph × Var) :=
  (push g .binary [a.index, a.index] [zero, c.neg.div (a.value.mul a.value)]).map fun (g', i) => (g', ⟨i, c.div a.value⟩)

/-- `Variable / f64` (overload.rs 214-216): `self * other.recip()`. -/
def divVF (g : Graph) (a : Var) (c : X64) : Option (Graph × Var) := mulVF g a (recip c)

/-- `recip` (overload.rs 792-802). `powi(2)` is taken to be `x * x`. -/
def recipV (g : Graph) (a : Var) : Option (Graph × Var) :=
  (push g .unary [a.index] [(recip (a.value.mul a.value)).neg]).map fun (g', i) => (g', ⟨i, recip a.value⟩)

/-- `Variable / Variable` (overload.rs 187-191): `self * other.recip()`. -/
def divVV (g : Graph) (a b : Var) : Option (Graph × Var) := (recipV g b).bind fun (g', rb) => mulVV g' a rb

/-- `exp` (overload.rs 583-591). -/
def expV (l : Lib) (g : Graph) (a : Var) : Option (Graph × Var) :=
  (push g .unary [a.index] [l.exp a.value]).map fun (g', i) => (g', ⟨i, l.exp a.value⟩)

/-- `ln` (overload.rs 669-677). -/
def lnV (l : Lib) (g : Graph) (a : Var) : Option (Graph × Var) :=
  (push g .unary [a.index] [recip a.value]).map fun (g', i) => (g', ⟨i, l.ln a.value⟩)

/-- `sqrt` (overload.rs 877-887). -/
def sqrtV (l : Lib) (g : Graph) (a : Var) : Option (Graph × Var) :=
  (push g .unary [a.index] [recip ((ofQ 2).mul (l.sqrt a.value))]).map fun (g', i) => (g', ⟨i, l.sqrt a.value⟩)

/-- `adjoints[i] += p * deriv` (crates/RustQuant_autodiff/src/accumulate.rs 46-47). -/
def addAt (adj : List X64) (i : ℕ) (p deriv : X64) : Option (List X64) :=
  adj[i]?.map fun old => adj.set i (old.add (p.mul deriv))

/-- The reversed loop of `accumulate` (accumulate.rs 43-48) over the vertices at positions `k-1, …, 0`. -/
def sweep (g : Graph) : ℕ → List X64 → Option (List X64)
  | 0, adj => some adj
  | k + 1, adj => do
    let vertex ← g[k]?
    let deriv ← adj[k]?
    let adj ← addAt adj vertex.parent0 vertex.partial0 deriv
    let adj ← addAt adj vertex.parent1 vertex.partial1 deriv
    sweep g k adj

/-- `accumulate` (accumulate.rs 34-51). -/
def accumulate (g : Graph) (out : Var) : Option (List X64) :=
  if out.index < g.length then sweep g g.length ((List.replicate g.length zero).set out.index (ofQ 1)) else none

/-- `wrt(&Variable)` (crates/RustQuant_autodiff/src/gradient.rs 37-39). -/
def wrt (adj : List X64) (v : Var) : Option X64 := adj[v.index]?

end Verif.Float.Tape
