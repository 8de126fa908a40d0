import Verif.Float.Ops
import Verif.Autodiff.Model

/-!
# Automatic differentiation on `f64` values with their rounding

The arithmetic operators and the reverse accumulation of `Verif.Autodiff.Model`, with every `f64` operation rounded.
`none` is a panic or a result that is not finite. The sign of zero is not modelled.
-/

namespace Verif.Float

/-- The constant `1.0`. Written at crates/RustQuant_autodiff/src/accumulate.rs 39. -/
def F64.one : F64 := ⟨1, rep_one, by rw [abs_one]; exact one_lt_pow₀ (by norm_num) (by norm_num)⟩

/-- `-x` on `f64`. Used at crates/RustQuant_autodiff/src/overload.rs 255-262 and 1631-1637. -/
def F64.neg (x : F64) : F64 := ⟨-x.val, rep_neg x.rep, by rw [abs_neg]; exact x.fin⟩

end Verif.Float

namespace Verif.Float.AD

open Verif.Autodiff (Arity)

/-- `Vertex` (crates/RustQuant_autodiff/src/vertex.rs 19-25). -/
structure Vertex where
  partial0 : F64
  partial1 : F64
  parent0 : ℕ
  parent1 : ℕ

/-- `Graph` (crates/RustQuant_autodiff/src/graph.rs 29-40). -/
abbrev Graph := List Vertex

/-- `Variable` (crates/RustQuant_autodiff/src/variable.rs 30-37): position and value; the graph reference is threaded. -/
structure Var where
  index : ℕ
  value : F64

/-- `Graph::push` (crates/RustQuant_autodiff/src/graph.rs 125-186). -/
def push (g : Graph) (arity : Arity) (parents : List ℕ) (partials : List F64) : Option (Graph × ℕ) :=
  let len := g.length
  match arity, parents, partials with
  | .nullary, [], _ => some (g ++ [⟨F64.zero, F64.zero, len, len⟩], len)
  | .unary, [i], p :: _ => some (g ++ [⟨p, F64.zero, i, len⟩], len)
  | .binary, [i, j], p :: q :: _ => some (g ++ [⟨p, q, i, j⟩], len)
  | _, _, _ => none

/-- `Graph::var` (crates/RustQuant_autodiff/src/graph.rs 77-83). -/
def var (g : Graph) (value : F64) : Option (Graph × Var) := do
  let (g', i) ← push g .nullary [] []
  some (g', ⟨i, value⟩)

/-- `Variable + Variable` (crates/RustQuant_autodiff/src/overload.rs 69-79). -/
def addVV (g : Graph) (a b : Var) : Option (Graph × Var) := do
  let value ← a.value.add b.value
  let (g', i) ← push g .binary [a.index, b.index] [F64.one, F64.one]
  some (g', ⟨i, value⟩)

/-- `Variable * Variable` (overload.rs 1282-1294). -/
def mulVV (g : Graph) (a b : Var) : Option (Graph × Var) := do
  let value ← a.value.mul b.value
  let (g', i) ← push g .binary [a.index, b.index] [b.value, a.value]
  some (g', ⟨i, value⟩)

/-- `Variable + f64` (overload.rs 101-109); `f64 + Variable` (131-133) calls it. -/
def addVF (g : Graph) (a : Var) (c : F64) : Option (Graph × Var) := do
  let value ← a.value.add c
  let (g', i) ← push g .binary [a.index, a.index] [F64.one, F64.zero]
  some (g', ⟨i, value⟩)

/-- `Variable * f64` (overload.rs 1316-1324); `f64 * Variable` (1346-1348) calls it. -/
def mulVF (g : Graph) (a : Var) (c : F64) : Option (Graph × Var) := do
  let value ← a.value.mul c
  let (g', i) ← push g .binary [a.index, a.index] [c, F64.zero]
  some (g', ⟨i, value⟩)

/-- `-Variable` (overload.rs 259-261): `self * -1.0`. -/
def negV (g : Graph) (a : Var) : Option (Graph × Var) := mulVF g a F64.one.neg

/-- `Variable - Variable` (overload.rs 1609-1613): `self.add(other.neg())`. -/
def subVV (g : Graph) (a b : Var) : Option (Graph × Var) := do
  let (g', nb) ← negV g b
  addVV g' a nb

/-- `Variable - f64` (overload.rs 1635-1637): `self.add(other.neg())`. -/
def subVF (g : Graph) (a : Var) (c : F64) : Option (Graph × Var) := addVF g a c.neg

/-- One statement of a client program of arithmetic operators (as `Verif.Autodiff.Instr`, overload.rs). -/
inductive Arith
  | leaf
  | neg (i : ℕ)
  | add (i j : ℕ)
  | sub (i j : ℕ)
  | mul (i j : ℕ)
  | addF (i : ℕ) (c : F64)
  | subF (i : ℕ) (c : F64)
  | mulF (i : ℕ) (c : F64)

/-- Execution of one statement (as `Verif.Autodiff.Instr.exec`, overload.rs). -/
def Arith.exec (x : F64) (g : Graph) (env : List Var) : Arith → Option (Graph × Var)
  | .leaf => var g x
  | .neg i => do negV g (← env[i]?)
  | .add i j => do addVV g (← env[i]?) (← env[j]?)
  | .sub i j => do subVV g (← env[i]?) (← env[j]?)
  | .mul i j => do mulVV g (← env[i]?) (← env[j]?)
  | .addF i c => do addVF g (← env[i]?) c
  | .subF i c => do subVF g (← env[i]?) c
  | .mulF i c => do mulVF g (← env[i]?) c

/-- Run the rest of a program (as `Verif.Autodiff.runFrom`, overload.rs). -/
def runFrom (x : ℕ → F64) (g : Graph) (env : List Var) : List Arith → Option (Graph × List Var)
  | [] => some (g, env)
  | ins :: rest => do
    let (g', v) ← ins.exec (x env.length) g env
    runFrom x g' (env ++ [v]) rest

/-- Run a program on a fresh `Graph::new()` (graph.rs 47). -/
def run (prog : List Arith) (x : ℕ → F64) : Option (Graph × List Var) := runFrom x [] [] prog

/-- `adjoints[i] += p * deriv` (crates/RustQuant_autodiff/src/accumulate.rs 46-47): product and sum are rounded. -/
def addAt (adj : List F64) (i : ℕ) (p deriv : F64) : Option (List F64) := do
  let old ← adj[i]?
  let new ← old.add (← p.mul deriv)
  some (adj.set i new)

/-- The reversed loop of `accumulate` (accumulate.rs 43-48) over the vertices at positions `k-1, …, 0`. -/
def sweep (g : Graph) : ℕ → List F64 → Option (List F64)
  | 0, adj => some adj
  | k + 1, adj => do
    let vertex ← g[k]?
    let deriv ← adj[k]?
    let adj ← addAt adj vertex.parent0 vertex.partial0 deriv
    let adj ← addAt adj vertex.parent1 vertex.partial1 deriv
    sweep g k adj

/-- `accumulate` (accumulate.rs 34-51). -/
def accumulate (g : Graph) (out : Var) : Option (List F64) :=
  if out.index < g.length then sweep g g.length ((List.replicate g.length F64.zero).set out.index F64.one) else none

/-- `wrt(&Variable)` (crates/RustQuant_autodiff/src/gradient.rs 37-39). -/
def wrt (adj : List F64) (v : Var) : Option F64 := adj[v.index]?

end Verif.Float.AD
