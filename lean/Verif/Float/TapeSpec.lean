import Verif.Float.Tape

/-!
# Graphs a client can build, inputs and dependence

The vocabulary of C108.
-/

namespace Verif.Float.Tape

open X64
open Verif.Autodiff (Arity)

/-- A graph built by the public operations: every one of them pushes vertices whose parents are variables of the graph. -/
inductive Built : Graph → Prop
  | empty : Built []
  | push {g g' : Graph} {arity : Arity} {parents : List ℕ} {partials : List X64} {k : ℕ} :
      Built g → (∀ i ∈ parents, i < g.length) → push g arity parents partials = some (g', k) → Built g'

/-- `p` is the partial derivative that vertex `k` records with respect to an earlier vertex `i`. -/
def Records (g : Graph) (k i : ℕ) (p : X64) : Prop :=
  ∃ v, g[k]? = some v ∧ i < k ∧ ((v.parent0 = i ∧ v.partial0 = p) ∨ (v.parent1 = i ∧ v.partial1 = p))

/-- Vertex `j` is an input: it records no earlier vertex. -/
def IsInput (g : Graph) (j : ℕ) : Prop := j < g.length ∧ ∀ i p, ¬ Records g j i p

/-- Vertex `k` was computed from vertex `j` (or is `j`). -/
inductive Feeds (g : Graph) (j : ℕ) : ℕ → Prop
  | refl : Feeds g j j
  | step {i k : ℕ} {p : X64} : Feeds g j i → Records g k i p → Feeds g j k

/-- A finite number. -/
def Finite : X64 → Prop
  | .fin _ => True
  | _ => False

end Verif.Float.Tape
