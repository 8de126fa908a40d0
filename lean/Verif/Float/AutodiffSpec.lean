import Verif.Float.Autodiff

/-!
# Specification for C94

Tapes, the chain rule on a tape, and the meaning of a program of arithmetic operators.
-/

namespace Verif.Float.AD

/-- Each slot of a vertex at position `i` refers to an earlier vertex, or to the vertex itself with partial 0. -/
def Vertex.Earlier (v : Vertex) (i : ℕ) : Prop :=
  (v.parent0 < i ∨ (v.parent0 = i ∧ v.partial0.val = 0)) ∧ (v.parent1 < i ∨ (v.parent1 = i ∧ v.partial1.val = 0))

/-- A tape in which every operand was recorded before the vertex that uses it. -/
def Tape (g : Graph) : Prop := ∀ (i : ℕ) (v : Vertex), g[i]? = some v → v.Earlier i

/-- The chain rule: `d k` is the derivative of vertex `k` with respect to vertex `i`, when the derivative of a vertex
with respect to its operands is `part` of the recorded partial derivative. A vertex that refers to itself has no
operand there. -/
def ChainRule (part : ℚ → ℚ) (g : Graph) (i : ℕ) (d : ℕ → ℚ) : Prop :=
  ∀ (k : ℕ) (v : Vertex), g[k]? = some v → d k = if k = i then 1 else
    part v.partial0.val * (if v.parent0 < k then d v.parent0 else 0) +
      part v.partial1.val * (if v.parent1 < k then d v.parent1 else 0)

/-- A product that is zero or at least the smallest normal number `2 ^ -1022` in size. -/
def NoUnderflow (x : ℚ) : Prop := x = 0 ∨ 2 ^ (-1022 : ℤ) ≤ |x|

/-- A whole number. -/
def IsInt (q : ℚ) : Prop := ∃ n : ℤ, q = n

/-- The same statement of the exact model (crates/RustQuant_autodiff/src/overload.rs). -/
noncomputable def Arith.toInstr : Arith → Autodiff.Instr
  | .leaf => .leaf
  | .neg i => .neg i
  | .add i j => .vv .add i j
  | .sub i j => .sub i j
  | .mul i j => .vv .mul i j
  | .addF i c => .vf .add i (c.val : ℝ)
  | .subF i c => .subF i (c.val : ℝ)
  | .mulF i c => .vf .mul i (c.val : ℝ)

/-- The constant of a statement, if any. -/
def Arith.const : Arith → Option F64
  | .addF _ c => some c
  | .subF _ c => some c
  | .mulF _ c => some c
  | _ => none

end Verif.Float.AD
