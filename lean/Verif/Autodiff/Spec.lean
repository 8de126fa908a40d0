import Verif.Autodiff.Model

/-!
# Specification for the automatic differentiation properties

What a program *means*, with no tape: every statement denotes a real number computed from the numbers denoted by earlier
statements with the ordinary mathematical functions; and where each operator is differentiable (and correctly
implemented).
-/

namespace Verif.Autodiff

/-- The mathematical function a unary method is named after. -/
noncomputable def UnOp.math : UnOp → ℝ → ℝ
  | .abs => fun x => |x|
  | .acos => Real.arccos
  | .acosh => Real.arcosh
  | .asin => Real.arcsin
  | .asinh => Real.arsinh
  | .atan => Real.arctan
  | .atanh => Real.artanh
  | .cbrt => Autodiff.cbrt
  | .cos => Real.cos
  | .cosh => Real.cosh
  | .exp => Real.exp
  | .exp2 => fun x => (2 : ℝ) ^ x
  | .expM1 => fun x => Real.exp x - 1
  | .ln => Real.log
  | .ln1p => fun x => Real.log (1 + x)
  | .log10 => Real.logb 10
  | .log2 => Real.logb 2
  | .recip => fun x => x⁻¹
  | .sin => Real.sin
  | .sinh => Real.sinh
  | .sqrt => fun x => √x
  | .tan => Real.tan
  | .tanh => Real.tanh
  | .erf => fun x => 2 / √Real.pi * ∫ t in (0 : ℝ)..x, Real.exp (-t ^ 2)
  | .erfc => fun x => 1 - 2 / √Real.pi * ∫ t in (0 : ℝ)..x, Real.exp (-t ^ 2)

/-- The mathematical function of two arguments. -/
noncomputable def VVOp.math : VVOp → ℝ → ℝ → ℝ
  | .add, x, y => x + y
  | .mul, x, y => x * y
  | .log, x, b => Real.logb b x
  | .min, x, y => Min.min x y
  | .max, x, y => Max.max x y
  | .powf, x, y => x ^ y
  | .powi, x, y => x ^ y

/-- The mathematical function of a variable and a constant. -/
noncomputable def VFOp.math : VFOp → ℝ → ℝ → ℝ
  | .add, x, c => x + c
  | .mul, x, c => x * c
  | .log, x, b => Real.logb b x
  | .min, x, c => Min.min x c
  | .max, x, c => Max.max x c
  | .powf, x, c => x ^ c

/-- The mathematical function of a constant and a variable. -/
noncomputable def FVOp.math : FVOp → ℝ → ℝ → ℝ
  | .sub, c, x => c - x
  | .div, c, x => c / x
  | .log, c, b => Real.logb b c
  | .min, c, x => Min.min c x
  | .max, c, x => Max.max c x
  | .powf, c, x => c ^ x
  | .powi, c, x => c ^ x

/-- The number a statement denotes, given the numbers `v` denoted by the earlier statements; `x` is the value of an
input created by it. -/
noncomputable def Instr.denote (x : ℝ) (v : ℕ → ℝ) : Instr → ℝ
  | .leaf => x
  | .un op i => op.math (v i)
  | .neg i => -(v i)
  | .vv op i j => op.math (v i) (v j)
  | .sub i j => v i - v j
  | .div i j => v i / v j
  | .vf op i c => op.math (v i) c
  | .subF i c => v i - c
  | .divF i c => v i / c
  | .powi i n => v i ^ n
  | .fv op c i => op.math c (v i)
  | .fAdd c i => c + v i
  | .fMul c i => c * v i
  | .sum l => (l.map v).sum
  | .prod l => (l.map v).prod

/-- The numbers denoted by all statements of a program, as a function of the inputs. -/
noncomputable def denoteFrom (x : ℕ → ℝ) (vals : List ℝ) : List Instr → List ℝ
  | [] => vals
  | ins :: rest => denoteFrom x (vals ++ [ins.denote (x vals.length) (fun i => vals.getD i 0)]) rest

/-- The number denoted by statement `k` of a program. -/
noncomputable def denote (prog : List Instr) (x : ℕ → ℝ) (k : ℕ) : ℝ := (denoteFrom x [] prog).getD k 0

/-- Where the unary methods are differentiable *and* the library implements the derivative. `log10` and `log2` are
excluded altogether: see C29. -/
def UnOp.Dom : UnOp → ℝ → Prop
  | .abs, x => x ≠ 0
  | .acos, x => -1 < x ∧ x < 1
  | .acosh, x => 1 < x
  | .asin, x => -1 < x ∧ x < 1
  | .atanh, x => -1 < x ∧ x < 1
  | .cbrt, x => 0 < x
  | .ln, x => 0 < x
  | .ln1p, x => -1 < x
  | .log10, _ => False
  | .log2, _ => False
  | .recip, x => x ≠ 0
  | .sqrt, x => 0 < x
  | .tan, x => Real.cos x ≠ 0
  | _, _ => True

/-- `Variable.log(Variable)` is excluded: see C29. -/
def VVOp.Dom : VVOp → ℝ → ℝ → Prop
  | .log, _, _ => False
  | .min, x, y => x ≠ y
  | .max, x, y => x ≠ y
  | .powf, x, _ => 0 < x
  | .powi, x, _ => 0 < x
  | _, _, _ => True

def VFOp.Dom : VFOp → ℝ → ℝ → Prop
  | .log, x, b => 0 < x ∧ 0 < b ∧ b ≠ 1
  | .min, x, c => x ≠ c
  | .max, x, c => x ≠ c
  | .powf, x, _ => 0 < x
  | _, _, _ => True

/-- `f64.min(Variable)`, `f64.max(Variable)`, `f64.powf(Variable)`, `f64.powi(Variable)` are excluded: see C29. -/
def FVOp.Dom : FVOp → ℝ → ℝ → Prop
  | .div, _, x => x ≠ 0
  | .log, c, b => 0 < c ∧ 0 < b ∧ b ≠ 1
  | .min, _, _ => False
  | .max, _, _ => False
  | .powf, _, _ => False
  | .powi, _, _ => False
  | _, _, _ => True

/-- The operands of a statement are in the operator's domain of differentiability. -/
def Instr.Dom (v : ℕ → ℝ) : Instr → Prop
  | .un op i => op.Dom (v i)
  | .vv op i j => op.Dom (v i) (v j)
  | .div _ j => v j ≠ 0
  | .vf op i c => op.Dom (v i) c
  | .divF _ c => c ≠ 0
  | .powi i n => v i ≠ 0 ∨ 1 ≤ n
  | .fv op c i => op.Dom c (v i)
  | _ => True

/-- Every statement of the program is in its domain at the point `x`. -/
def Differentiable (prog : List Instr) (x : ℕ → ℝ) : Prop :=
  ∀ (k : ℕ) (ins : Instr), prog[k]? = some ins → ins.Dom (denote prog x)

/-- The earlier statements a statement refers to. -/
def Instr.refs : Instr → List ℕ
  | .leaf => []
  | .un _ i => [i]
  | .neg i => [i]
  | .vv _ i j => [i, j]
  | .sub i j => [i, j]
  | .div i j => [i, j]
  | .vf _ i _ => [i]
  | .subF i _ => [i]
  | .divF i _ => [i]
  | .powi i _ => [i]
  | .fv _ _ i => [i]
  | .fAdd _ i => [i]
  | .fMul _ i => [i]
  | .sum l => l
  | .prod l => l

/-- A client program that Rust accepts and that does not sum or multiply an empty list: each statement refers to
earlier ones only. -/
def Scoped (prog : List Instr) : Prop :=
  ∀ (k : ℕ) (ins : Instr), prog[k]? = some ins → (∀ i ∈ ins.refs, i < k) ∧ ins ≠ .sum [] ∧ ins ≠ .prod []

/-- Number of vertices a statement adds to the tape: one, except that `-` and `/` between two variables are built from
two operators and `n`-ary sums and products from `n - 1`. -/
def Instr.vertices : Instr → ℕ
  | .sub _ _ => 2
  | .div _ _ => 2
  | .sum l => l.length - 1
  | .prod l => l.length - 1
  | _ => 1

/-- `DependsOn g i j`: vertex `j` depends on vertex `i`: there is a path of parent links from `j` back to `i`. -/
inductive DependsOn (g : Graph) (i : ℕ) : ℕ → Prop
  | refl : DependsOn g i i
  | parent0 {j : ℕ} {v : Vertex} (h : g[j]? = some v) (h' : DependsOn g i v.parent0) : DependsOn g i j
  | parent1 {j : ℕ} {v : Vertex} (h : g[j]? = some v) (h' : DependsOn g i v.parent1) : DependsOn g i j

end Verif.Autodiff
