import Mathlib.Analysis.SpecialFunctions.Pow.Real
import Mathlib.Analysis.SpecialFunctions.Arsinh
import Mathlib.Analysis.SpecialFunctions.Arcosh
import Mathlib.Analysis.SpecialFunctions.Artanh
import Mathlib.Analysis.SpecialFunctions.Trigonometric.Inverse
import Mathlib.Analysis.SpecialFunctions.Trigonometric.Arctan
import Mathlib.Analysis.SpecialFunctions.Log.Base
import Mathlib.MeasureTheory.Integral.IntervalIntegral.Basic

/-!
# Model of `RustQuant_autodiff`

The tape (`Graph`), the variables, every operator of `overload.rs`, `accumulate` and `wrt`.

Simplifications, valid for the whole file:
* `f64` is `ℝ`: rounding, infinities and NaN are not modelled. Where the code would produce a NaN (for example `ln` of a
  negative number) Mathlib's total functions return some real; all theorems about derivatives carry the domain
  conditions under which the code does not do that.
* The graph is one shared mutable `RefCell<Vec<Vertex>>`; here it is threaded explicitly. The assertions that both
  operands live on the same graph hold because a model program has one graph.
* `none` is a panic.
-/

namespace Verif.Autodiff

/-- `Vertex` (crates/RustQuant_autodiff/src/vertex.rs 19-25): two local partial derivatives and two parent positions. -/
structure Vertex where
  partial0 : ℝ
  partial1 : ℝ
  parent0 : ℕ
  parent1 : ℕ

/-- `Graph` (crates/RustQuant_autodiff/src/graph.rs 29-40): the vector of vertices. -/
abbrev Graph := List Vertex

/-- `Variable` (crates/RustQuant_autodiff/src/variable.rs 30-37): position and value; the graph reference is threaded. -/
structure Var where
  index : ℕ
  value : ℝ

/-- `Arity` (crates/RustQuant_autodiff/src/vertex.rs). -/
inductive Arity | nullary | unary | binary

/-- `Graph::push` (crates/RustQuant_autodiff/src/graph.rs 125-186), with its three assertions (`none` when one fails or
when a slice is too short). Returns the new graph and the position of the new vertex. -/
def push (g : Graph) (arity : Arity) (parents : List ℕ) (partials : List ℝ) : Option (Graph × ℕ) :=
  let len := g.length
  match arity, parents, partials with
  | .nullary, [], _ => some (g ++ [⟨0, 0, len, len⟩], len)
  | .unary, [i], p :: _ => some (g ++ [⟨p, 0, i, len⟩], len)
  | .binary, [i, j], p :: q :: _ => some (g ++ [⟨p, q, i, j⟩], len)
  | _, _, _ => none

/-- `Graph::var` (crates/RustQuant_autodiff/src/graph.rs 77-83). -/
noncomputable def var (g : Graph) (value : ℝ) : Option (Graph × Var) := do
  let (g', i) ← push g .nullary [] []
  some (g', ⟨i, value⟩)

/-- `Graph::join` (crates/RustQuant_autodiff/src/graph.rs 67-72): the vertices of `other` are appended as they are. -/
def join (a b : Graph) : Graph := a ++ b

/-- `Graph::zero` (crates/RustQuant_autodiff/src/graph.rs 112-117). -/
noncomputable def zero (g : Graph) : Graph := g.map fun v => { v with partial0 := 0, partial1 := 0 }

/-! ## Operators with one variable operand and one pushed `Arity::Unary` vertex -/

/-- The cube root `f64::cbrt`. Called at overload.rs 500. -/
noncomputable def cbrt (x : ℝ) : ℝ := if 0 ≤ x then x ^ (1 / 3 : ℝ) else -((-x) ^ (1 / 3 : ℝ))

/-- The error function, as computed by the `errorfunctions` dependency (taken as exact). Called at overload.rs 1516. -/
noncomputable def erf (x : ℝ) : ℝ := 2 / √Real.pi * ∫ t in (0 : ℝ)..x, Real.exp (-t ^ 2)

/-- The unary methods of `Variable` in crates/RustQuant_autodiff/src/overload.rs 267-944 and 1490-1556. -/
inductive UnOp
  | abs | acos | acosh | asin | asinh | atan | atanh | cbrt | cos | cosh | exp | exp2 | expM1 | ln | ln1p | log10 | log2
  | recip | sin | sinh | sqrt | tan | tanh | erf | erfc

/-- The `value:` field written by each unary method (overload.rs: abs 291, acos 317, acosh 345, asin 375, asinh 408,
atan 437, atanh 467, cbrt 497, cos 527, cosh 556, exp 583, exp2 611, exp_m1 641, ln 669, ln_1p 697, log10 725,
log2 753, recip 792, sin 822, sinh 850, sqrt 877, tan 907, tanh 937, erf 1511, erfc 1543). -/
noncomputable def UnOp.value : UnOp → ℝ → ℝ
  | .abs, x => |x|
  | .acos, x => Real.arccos x
  | .acosh, x => Real.arcosh x
  | .asin, x => Real.arcsin x
  | .asinh, x => Real.arsinh x
  | .atan, x => Real.arctan x
  | .atanh, x => Real.artanh x
  | .cbrt, x => Autodiff.cbrt x
  | .cos, x => Real.cos x
  | .cosh, x => Real.cosh x
  | .exp, x => Real.exp x
  | .exp2, x => (2 : ℝ) ^ x
  | .expM1, x => Real.exp x - 1
  | .ln, x => Real.log x
  | .ln1p, x => Real.log (1 + x)
  | .log10, x => Real.log x / Real.log 10
  | .log2, x => Real.log x / Real.log 2
  | .recip, x => 1 / x
  | .sin, x => Real.sin x
  | .sinh, x => Real.sinh x
  | .sqrt, x => √x
  | .tan, x => Real.tan x
  | .tanh, x => Real.tanh x
  | .erf, x => Autodiff.erf x
  | .erfc, x => 1 - Autodiff.erf x

/-- `f64::signum`: `1.0` at `+0.0`. Called at overload.rs 297. -/
noncomputable def signum (x : ℝ) : ℝ := if x < 0 then -1 else 1

/-- The partial derivative recorded by each unary method (same lines as `UnOp.value`). In `asin` the code records a NaN
outside `(-1, 1)`; the model puts `0` there. See overload.rs 267-944, 1490-1556. -/
noncomputable def UnOp.partial : UnOp → ℝ → ℝ
  | .abs, x => signum x
  | .acos, x => -(√(1 - x ^ 2))⁻¹
  | .acosh, x => (√(x - 1) * √(x + 1))⁻¹
  | .asin, x => if x > -1 ∧ x < 1 then (√(1 - x ^ 2))⁻¹ else 0
  | .asinh, x => (√(1 + x ^ 2))⁻¹
  | .atan, x => (1 + x ^ 2)⁻¹
  | .atanh, x => (1 - x ^ 2)⁻¹
  | .cbrt, x => (3 * x ^ (2 / 3 : ℝ))⁻¹
  | .cos, x => -Real.sin x
  | .cosh, x => Real.sinh x
  | .exp, x => Real.exp x
  | .exp2, x => (2 : ℝ) ^ x * Real.log 2
  | .expM1, x => Real.exp x
  | .ln, x => x⁻¹
  | .ln1p, x => (1 + x)⁻¹
  | .log10, x => x⁻¹
  | .log2, x => x⁻¹
  | .recip, x => -(x ^ 2)⁻¹
  | .sin, x => Real.cos x
  | .sinh, x => Real.cosh x
  | .sqrt, x => (2 * √x)⁻¹
  | .tan, x => (Real.cos x ^ 2)⁻¹
  | .tanh, x => (Real.cosh x ^ 2)⁻¹
  | .erf, x => 2 * Real.exp (-x ^ 2) / √Real.pi
  | .erfc, x => -(2 * Real.exp (-x ^ 2)) / √Real.pi

/-- A unary method of `Variable` (overload.rs 267-944, 1490-1556; all have this shape). -/
noncomputable def unary (op : UnOp) (g : Graph) (a : Var) : Option (Graph × Var) := do
  let (g', i) ← push g .unary [a.index] [op.partial a.value]
  some (g', ⟨i, op.value a.value⟩)

/-! ## Operators on two variables pushing one `Arity::Binary` vertex -/

/-- Operators on two variables with a single pushed vertex.
The methods at overload.rs 69-79, 1026-1039, 1105-1120, 1177-1192, 1282-1294, 1368-1383 and 1436-1451. -/
inductive VVOp | add | mul | log | min | max | powf | powi

/-- Values (overload.rs: add 75, mul 1288, log 1029, min 1111, max 1183, powf 1376, powi 1444). -/
noncomputable def VVOp.value : VVOp → ℝ → ℝ → ℝ
  | .add, x, y => x + y
  | .mul, x, y => x * y
  | .log, x, b => Real.log x / Real.log b
  | .min, x, y => Min.min x y
  | .max, x, y => Max.max x y
  | .powf, x, y => x ^ y
  | .powi, x, y => x ^ y

/-- Recorded partials (overload.rs: add 69-79, mul 1282-1294, log 1026-1039, min 1105-1120, max 1177-1192,
powf 1368-1383, powi 1436-1451). -/
noncomputable def VVOp.partials : VVOp → ℝ → ℝ → ℝ × ℝ
  | .add, _, _ => (1, 1)
  | .mul, x, y => (y, x)
  | .log, x, b => (-Real.log x / (b * Real.log b ^ 2), 1 / (x * Real.log b))
  | .min, x, y => (if x < y then 1 else 0, if x > y then 1 else 0)
  | .max, x, y => (if x > y then 1 else 0, if x < y then 1 else 0)
  | .powf, x, y => (y * x ^ (y - 1), x ^ y * Real.log x)
  | .powi, x, y => (y * x ^ (y - 1), x ^ y * Real.log x)

/-- A method of two variables (overload.rs, lines as in `VVOp.partials`). -/
noncomputable def binVV (op : VVOp) (g : Graph) (a b : Var) : Option (Graph × Var) := do
  let (g', i) ← push g .binary [a.index, b.index]
    [(op.partials a.value b.value).1, (op.partials a.value b.value).2]
  some (g', ⟨i, op.value a.value b.value⟩)

/-! ## Operators on a variable and a constant -/

/-- Operators with a variable on the left and an `f64` (or `i32`) on the right, with a single pushed vertex.
The methods at overload.rs 101-109, 1074-1084, 1128-1138, 1200-1210, 1316-1324 and 1391-1401. -/
inductive VFOp | add | mul | log | min | max | powf

/-- Values (overload.rs: add 101-109, mul 1316-1324, log 1074-1084, min 1128-1138, max 1200-1210, powf 1391-1401). -/
noncomputable def VFOp.value : VFOp → ℝ → ℝ → ℝ
  | .add, x, c => x + c
  | .mul, x, c => x * c
  | .log, x, b => Real.log x / Real.log b
  | .min, x, c => Min.min x c
  | .max, x, c => Max.max x c
  | .powf, x, n => x ^ n

/-- Recorded partials (same lines); both parents are the variable itself. See overload.rs, lines as in `VFOp.value`. -/
noncomputable def VFOp.partials : VFOp → ℝ → ℝ → ℝ × ℝ
  | .add, _, _ => (1, 0)
  | .mul, _, c => (c, 0)
  | .log, x, b => (0, 1 / (Real.log b * x))
  | .min, x, c => (if x < c then 1 else 0, 0)
  | .max, x, c => (if x > c then 1 else 0, 0)
  | .powf, x, n => (n * x ^ (n - 1), 0)

/-- A method of a variable and a constant (overload.rs, lines as in `VFOp.value`). -/
noncomputable def binVF (op : VFOp) (g : Graph) (a : Var) (c : ℝ) : Option (Graph × Var) := do
  let (g', i) ← push g .binary [a.index, a.index] [(op.partials a.value c).1, (op.partials a.value c).2]
  some (g', ⟨i, op.value a.value c⟩)

/-- `Variable.powi(i32)` (overload.rs 1459-1469). The overflow of `n - 1` at `i32::MIN` is not modelled. -/
noncomputable def powiVI (g : Graph) (a : Var) (n : ℤ) : Option (Graph × Var) := do
  let (g', i) ← push g .binary [a.index, a.index] [(n : ℝ) * a.value ^ (n - 1), 0]
  some (g', ⟨i, a.value ^ n⟩)

/-- Operators with an `f64` on the left and a variable on the right, with a single pushed vertex.
The methods at overload.rs 238-248, 1050-1063, 1146-1156, 1218-1228, 1409-1419, 1477-1487 and 1659-1667. -/
inductive FVOp | sub | div | log | min | max | powf | powi

/-- Values (overload.rs: sub 1659-1667, div 238-248, log 1050-1063, min 1146-1156, max 1218-1228, powf 1409-1419,
powi 1477-1487). -/
noncomputable def FVOp.value : FVOp → ℝ → ℝ → ℝ
  | .sub, c, x => c - x
  | .div, c, x => c / x
  | .log, c, b => Real.log c / Real.log b
  | .min, c, x => Min.min c x
  | .max, c, x => Max.max c x
  | .powf, c, x => c ^ x
  | .powi, c, x => c ^ x

/-- Recorded partials (same lines); both parents are the variable itself. See overload.rs, lines as in `FVOp.value`. -/
noncomputable def FVOp.partials : FVOp → ℝ → ℝ → ℝ × ℝ
  | .sub, _, _ => (0, -1)
  | .div, c, x => (0, -c / (x * x))
  | .log, c, b => (-Real.log c / (b * Real.log b ^ 2), 0)
  | .min, c, x => (0, if c < x then 1 else 0)
  | .max, c, x => (0, if c > x then 1 else 0)
  | .powf, c, x => (0, x * c ^ (x - 1))
  | .powi, c, x => (0, x * c ^ (x - 1))

/-- A method of a constant and a variable (overload.rs, lines as in `FVOp.value`). -/
noncomputable def binFV (op : FVOp) (g : Graph) (c : ℝ) (a : Var) : Option (Graph × Var) := do
  let (g', i) ← push g .binary [a.index, a.index] [(op.partials c a.value).1, (op.partials c a.value).2]
  some (g', ⟨i, op.value c a.value⟩)

/-! ## Operators defined through other operators -/

/-- `-Variable` (overload.rs 255-262): `self * -1.0`. -/
noncomputable def neg (g : Graph) (a : Var) : Option (Graph × Var) := binVF .mul g a (-1)

/-- `Variable - Variable` (overload.rs 1605-1613): `self.add(other.neg())`. -/
noncomputable def subVV (g : Graph) (a b : Var) : Option (Graph × Var) := do
  let (g', nb) ← neg g b
  binVV .add g' a nb

/-- `Variable / Variable` (overload.rs 183-191): `self * other.recip()`. -/
noncomputable def divVV (g : Graph) (a b : Var) : Option (Graph × Var) := do
  let (g', rb) ← unary .recip g b
  binVV .mul g' a rb

/-- `Variable - f64` (overload.rs 1631-1637): `self.add(other.neg())`. -/
noncomputable def subVF (g : Graph) (a : Var) (c : ℝ) : Option (Graph × Var) := binVF .add g a (-c)

/-- `Variable / f64` (overload.rs 210-216): `self * other.recip()`. -/
noncomputable def divVF (g : Graph) (a : Var) (c : ℝ) : Option (Graph × Var) := binVF .mul g a (1 / c)

/-- `f64 + Variable` (overload.rs 127-133): `other + self`. -/
noncomputable def addFV (g : Graph) (c : ℝ) (a : Var) : Option (Graph × Var) := binVF .add g a c

/-- `f64 * Variable` (overload.rs 1342-1348): `other * self`. -/
noncomputable def mulFV (g : Graph) (c : ℝ) (a : Var) : Option (Graph × Var) := binVF .mul g a c

/-- `iter.reduce(op)` over an iterator whose closure pushes on the graph. Called at overload.rs 972 and 1000. -/
noncomputable def reduceFrom (op : Graph → Var → Var → Option (Graph × Var)) (g : Graph) (acc : Var) :
    List Var → Option (Graph × Var)
  | [] => some (g, acc)
  | b :: bs => do
    let (g', acc') ← op g acc b
    reduceFrom op g' acc' bs

/-- `Sum` (overload.rs 971-974): reduce with `+`, panic when empty. -/
noncomputable def sumV (g : Graph) : List Var → Option (Graph × Var)
  | [] => none
  | a :: as => reduceFrom (binVV .add) g a as

/-- `Product` (overload.rs 999-1002): reduce with `*`, panic when empty. -/
noncomputable def prodV (g : Graph) : List Var → Option (Graph × Var)
  | [] => none
  | a :: as => reduceFrom (binVV .mul) g a as

/-! ## Programs -/

/-- One statement of a client program: create an input, or apply one operator to results of earlier statements (referred
to by their position, so results may be shared arbitrarily). Compound assignments (`+=` etc., overload.rs 24-47,
142-165, 1237-1260, 1564-1587) are `x = x op y` and so are programs of these statements; those with an `f64` on the
left (42-47, 160-165, 1255-1260, 1582-1587) only read the value of the variable and leave the graph alone. -/
inductive Instr
  | leaf
  | un (op : UnOp) (i : ℕ)
  | neg (i : ℕ)
  | vv (op : VVOp) (i j : ℕ)
  | sub (i j : ℕ)
  | div (i j : ℕ)
  | vf (op : VFOp) (i : ℕ) (c : ℝ)
  | subF (i : ℕ) (c : ℝ)
  | divF (i : ℕ) (c : ℝ)
  | powi (i : ℕ) (n : ℤ)
  | fv (op : FVOp) (c : ℝ) (i : ℕ)
  | fAdd (c : ℝ) (i : ℕ)
  | fMul (c : ℝ) (i : ℕ)
  | sum (l : List ℕ)
  | prod (l : List ℕ)

/-- Execution of one statement; `x` is the value given to an input created here. `none`: an operand does not exist (not
expressible in Rust) or `Sum`/`Product` of nothing.
Each case is the method of overload.rs cited at the definition it calls. -/
noncomputable def Instr.exec (x : ℝ) (g : Graph) (env : List Var) : Instr → Option (Graph × Var)
  | .leaf => var g x
  | .un op i => do unary op g (← env[i]?)
  | .neg i => do Autodiff.neg g (← env[i]?)
  | .vv op i j => do binVV op g (← env[i]?) (← env[j]?)
  | .sub i j => do subVV g (← env[i]?) (← env[j]?)
  | .div i j => do divVV g (← env[i]?) (← env[j]?)
  | .vf op i c => do binVF op g (← env[i]?) c
  | .subF i c => do subVF g (← env[i]?) c
  | .divF i c => do divVF g (← env[i]?) c
  | .powi i n => do powiVI g (← env[i]?) n
  | .fv op c i => do binFV op g c (← env[i]?)
  | .fAdd c i => do addFV g c (← env[i]?)
  | .fMul c i => do mulFV g c (← env[i]?)
  | .sum l => do sumV g (← l.mapM (env[·]?))
  | .prod l => do prodV g (← l.mapM (env[·]?))

/-- Run the rest of a program; the input created by statement number `p` gets the value `x p`.
The client of graph.rs 77-83 (`var`) and overload.rs; not itself part of the code. -/
noncomputable def runFrom (x : ℕ → ℝ) (g : Graph) (env : List Var) : List Instr → Option (Graph × List Var)
  | [] => some (g, env)
  | ins :: rest => do
    let (g', v) ← ins.exec (x env.length) g env
    runFrom x g' (env ++ [v]) rest

/-- Run a program on a fresh `Graph::new()` (graph.rs 47). -/
noncomputable def run (prog : List Instr) (x : ℕ → ℝ) : Option (Graph × List Var) := runFrom x [] [] prog

/-! ## Reverse accumulation -/

/-- `adjoints[i] += x`: out of range panics. Lines 46-47 of crates/RustQuant_autodiff/src/accumulate.rs. -/
noncomputable def addAt (adj : List ℝ) (i : ℕ) (x : ℝ) : Option (List ℝ) :=
  if h : i < adj.length then some (adj.set i (adj[i] + x)) else none

/-- The reversed loop of `accumulate` (crates/RustQuant_autodiff/src/accumulate.rs 43-48) over the vertices at positions
`k-1, …, 0`. -/
noncomputable def sweep (g : Graph) : ℕ → List ℝ → Option (List ℝ)
  | 0, adj => some adj
  | k + 1, adj => do
    let vertex ← g[k]?
    let deriv ← adj[k]?
    let adj ← addAt adj vertex.parent0 (vertex.partial0 * deriv)
    let adj ← addAt adj vertex.parent1 (vertex.partial1 * deriv)
    sweep g k adj

/-- `accumulate` (crates/RustQuant_autodiff/src/accumulate.rs 34-51). -/
noncomputable def accumulate (g : Graph) (out : Var) : Option (List ℝ) :=
  if out.index < g.length then sweep g g.length ((List.replicate g.length 0).set out.index 1) else none

/-- `wrt(&Variable)` (crates/RustQuant_autodiff/src/gradient.rs 37-39): indexing, panics out of range. -/
def wrt (adj : List ℝ) (v : Var) : Option ℝ := adj[v.index]?

/-- `wrt` on vectors, slices and arrays (crates/RustQuant_autodiff/src/gradient.rs 43-72). -/
def wrtAll (adj : List ℝ) (vs : List Var) : Option (List ℝ) := vs.mapM fun v => adj[v.index]?

end Verif.Autodiff
