import Verif.Autodiff.Model

/-!
# Model of `graphviz` (crates/RustQuant_autodiff/src/graphviz.rs)

The text is modelled as a list of statements of the dot language and their rendering. The two number formats (`{:.2}`
of an input's value and `{:.2?}` of a partial derivative) are parameters.
-/

namespace Verif.Autodiff

/-- An arrow of the drawing: from a parent to a vertex, labelled with the slot and the partial derivative.
Lines 68-71 of graphviz.rs. -/
structure Edge where
  src : ℕ
  dst : ℕ
  slot : ℕ
  label : ℝ

/-- One statement of the drawing. Lines 53-58, 68-71 and 76 of graphviz.rs. -/
inductive DotLine
  | input (index : ℕ) (value : ℝ)
  | op (index : ℕ)
  | edge (e : Edge)

/-- The node of one vertex (graphviz.rs 50-59): a vertex whose position is that of one of `vars` is an input and shows
the value of the first such variable (line 51), any other is an operation. The `HashSet` of line 46 only tells whether
such a variable exists. -/
def dotNode (vars : List Var) (i : ℕ) : DotLine :=
  match vars.find? fun v => v.index == i with
  | some v => .input i v.value
  | none => .op i

/-- The loop defining the nodes (graphviz.rs 49-60). -/
def dotNodes (g : Graph) (vars : List Var) : List DotLine := (List.range g.length).map (dotNode vars)

/-- The arrows of one vertex (graphviz.rs 64-73): one per slot, left out when the parent is the vertex itself. -/
def vertexEdges (index : ℕ) (v : Vertex) : List Edge :=
  (if v.parent0 ≠ index then [⟨v.parent0, index, 0, v.partial0⟩] else []) ++
    (if v.parent1 ≠ index then [⟨v.parent1, index, 1, v.partial1⟩] else [])

/-- The loop defining the edges (graphviz.rs 63-74). -/
def dotEdges (g : Graph) : List Edge := g.zipIdx.flatMap fun p => vertexEdges p.2 p.1

/-- The statements of the drawing, in order. Lines 48-76 of graphviz.rs. -/
def dotLines (g : Graph) (vars : List Var) : List DotLine := dotNodes g vars ++ (dotEdges g).map .edge

/-- The text of one statement (graphviz.rs 53-56, 58, 68-71). -/
def DotLine.text (fmtValue fmtLabel : ℝ → String) : DotLine → String
  | .input i x => s!"\t{i} [label=\"Input: x_{i}, Value: {fmtValue x}\", color=\"red\"];\n"
  | .op i => s!"\t{i} [label=\"Op: #{i}\"];\n"
  | .edge e => s!"\t{e.src} -> {e.dst} [label=\"∂_{e.slot}: {fmtLabel e.label}\"];\n"

/-- `graphviz` (graphviz.rs 38-79). -/
def graphviz (fmtValue fmtLabel : ℝ → String) (g : Graph) (vars : List Var) : String :=
  (dotLines g vars).foldl (fun dot l => dot ++ l.text fmtValue fmtLabel)
    "digraph Graph {\n\tbgcolor=\"transparent\";\n\trankdir=\"LR\";\n\tnode [shape=box3d];\n" ++ "}\n"

end Verif.Autodiff
