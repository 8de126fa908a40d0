import Verif.Autodiff.Graphviz
import Verif.Autodiff.Props

/-!
# C80: the drawing of a computation graph
-/

namespace Verif.Autodiff

/-! ## Specification -/

/-- `Path E i j p`: following the arrows `p` of the drawing `E` one after the other leads from node `i` to node `j`. -/
inductive Path (E : List Edge) (i : ℕ) : ℕ → List Edge → Prop
  | here : Path E i i []
  | step {j : ℕ} {p : List Edge} {e : Edge} (h : Path E i j p) (he : e ∈ E) (hs : e.src = j) : Path E i e.dst (p ++ [e])

/-! ## Lemmas -/

theorem mem_dotEdges {g : Graph} {e : Edge} :
    e ∈ dotEdges g ↔ ∃ v, g[e.dst]? = some v ∧ e ∈ vertexEdges e.dst v := by
  unfold dotEdges
  rw [List.mem_flatMap]
  constructor
  · rintro ⟨⟨v, i⟩, hp, he⟩
    have hd : e.dst = i := by
      simp only [vertexEdges, List.mem_append] at he
      rcases he with he | he <;> split_ifs at he <;> simp at he <;> rw [he]
    subst hd
    exact ⟨v, List.mem_zipIdx_iff_getElem?.1 hp, he⟩
  · rintro ⟨v, hv, he⟩
    exact ⟨(v, e.dst), List.mem_zipIdx_iff_getElem?.2 hv, he⟩

theorem mem_vertexEdges {i : ℕ} {v : Vertex} {e : Edge} : e ∈ vertexEdges i v ↔
    (v.parent0 ≠ i ∧ e = ⟨v.parent0, i, 0, v.partial0⟩) ∨ (v.parent1 ≠ i ∧ e = ⟨v.parent1, i, 1, v.partial1⟩) := by
  simp only [vertexEdges, List.mem_append]
  split_ifs with h0 h1 h1 <;> simp [h0, h1]

theorem path_iff {E : List Edge} {i j : ℕ} {p : List Edge} : Path E i j p ↔
    (i = j ∧ p = []) ∨ ∃ q e, p = q ++ [e] ∧ e ∈ E ∧ e.dst = j ∧ Path E i e.src q := by
  constructor
  · rintro (_ | ⟨h, he, rfl⟩)
    · exact .inl ⟨rfl, rfl⟩
    · exact .inr ⟨_, _, rfl, he, rfl, h⟩
  · rintro (⟨rfl, rfl⟩ | ⟨q, e, rfl, he, rfl, h⟩)
    · exact .here
    · exact .step h he rfl

theorem nodup_snoc {L : List (List Edge)} (h : L.Nodup) (e : Edge) : (L.map (· ++ [e])).Nodup :=
  h.map fun a b hab => by simpa using hab

/-- The list of all paths into one node, and the sum of their products. -/
theorem paths_exist {g : Graph} (hw : WF g) (i : ℕ) (hi : i < g.length) (j : ℕ) :
    ∃ L : List (List Edge), L.Nodup ∧ (∀ p, p ∈ L ↔ Path (dotEdges g) i j p) ∧
      (L.map fun p => (p.map (·.label)).prod).sum =
        (tangents (fun k => if k = i then 1 else 0) g).getD j 0 := by
  induction j using Nat.strong_induction_on with
  | _ j ih =>
    rcases hv : g[j]? with _ | v
    · have hl : g.length ≤ j := List.getElem?_eq_none_iff.1 hv
      refine ⟨[], List.nodup_nil, fun p => ?_, ?_⟩
      · simp only [List.not_mem_nil, false_iff]
        intro hp
        rcases path_iff.1 hp with ⟨rfl, -⟩ | ⟨q, e, -, he, rfl, -⟩
        · omega
        · obtain ⟨w, hw', -⟩ := mem_dotEdges.1 he
          rw [hv] at hw'; cases hw'
      · rw [List.getD_eq_getElem?_getD, List.getElem?_eq_none (by rw [tangents_length]; exact hl)]
        simp
    · have hwv := hw j v hv
      rw [tangents_eq _ g hv]
      -- the paths through one slot
      have slot : ∀ (k q : ℕ) (d : ℝ), (q < j ∨ (q = j ∧ d = 0)) → ∃ L : List (List Edge), L.Nodup ∧
          (∀ p, p ∈ L ↔ ∃ r, p = r ++ [⟨q, j, k, d⟩] ∧ q ≠ j ∧ Path (dotEdges g) i q r) ∧
          (L.map fun p => (p.map (·.label)).prod).sum =
            d * (if q < j then (tangents (fun k => if k = i then 1 else 0) g).getD q 0 else 0) := by
        intro k q d hq
        rcases hq with hq | ⟨rfl, rfl⟩
        · obtain ⟨L, hn, hm, hs⟩ := ih q hq
          refine ⟨L.map (· ++ [⟨q, j, k, d⟩]), nodup_snoc hn _, fun p => ?_, ?_⟩
          · simp only [List.mem_map, hm]
            constructor
            · rintro ⟨r, hr, rfl⟩; exact ⟨r, rfl, by omega, hr⟩
            · rintro ⟨r, rfl, -, hr⟩; exact ⟨r, hr, rfl⟩
          · rw [if_pos hq, ← hs, List.map_map, ← List.sum_map_mul_left]
            congr 1
            refine List.map_congr_left fun p _ => ?_
            simp [mul_comm]
        · exact ⟨[], List.nodup_nil, fun p => by simp, by simp⟩
      obtain ⟨L0, n0, m0, s0⟩ := slot 0 v.parent0 v.partial0 hwv.1
      obtain ⟨L1, n1, m1, s1⟩ := slot 1 v.parent1 v.partial1 hwv.2
      refine ⟨(if j = i then [[]] else []) ++ (L0 ++ L1), ?_, fun p => ?_, ?_⟩
      · have hd : List.Disjoint L0 L1 := by
          intro p h0 h1
          obtain ⟨r, rfl, -⟩ := (m0 p).1 h0
          obtain ⟨r', hr, -⟩ := (m1 _).1 h1
          have := List.append_inj_right' hr rfl
          simp at this
        refine List.Nodup.append (by split_ifs <;> simp) (List.Nodup.append n0 n1 hd) ?_
        intro p hp h
        split_ifs at hp with hji
        · simp only [List.mem_singleton] at hp
          subst hp
          rcases List.mem_append.1 h with h | h
          · obtain ⟨r, hr, -⟩ := (m0 _).1 h; simp at hr
          · obtain ⟨r, hr, -⟩ := (m1 _).1 h; simp at hr
        · simp at hp
      · rw [path_iff, List.mem_append, List.mem_append, m0, m1]
        have hnil : (p ∈ if j = i then [[]] else ([] : List (List Edge))) ↔ i = j ∧ p = [] := by
          split_ifs with hji
          · simp [hji]
          · simp only [List.not_mem_nil, false_iff, not_and]
            exact fun h => absurd h.symm hji
        rw [hnil]
        refine or_congr_right ?_
        constructor
        · rintro (⟨r, rfl, hq, hr⟩ | ⟨r, rfl, hq, hr⟩)
          · exact ⟨r, _, rfl, mem_dotEdges.2 ⟨v, hv, mem_vertexEdges.2 (.inl ⟨hq, rfl⟩)⟩, rfl, hr⟩
          · exact ⟨r, _, rfl, mem_dotEdges.2 ⟨v, hv, mem_vertexEdges.2 (.inr ⟨hq, rfl⟩)⟩, rfl, hr⟩
        · rintro ⟨q, e, rfl, he, hej, hp⟩
          obtain ⟨w, hw', hme⟩ := mem_dotEdges.1 he
          rw [hej, hv] at hw'
          cases hw'
          rw [hej, mem_vertexEdges] at hme
          rcases hme with ⟨h0, rfl⟩ | ⟨h1, rfl⟩
          · exact .inl ⟨q, rfl, h0, hp⟩
          · exact .inr ⟨q, rfl, h1, hp⟩
      · rw [List.map_append, List.sum_append, List.map_append, List.sum_append, s0, s1, ← add_assoc]
        congr 2
        split_ifs <;> simp

/-! ## C80 -/

/-- C80: the text is the header, the statements one after the other, and the closing brace. -/
theorem C80_text (fv fl : ℝ → String) (g : Graph) (vars : List Var) :
    graphviz fv fl g vars =
      "digraph Graph {\n\tbgcolor=\"transparent\";\n\trankdir=\"LR\";\n\tnode [shape=box3d];\n" ++
        String.join ((dotLines g vars).map (DotLine.text fv fl)) ++ "}\n" := by
  have h : ∀ (l : List DotLine) (s : String),
      l.foldl (fun dot l => dot ++ l.text fv fl) s = s ++ String.join (l.map (DotLine.text fv fl)) := by
    intro l
    induction l with
    | nil => intro s; simp [String.join]
    | cons a l ih => intro s; rw [List.foldl_cons, ih]; simp [String.append_assoc]
  unfold graphviz
  rw [h]

/-- C80: the drawing has exactly one node per vertex of the tape, in order. The node of a vertex is marked as an input
exactly when one of the variables passed in is at that vertex, and then shows the value of the first such variable. -/
theorem C80_nodes (g : Graph) (vars : List Var) :
    (dotNodes g vars).length = g.length ∧ ∀ i, i < g.length →
      ((∀ v ∈ vars, v.index ≠ i) ∧ (dotNodes g vars)[i]? = some (.op i)) ∨
      (∃ pre v post, vars = pre ++ v :: post ∧ (∀ u ∈ pre, u.index ≠ i) ∧ v.index = i ∧
        (dotNodes g vars)[i]? = some (.input i v.value)) := by
  refine ⟨by simp [dotNodes], fun i hi => ?_⟩
  have hg : (dotNodes g vars)[i]? = some (dotNode vars i) := by
    simp [dotNodes, hi]
  rw [hg, dotNode]
  cases hf : vars.find? fun v => v.index == i with
  | none =>
    left
    refine ⟨fun v hv => ?_, rfl⟩
    simpa using List.find?_eq_none.1 hf v hv
  | some v =>
    right
    obtain ⟨h1, pre, post, h2, h3⟩ := List.find?_eq_some_iff_append.1 hf
    exact ⟨pre, v, post, h2, fun u hu => by simpa using h3 u hu, by simpa using h1, rfl⟩

/-- C80: the arrows are exactly the parent links of the tape that lead from one vertex to another: an arrow from `p` to
`j` with the label `∂_k: d` is drawn exactly when the vertex at `j` has `p ≠ j` as its parent in slot `k`, with partial
derivative `d`. No arrow is drawn twice. -/
theorem C80_edges (g : Graph) (e : Edge) :
    (e ∈ dotEdges g ↔ e.src ≠ e.dst ∧ ∃ v, g[e.dst]? = some v ∧
      ((e.slot = 0 ∧ e.src = v.parent0 ∧ e.label = v.partial0) ∨
        (e.slot = 1 ∧ e.src = v.parent1 ∧ e.label = v.partial1))) ∧ (dotEdges g).Nodup := by
  constructor
  · rw [mem_dotEdges]
    constructor
    · rintro ⟨v, hv, he⟩
      rcases mem_vertexEdges.1 he with ⟨h, he⟩ | ⟨h, he⟩
      · exact ⟨by rw [he]; exact h, v, hv, .inl ⟨by rw [he], by rw [he], by rw [he]⟩⟩
      · exact ⟨by rw [he]; exact h, v, hv, .inr ⟨by rw [he], by rw [he], by rw [he]⟩⟩
    · obtain ⟨s, d, k, l⟩ := e
      rintro ⟨hne, v, hv, ⟨rfl, rfl, rfl⟩ | ⟨rfl, rfl, rfl⟩⟩
      · exact ⟨v, hv, mem_vertexEdges.2 (.inl ⟨hne, rfl⟩)⟩
      · exact ⟨v, hv, mem_vertexEdges.2 (.inr ⟨hne, rfl⟩)⟩
  · unfold dotEdges
    rw [List.nodup_flatMap]
    refine ⟨fun p _ => ?_, ?_⟩
    · simp only [vertexEdges]
      split_ifs <;> simp
    · have hp : (g.zipIdx).Pairwise fun a b => a.2 ≠ b.2 := by
        have : ((g.zipIdx).map Prod.snd).Nodup := by
          rw [List.zipIdx_map_snd]
          exact List.nodup_range'
        exact List.pairwise_map.1 this
      refine hp.imp fun {a b} hab => ?_
      intro e ha hb
      have h1 : e.dst = a.2 := by
        rcases mem_vertexEdges.1 ha with ⟨-, h⟩ | ⟨-, h⟩ <;> rw [h]
      have h2 : e.dst = b.2 := by
        rcases mem_vertexEdges.1 hb with ⟨-, h⟩ | ⟨-, h⟩ <;> rw [h]
      exact hab (h1.symm.trans h2)

/-- C80: in the drawing of any computation every arrow joins two drawn nodes and goes from an earlier node to a later
one, so the drawing has no cycle. -/
theorem C80_acyclic (prog : List Instr) (x : ℕ → ℝ) (g : Graph) (env : List Var) (hrun : run prog x = some (g, env)) :
    (∀ e ∈ dotEdges g, e.src < e.dst ∧ e.dst < g.length) ∧
      ∀ i p, Path (dotEdges g) i i p → p = [] := by
  have hlt : ∀ e ∈ dotEdges g, e.src < e.dst ∧ e.dst < g.length := by
    intro e he
    obtain ⟨hne, v, hv, h⟩ := (C80_edges g e).1.1 he
    obtain ⟨-, -, ht, -⟩ := C27_tape prog x g env hrun
    obtain ⟨h0, h1, -⟩ := ht _ v hv
    refine ⟨?_, (List.getElem?_eq_some_iff.1 hv).1⟩
    rcases h with h | h <;> omega
  refine ⟨hlt, ?_⟩
  have hle : ∀ i j p, Path (dotEdges g) i j p → i ≤ j ∧ (p ≠ [] → i < j) := by
    intro i j p hp
    induction hp with
    | here => exact ⟨le_rfl, fun h => absurd rfl h⟩
    | step h he hs ih =>
      have := (hlt _ he).1
      exact ⟨by omega, fun _ => by omega⟩
  intro i p hp
  by_contra hne
  exact absurd ((hle i i p hp).2 hne) (lt_irrefl i)

/-- An instance: the drawing of `x * x + sin x`. -/
example := C80_acyclic [.leaf, .vv .mul 0 0, .un .sin 0, .vv .add 1 2] (fun _ => 3) _ _ rfl

/-- C80: an input of the computation is a node without incoming arrows. -/
theorem C80_inputs (prog : List Instr) (x : ℕ → ℝ) (g : Graph) (env : List Var) (hrun : run prog x = some (g, env))
    (k : ℕ) (hk : prog[k]? = some .leaf) :
    ∃ v, env[k]? = some v ∧ v.index < g.length ∧ ∀ e ∈ dotEdges g, e.dst ≠ v.index := by
  obtain ⟨hkl, hke⟩ := List.getElem?_eq_some_iff.1 hk
  have hsplit : prog = (prog.take k ++ [.leaf]) ++ prog.drop (k + 1) := by
    rw [← hke]; simp
  rw [hsplit] at hrun
  obtain ⟨g2, env2, h2, ⟨gt, hgt⟩, ⟨et, het⟩⟩ := C27_append_only _ _ x g env hrun
  obtain ⟨g1, env1, h1, h3⟩ := runFrom_append.1 h2
  obtain ⟨-, -, hl, -, -, -⟩ := runFrom_grows WF.nil he_nil h1
  simp only [runFrom, Instr.exec, var_eq, Option.bind_eq_bind, Option.bind_some, Option.some.injEq, Prod.mk.injEq] at h3
  obtain ⟨rfl, rfl⟩ := h3
  have hl' : env1.length = k := by simp at hl; omega
  refine ⟨⟨g1.length, x env1.length⟩, by rw [← het, ← hl']; simp, by rw [← hgt]; simp, fun e he h => ?_⟩
  obtain ⟨hne, v, hv, h'⟩ := (C80_edges _ e).1.1 he
  rw [h, ← hgt] at hv
  simp at hv
  subst hv
  rcases h' with h' | h' <;> exact hne (by rw [h'.2.1]; exact h.symm)

/-- An instance: no arrow enters the second input of `x * y + sin x`. -/
example := C80_inputs [.leaf, .leaf, .vv .mul 0 1, .un .sin 0, .vv .add 2 3] (fun i => i) _ _ rfl 1 rfl

/-- C80: the gradient can be read off the drawing. The derivative of a result with respect to any variable, as returned
by `accumulate` and `wrt`, is the sum over all paths of arrows from the variable to the result of the product of the
labels along the path; the set of those paths is finite. -/
theorem C80_gradient (prog : List Instr) (x : ℕ → ℝ) (g : Graph) (env : List Var) (hrun : run prog x = some (g, env))
    (z u : Var) (hz : z ∈ env) (hu : u ∈ env) :
    ∃ (P : Finset (List Edge)) (adj : List ℝ), (∀ p, p ∈ P ↔ Path (dotEdges g) u.index z.index p) ∧
      accumulate g z = some adj ∧ wrt adj u = some (∑ p ∈ P, (p.map (·.label)).prod) := by
  classical
  obtain ⟨-, -, -, hw, h3, -⟩ := runFrom_grows WF.nil he_nil hrun
  obtain ⟨adj, ha, hl, hv⟩ := accumulate_spec hw z (h3 z hz)
  obtain ⟨L, hn, hm, hs⟩ := paths_exist hw u.index (h3 u hu) z.index
  refine ⟨L.toFinset, adj, fun p => by rw [List.mem_toFinset, hm], ha, ?_⟩
  unfold wrt
  refine getElem?_of_getD (by rw [hl]; exact h3 u hu) ?_
  rw [hv _ (h3 u hu), ← hs, List.sum_toFinset _ hn]

/-- An instance: the paths from `x` to `x * y + sin x`. -/
example := C80_gradient [.leaf, .leaf, .vv .mul 0 1, .un .sin 0, .vv .add 2 3] (fun i => i) _ _ rfl
  _ _ (.tail _ (.tail _ (.tail _ (.tail _ (.head _))))) (.head _)

/-- C80: so a result whose derivative with respect to a variable is not zero is joined to it by a path. -/
theorem C80_connected (prog : List Instr) (x : ℕ → ℝ) (g : Graph) (env : List Var) (hrun : run prog x = some (g, env))
    (z u : Var) (hz : z ∈ env) (hu : u ∈ env) (adj : List ℝ) (ha : accumulate g z = some adj) (d : ℝ)
    (hd : wrt adj u = some d) (hne : d ≠ 0) : ∃ p, Path (dotEdges g) u.index z.index p := by
  obtain ⟨P, adj', hP, ha', hw⟩ := C80_gradient prog x g env hrun z u hz hu
  rw [ha] at ha'
  cases ha'
  rw [hd] at hw
  rcases Finset.eq_empty_or_nonempty P with rfl | ⟨p, hp⟩
  · simp at hw; exact absurd hw hne
  · exact ⟨p, (hP p).1 hp⟩

/-- A concrete drawing: `z = x * x` at `x = 3` has two arrows from node 0 to node 1, both labelled 3, and the sum over
the two paths is the derivative 6. -/
example : ∃ g x0 z, run [.leaf, .vv .mul 0 0] (fun _ => 3) = some (g, [x0, z]) ∧
    dotEdges g = [⟨0, 1, 0, 3⟩, ⟨0, 1, 1, 3⟩] ∧ dotLines g [x0] =
      [.input 0 3, .op 1, .edge ⟨0, 1, 0, 3⟩, .edge ⟨0, 1, 1, 3⟩] := by
  refine ⟨_, _, _, rfl, ?_, ?_⟩
  · simp [dotEdges, vertexEdges, VVOp.partials]
  · simp [dotLines, dotNodes, dotNode, dotEdges, vertexEdges, VVOp.partials, List.range_succ]

end Verif.Autodiff
