import Verif.Float.AutodiffRun

/-!
# C94: gradients in double precision

What the rounding of every `f64` operation does to the gradients of reverse-mode differentiation: how far a gradient
can be from the chain rule applied exactly to the recorded partial derivatives, and when it is exact.
-/

namespace Verif.Float.AD

/-! ## The chain rule and the exact sweeps -/

theorem chain_tangent {part : ℚ → ℚ} {f : ℝ → ℝ} (hf : ∀ q : ℚ, f q = (part q : ℚ)) {g : Graph} {i : ℕ} {d : ℕ → ℚ}
    (hd : ChainRule part g i d) (k : ℕ) (hk : k < g.length) :
    (Autodiff.tangents (fun j => if j = i then 1 else 0) (g.toReal f)).getD k 0 = (d k : ℝ) := by
  induction k using Nat.strong_induction_on with
  | _ k ih =>
    have h1 : g[k]? = some g[k] := List.getElem?_eq_getElem hk
    have e := hd k _ h1
    by_cases hki : k = i
    · subst hki
      rw [Autodiff.tangents_unit_self _ _ (by rw [toReal_length]; exact hk), e, if_pos rfl]
      norm_num
    · have hv : (g.toReal f)[k]? = some ⟨f g[k].partial0.val, f g[k].partial1.val, g[k].parent0, g[k].parent1⟩ := by
        simp [Graph.toReal, h1]
      rw [Autodiff.tangents_eq _ _ hv, e, if_neg hki, if_neg hki]
      have z : ∀ q, (if q < k then (Autodiff.tangents (fun j => if j = i then (1 : ℝ) else 0) (g.toReal f)).getD q 0 else 0) =
          (((if q < k then d q else 0 : ℚ)) : ℝ) := by
        intro q
        split_ifs with h
        · exact ih q h (by omega)
        · norm_num
      simp only [z, hf]
      push_cast
      ring

theorem chain_accumulate {part : ℚ → ℚ} {f : ℝ → ℝ} (hf : ∀ q : ℚ, f q = (part q : ℚ)) (h0 : f 0 = 0) {g : Graph} (hw : Tape g)
    (out : Var) (ho : out.index < g.length) :
    ∃ R, Autodiff.sweep (g.toReal f) g.length ((List.replicate g.length 0).set out.index 1) = some R ∧
      ∀ i d, i < g.length → ChainRule part g i d → R.getD i 0 = (d out.index : ℝ) := by
  obtain ⟨R, h1, h2, h3⟩ := Autodiff.accumulate_spec (hw.wf h0) ⟨out.index, 0⟩ (by rw [toReal_length]; exact ho)
  rw [Autodiff.accumulate, toReal_length, if_pos ho] at h1
  refine ⟨R, h1, fun i d hi hd => ?_⟩
  rw [h3 i (by rw [toReal_length]; exact hi)]
  exact chain_tangent hf hd _ ho

theorem seed_getD {α : Type} (n o : ℕ) (ho : o < n) (z s : α) (j : ℕ) :
    ((List.replicate n z).set o s).getD j z = if j = o then s else z := by
  simp only [List.getD_eq_getElem?_getD, List.getElem?_set, List.length_replicate, List.getElem?_replicate]
  by_cases h : j = o
  · subst h; simp [ho]
  · rw [if_neg (fun h' => h h'.symm), if_neg h]
    split_ifs <;> rfl

theorem seed_at (n o : ℕ) (ho : o < n) (j : ℕ) :
    at_ ((List.replicate n F64.zero).set o F64.one) j = if j = o then 1 else 0 := by
  unfold at_
  rw [seed_getD n o ho]
  split_ifs <;> simp [F64.one, F64.zero]

/-! ## C94 -/

/-- C94: the tapes recorded by programs of the arithmetic operators: every operand was recorded before its vertex. -/
theorem C94_tapes (prog : List Arith) (x : ℕ → F64) (g : Graph) (env : List Var) (h : run prog x = some (g, env)) :
    Tape g ∧ env.length = prog.length ∧ ∀ z ∈ env, z.index < g.length := by
  obtain ⟨a, b, c⟩ := runFrom_tape (g := []) (env := []) (by intro i v h; simp at h) (by simp) h
  exact ⟨a, by simpa using c, b⟩

/-- C94: the derivative of `out` with respect to vertex `i` that `accumulate` returns differs from the chain rule
applied exactly to the recorded partials by at most `(1 + 2^-53)^(3 (out - i)) - 1` times the chain rule applied to
their magnitudes, provided no product of a recorded partial with a returned derivative underflows. In particular it
is 1 for `out` itself and 0 for vertices recorded later. -/
theorem C94_gradient_error (g : Graph) (hw : Tape g) (out : Var) (adj : List F64) (h : accumulate g out = some adj)
    (hn : ∀ (i : ℕ) (v : Vertex) (a : F64), g[i]? = some v → adj[i]? = some a →
      NoUnderflow (v.partial0.val * a.val) ∧ NoUnderflow (v.partial1.val * a.val))
    (i : ℕ) (d b : ℕ → ℚ) (hd : ChainRule id g i d) (hb : ChainRule abs g i b) (a : F64) (ha : adj[i]? = some a) :
    |a.val - d out.index| ≤ ((1 + 2 ^ (-53 : ℤ)) ^ (3 * (out.index - i)) - 1) * b out.index := by
  unfold accumulate at h
  split_ifs at h with ho
  obtain ⟨R, hR, sR⟩ := chain_accumulate (part := id) (f := id) (fun _ => rfl) rfl hw out ho
  obtain ⟨A, hA, sA⟩ := chain_accumulate (part := abs) (f := abs) (fun q => by push_cast; rfl) abs_zero hw out ho
  have hl := sweep_length _ _ _ h
  have hi : i < g.length := by
    have := (List.getElem?_eq_some_iff.1 ha).1
    rw [hl] at this
    simpa using this
  have inv := sweep_error hw out.index adj R A hn g.length le_rfl _ _ _ (by simp) (by simp) (by simp) h hR hA
    { size := fun j => by
        simp only [seed_getD g.length out.index ho]
        split_ifs <;> simp
      beyond := fun j hj => by
        simp only [seed_getD g.length out.index ho]
        rw [if_neg (by omega)]
      todo := fun j hj => by
        simp only [seed_getD g.length out.index ho, seed_at g.length out.index ho]
        rw [sub_self, abs_zero]
        refine mul_nonneg ?_ ?_
        · have := one_le_pow₀ (M₀ := ℝ) (a := 1 + uR) (n := 3 * (out.index + 1 - g.length)) (by linarith [uR_pos])
          linarith
        · split_ifs <;> norm_num
      done := fun j hj => by
        simp only [seed_getD g.length out.index ho, seed_at g.length out.index ho]
        rw [sub_self, abs_zero, if_neg (by omega), mul_zero] }
  have := inv.done i (Nat.zero_le _)
  rw [at_eq ha, sR i d hi hd, sA i b hi hb] at this
  have e : uR = (((2 : ℚ) ^ (-53 : ℤ) : ℚ) : ℝ) := rfl
  rw [e] at this
  exact_mod_cast this

/-- C94: when no recorded partial is negative, the error is relative: no digit is lost to cancellation. -/
theorem C94_nonneg (g : Graph) (hw : Tape g) (out : Var) (adj : List F64) (h : accumulate g out = some adj)
    (hn : ∀ (i : ℕ) (v : Vertex) (a : F64), g[i]? = some v → adj[i]? = some a →
      NoUnderflow (v.partial0.val * a.val) ∧ NoUnderflow (v.partial1.val * a.val))
    (hp : ∀ v ∈ g, 0 ≤ v.partial0.val ∧ 0 ≤ v.partial1.val)
    (i : ℕ) (d : ℕ → ℚ) (hd : ChainRule id g i d) (a : F64) (ha : adj[i]? = some a) :
    |a.val - d out.index| ≤ ((1 + 2 ^ (-53 : ℤ)) ^ (3 * (out.index - i)) - 1) * d out.index := by
  refine C94_gradient_error g hw out adj h hn i d d hd (fun k v hv => ?_) a ha
  rw [hd k v hv]
  obtain ⟨p0, p1⟩ := hp v (List.mem_of_getElem? hv)
  rw [abs_of_nonneg p0, abs_of_nonneg p1]
  rfl

theorem chain_exists (part : ℚ → ℚ) (g : Graph) (i : ℕ) : ∃ d, ChainRule part g i d := by
  have key : ∀ n : ℕ, ∃ d : ℕ → ℚ, ∀ (k : ℕ) (v : Vertex), k < n → g[k]? = some v → d k = if k = i then 1 else
      part v.partial0.val * (if v.parent0 < k then d v.parent0 else 0) +
        part v.partial1.val * (if v.parent1 < k then d v.parent1 else 0) := by
    intro n
    induction n with
    | zero => exact ⟨fun _ => 0, fun k v h => absurd h (by omega)⟩
    | succ n ih =>
      obtain ⟨d, hd⟩ := ih
      rcases hv : g[n]? with _ | w
      · refine ⟨d, fun k v hk hkv => hd k v ?_ hkv⟩
        rcases Nat.lt_succ_iff_lt_or_eq.1 hk with h | rfl
        · exact h
        · rw [hv] at hkv; cases hkv
      · set y : ℚ := if n = i then 1 else part w.partial0.val * (if w.parent0 < n then d w.parent0 else 0) +
          part w.partial1.val * (if w.parent1 < n then d w.parent1 else 0) with hy
        refine ⟨Function.update d n y, fun k v hk hkv => ?_⟩
        have z : ∀ q m, m ≤ n → (if q < m then Function.update d n y q else 0) = if q < m then d q else 0 := by
          intro q m hm
          split_ifs with h
          · rw [Function.update_of_ne (by omega)]
          · rfl
        rcases Nat.lt_succ_iff_lt_or_eq.1 hk with h | rfl
        · rw [Function.update_of_ne (by omega), z _ _ h.le, z _ _ h.le]
          exact hd k v h hkv
        · rw [hv] at hkv
          cases hkv
          rw [Function.update_self, z _ _ le_rfl, z _ _ le_rfl]
  obtain ⟨d, hd⟩ := key g.length
  exact ⟨d, fun k v hv => hd k v (List.getElem?_eq_some_iff.1 hv).1 hv⟩

/-- C94: the chain rule determines the derivative of every vertex of the tape: exactly one number. -/
theorem C94_chain_rule (part : ℚ → ℚ) (g : Graph) (i : ℕ) :
    (∃ d, ChainRule part g i d) ∧
      ∀ d d', ChainRule part g i d → ChainRule part g i d' → ∀ k, k < g.length → d k = d' k := by
  refine ⟨chain_exists part g i, fun d d' h h' k => ?_⟩
  induction k using Nat.strong_induction_on with
  | _ k ih =>
    intro hk
    have h1 : g[k]? = some g[k] := List.getElem?_eq_getElem hk
    rw [h k _ h1, h' k _ h1]
    have z : ∀ q, (if q < k then d q else 0) = if q < k then d' q else 0 := by
      intro q
      split_ifs with hq
      · exact ih q hq (by omega)
      · rfl
    rw [z, z]

/-- C94: with integer partials, and the chain rule of their magnitudes at most `2 ^ 53` for every vertex, the gradient
neither overflows nor rounds: it is the chain rule exactly. -/
theorem C94_exact (g : Graph) (hw : Tape g) (hi : ∀ v ∈ g, IsInt v.partial0.val ∧ IsInt v.partial1.val) (out : Var)
    (ho : out.index < g.length) (hm : ∀ i b, i < g.length → ChainRule abs g i b → b out.index ≤ 2 ^ 53) :
    ∃ adj, accumulate g out = some adj ∧ adj.length = g.length ∧
      ∀ i d a, ChainRule id g i d → adj[i]? = some a → a.val = d out.index := by
  obtain ⟨R, hR, sR⟩ := chain_accumulate (part := id) (f := id) (fun _ => rfl) rfl hw out ho
  obtain ⟨A, hA, sA⟩ := chain_accumulate (part := abs) (f := abs) (fun q => by push_cast; rfl) abs_zero hw out ho
  have lA : A.length = g.length := by
    obtain ⟨A', h1, h2, -⟩ := Autodiff.sweep_spec (hw.wf (f := abs) abs_zero) (fun _ => 0) g.length (by rw [toReal_length])
      ((List.replicate g.length 0).set out.index 1) (by simp [toReal_length])
    rw [hA] at h1
    cases h1
    rw [h2, toReal_length]
  obtain ⟨r, h1, h2, h3⟩ := sweep_exact hw hi R A (fun j => by
      by_cases hj : j < g.length
      · obtain ⟨b, hb⟩ := chain_exists abs g j
        rw [sA j b hj hb]
        exact_mod_cast hm j b hj hb
      · rw [List.getD_eq_getElem?_getD, List.getElem?_eq_none (by omega)]
        simp)
    g.length le_rfl ((List.replicate g.length F64.zero).set out.index F64.one) _ _ (by simp) (by simp) (by simp) hR hA
    (fun j => by
      simp only [seed_getD g.length out.index ho]
      split_ifs <;> simp)
    (by
      intro a ha
      rcases List.mem_or_eq_of_mem_set ha with h | h
      · rw [(List.mem_replicate.1 h).2]; exact isInt_zero
      · rw [h]; exact isInt_one)
    (fun j => by simp only [seed_getD g.length out.index ho, seed_at g.length out.index ho])
  refine ⟨r, by rw [accumulate, if_pos ho]; exact h1, h2, fun i d a hd ha => ?_⟩
  have hil : i < g.length := by
    have := (List.getElem?_eq_some_iff.1 ha).1
    omega
  have := h3 i
  rw [at_eq ha, sR i d hil hd] at this
  exact_mod_cast this

/-- C94: a program of sums, differences, products and negations with integer inputs and constants, none of whose values
exceeds `2 ^ 53`, computes its values exactly; and where in addition the chain rule of the magnitudes stays within
`2 ^ 53`, its gradient is the derivative of the function the program denotes, exactly. -/
theorem C94_program_exact (prog : List Arith) (x : ℕ → F64) (hs : Autodiff.Scoped (prog.map Arith.toInstr))
    (hx : ∀ i, IsInt (x i).val) (hc : ∀ ins ∈ prog, ∀ c, ins.const = some c → IsInt c.val)
    (hv : ∀ k, k < prog.length → |Autodiff.denote (prog.map Arith.toInstr) (fun i => ((x i).val : ℝ)) k| ≤ 2 ^ 53) :
    ∃ g env, run prog x = some (g, env) ∧ env.length = prog.length ∧ ∀ k z, env[k]? = some z →
      (z.value.val : ℝ) = Autodiff.denote (prog.map Arith.toInstr) (fun i => ((x i).val : ℝ)) k ∧
      ((∀ i b, i < g.length → ChainRule abs g i b → b z.index ≤ 2 ^ 53) →
        ∃ adj, accumulate g z = some adj ∧ ∀ p xp, prog[p]? = some .leaf → env[p]? = some xp →
          ∃ d, wrt adj xp = some d ∧ HasDerivAt (fun t => Autodiff.denote (prog.map Arith.toInstr)
            (Function.update (fun i => ((x i).val : ℝ)) p t) k) (d.val : ℝ) (x p).val) := by
  obtain ⟨G, E, hrun, hlE⟩ := Autodiff.C26_runs (prog.map Arith.toInstr) hs (fun i => ((x i).val : ℝ))
  have hE : ∀ V ∈ E, |V.value| ≤ 2 ^ 53 := by
    intro V hV
    obtain ⟨k, hk⟩ := List.mem_iff_getElem?.1 hV
    rw [Autodiff.C26_values _ _ _ _ hrun k V hk]
    refine hv k ?_
    have := (List.getElem?_eq_some_iff.1 hk).1
    simpa [hlE] using this
  obtain ⟨g, env, h1, rfl, rfl, h4⟩ := runFrom_exact (g := []) (env := []) (x := x) (prog := prog)
    (by intro i v h; simp [Graph.toReal] at h) (by simp) hx hc (by simp) (by intro v h; simp at h) hrun hE
  obtain ⟨hT, hL, hI⟩ := C94_tapes prog x g env h1
  refine ⟨g, env, h1, hL, fun k z hz => ?_⟩
  have hzR : (env.map Var.toReal)[k]? = some z.toReal := by rw [List.getElem?_map, hz]; rfl
  refine ⟨Autodiff.C26_values _ _ _ _ hrun k _ hzR, fun hm => ?_⟩
  have hzi := hI z (List.mem_of_getElem? hz)
  obtain ⟨adj, a1, a2, a3⟩ := C94_exact g hT h4 z hzi hm
  refine ⟨adj, a1, fun p xp hp hxp => ?_⟩
  have hpR : (env.map Var.toReal)[p]? = some xp.toReal := by rw [List.getElem?_map, hxp]; rfl
  have hpi := hI xp (List.mem_of_getElem? hxp)
  have hdiff : Autodiff.Differentiable (prog.map Arith.toInstr) (fun i => ((x i).val : ℝ)) := by
    intro k ins hk
    rw [List.getElem?_map, Option.map_eq_some_iff] at hk
    obtain ⟨i, -, rfl⟩ := hk
    cases i <;> simp [Arith.toInstr, Autodiff.Instr.Dom, Autodiff.VVOp.Dom, Autodiff.VFOp.Dom]
  obtain ⟨-, radj, rd, r1, r2, r3⟩ := Autodiff.C26_gradient_exact _ _ _ _ hrun hdiff k _ hzR p
    (by rw [List.getElem?_map, hp]; rfl) _ hpR
  obtain ⟨d, hd⟩ := chain_exists id g xp.index
  have ga : adj[xp.index]? = some (adj[xp.index]'(by omega)) := List.getElem?_eq_getElem _
  refine ⟨_, ga, ?_⟩
  have e1 := a3 _ d _ hd ga
  obtain ⟨R, hR, sR⟩ := chain_accumulate (part := id) (f := id) (fun _ => rfl) rfl hT z hzi
  have e2 : radj = R := by
    rw [Autodiff.accumulate, toReal_length] at r1
    simp only [Var.toReal, hzi, if_true] at r1
    rw [hR] at r1
    exact (Option.some.inj r1).symm
  have e3 : rd = (d z.index : ℝ) := by
    have e4 := sR xp.index d hpi hd
    subst e2
    simp only [Autodiff.wrt, Var.toReal] at r2
    rw [List.getD_eq_getElem?_getD, r2] at e4
    exact e4
  rw [e1, ← e3]
  exact r3

/-- The gradient of the last statement of a program with respect to its first input, as the library computes it. -/
def gradientOf (prog : List Arith) (x : ℕ → F64) : Option F64 := do
  let (g, env) ← run prog x
  let adj ← accumulate g (← env.getLast?)
  wrt adj (← env.head?)

/-- `2^54 x + x - 2^54 x`. -/
def cancelling : List Arith := [.leaf, .mulF 0 (lit (2 ^ 54)), .mulF 0 F64.one, .mulF 0 (lit (2 ^ 54)).neg, .add 1 2, .add 4 3]

/-- C94 (defect): beyond those bounds the gradient need not have one correct digit: `2^54 x + x - 2^54 x` at `x = 1` has the
derivative 1, and the library reports 0. -/
theorem C94_not_exact : (gradientOf cancelling (fun _ => F64.one)).map F64.val = some 0 ∧
    HasDerivAt (fun t => Autodiff.denote (cancelling.map Arith.toInstr) (fun _ => t) 5) 1 1 := by
  refine ⟨by decide +kernel, ?_⟩
  have e : (fun t => Autodiff.denote (cancelling.map Arith.toInstr) (fun _ => t) 5) = fun t : ℝ => t := by
    have h : (lit (2 ^ 54)).val = 2 ^ 54 := by decide +kernel
    funext t
    simp [cancelling, Arith.toInstr, Autodiff.denote, Autodiff.denoteFrom, Autodiff.Instr.denote, Autodiff.VFOp.math,
      Autodiff.VVOp.math, F64.one, F64.neg, h]
  rw [e]
  exact hasDerivAt_id 1

/-- `2^53 x + x + x`, with the statements in the two orders. -/
def bigFirst : List Arith := [.leaf, .mulF 0 (lit (2 ^ 53)), .mulF 0 F64.one, .mulF 0 F64.one, .add 1 2, .add 4 3]

def bigLast : List Arith := [.leaf, .mulF 0 F64.one, .mulF 0 F64.one, .mulF 0 (lit (2 ^ 53)), .add 1 2, .add 4 3]

/-- C94 (defect): the order in which a program records its operations changes the gradient of the same function: `2^53 x + x + x`
gets `2^53 + 2` or `2^53`. -/
theorem C94_order_matters : (gradientOf bigFirst (fun _ => F64.one)).map F64.val = some (2 ^ 53 + 2) ∧
    (gradientOf bigLast (fun _ => F64.one)).map F64.val = some (2 ^ 53) ∧
    ∀ t, Autodiff.denote (bigFirst.map Arith.toInstr) (fun _ => t) 5 = Autodiff.denote (bigLast.map Arith.toInstr) (fun _ => t) 5 := by
  refine ⟨by decide +kernel, by decide +kernel, fun t => ?_⟩
  simp [bigFirst, bigLast, Arith.toInstr, Autodiff.denote, Autodiff.denoteFrom, Autodiff.Instr.denote, Autodiff.VFOp.math,
    Autodiff.VVOp.math]
  ring

/-! ## The hypotheses are met -/

/-- `x y - 3 x` at `x = 5`, `y = 7`. -/
def sample : List Arith := [.leaf, .leaf, .mul 0 1, .mulF 0 (lit 3), .sub 2 3]

def sampleX : ℕ → F64 := fun i => if i = 0 then lit 5 else lit 7

/-- C94_program_exact applies to `x y - 3 x`. -/
example : Autodiff.Scoped (sample.map Arith.toInstr) ∧ (∀ i, IsInt (sampleX i).val) ∧
    (∀ ins ∈ sample, ∀ c, ins.const = some c → IsInt c.val) ∧
    (∀ k, k < sample.length → |Autodiff.denote (sample.map Arith.toInstr) (fun i => ((sampleX i).val : ℝ)) k| ≤ 2 ^ 53) := by
  have h5 : (lit 5).val = 5 := by decide +kernel
  have h7 : (lit 7).val = 7 := by decide +kernel
  have h3 : (lit 3).val = 3 := by decide +kernel
  refine ⟨?_, fun i => ?_, ?_, ?_⟩
  · intro k ins hk
    match k, hk with
    | 0, hk => cases hk; simp [Arith.toInstr, Autodiff.Instr.refs]
    | 1, hk => cases hk; simp [Arith.toInstr, Autodiff.Instr.refs]
    | 2, hk => cases hk; simp [Arith.toInstr, Autodiff.Instr.refs]
    | 3, hk => cases hk; simp [Arith.toInstr, Autodiff.Instr.refs]
    | 4, hk => cases hk; simp [Arith.toInstr, Autodiff.Instr.refs]
    | k + 5, hk => simp [sample] at hk
  · unfold sampleX
    split_ifs
    · exact ⟨5, by rw [h5]; rfl⟩
    · exact ⟨7, by rw [h7]; rfl⟩
  · intro ins hi c hc
    simp only [sample, List.mem_cons, List.not_mem_nil, or_false] at hi
    rcases hi with rfl | rfl | rfl | rfl | rfl <;> simp [Arith.const] at hc
    subst hc
    exact ⟨3, by rw [h3]; rfl⟩
  · intro k hk
    have : k < 5 := hk
    interval_cases k <;>
      simp [sample, sampleX, Arith.toInstr, Autodiff.denote, Autodiff.denoteFrom, Autodiff.Instr.denote, Autodiff.VFOp.math,
        Autodiff.VVOp.math, h5, h7, h3] <;> norm_num

/-- Its tape, from the run. -/
def sampleTape : Graph := ((run sample sampleX).getD ([], [])).1

theorem sample_run : run sample sampleX = some (sampleTape, ((run sample sampleX).getD ([], [])).2) := by
  have h : (run sample sampleX).isSome = true := by decide +kernel
  obtain ⟨r, hr⟩ := Option.isSome_iff_exists.1 h
  simp [sampleTape, hr]

theorem sample_entries : sampleTape.map (fun v => (v.partial0.val, v.partial1.val, v.parent0, v.parent1)) =
    [(0, 0, 0, 0), (0, 0, 1, 1), (7, 5, 0, 1), (3, 0, 0, 0), (-1, 0, 3, 3), (1, 1, 2, 4)] := by decide +kernel

/-- The chain rule on that tape, with respect to `x`: `y - 3 = 4`; the magnitudes add up to 10. -/
example : ∃ d b, ChainRule id sampleTape 0 d ∧ ChainRule abs sampleTape 0 b ∧ d 5 = 4 ∧ b 5 = 10 := by
  have hv : ∀ (k : ℕ) (v : Vertex), sampleTape[k]? = some v →
      ([(0, 0, 0, 0), (0, 0, 1, 1), (7, 5, 0, 1), (3, 0, 0, 0), (-1, 0, 3, 3), (1, 1, 2, 4)] : List (ℚ × ℚ × ℕ × ℕ))[k]? =
        some (v.partial0.val, v.partial1.val, v.parent0, v.parent1) := by
    intro k v hk
    rw [← sample_entries, List.getElem?_map, hk]
    rfl
  refine ⟨fun k => [1, 0, 7, 3, -3, 4].getD k 0, fun k => [1, 0, 7, 3, 3, 10].getD k 0, ?_, ?_, rfl, rfl⟩
  all_goals
    intro k v hk
    have h := hv k v hk
    have hl : k < 6 := (List.getElem?_eq_some_iff.1 h).1
    interval_cases k <;>
      (simp only [List.getElem?_cons_zero, List.getElem?_cons_succ, Option.some.injEq, Prod.mk.injEq] at h
       obtain ⟨h0, h1, h2, h3⟩ := h
       rw [← h0, ← h1, ← h2, ← h3]
       norm_num)

/-- The gradient the library computes for it is 4. -/
example : (gradientOf sample sampleX).map F64.val = some 4 := by decide +kernel

/-- C94_gradient_error and C94_nonneg apply to `x * x * 0.1` at `x = 0.3`: none of the products underflows. -/
example : ∃ g env adj, run [.leaf, .mul 0 0, .mulF 1 (lit (1 / 10))] (fun _ => lit (3 / 10)) = some (g, env) ∧
    accumulate g ⟨2, F64.zero⟩ = some adj ∧
    (∀ (i : ℕ) (v : Vertex) (a : F64), g[i]? = some v → adj[i]? = some a →
      NoUnderflow (v.partial0.val * a.val) ∧ NoUnderflow (v.partial1.val * a.val)) ∧
    ∀ v ∈ g, 0 ≤ v.partial0.val ∧ 0 ≤ v.partial1.val := by
  have h1 : (run [.leaf, .mul 0 0, .mulF 1 (lit (1 / 10))] (fun _ => lit (3 / 10))).isSome = true := by decide +kernel
  obtain ⟨⟨g, env⟩, hr⟩ := Option.isSome_iff_exists.1 h1
  have e : g = ((run [.leaf, .mul 0 0, .mulF 1 (lit (1 / 10))] (fun _ => lit (3 / 10))).getD ([], [])).1 := by rw [hr]; rfl
  have h2 : (accumulate ((run [.leaf, .mul 0 0, .mulF 1 (lit (1 / 10))] (fun _ => lit (3 / 10))).getD ([], [])).1
      ⟨2, F64.zero⟩).isSome = true := by decide +kernel
  obtain ⟨adj, ha⟩ := Option.isSome_iff_exists.1 h2
  have ea : adj = (accumulate ((run [.leaf, .mul 0 0, .mulF 1 (lit (1 / 10))] (fun _ => lit (3 / 10))).getD ([], [])).1
      ⟨2, F64.zero⟩).getD [] := by rw [ha]; rfl
  refine ⟨g, env, adj, hr, by rw [e]; exact ha, ?_, ?_⟩
  · have key : ∀ p ∈ g.zip adj, NoUnderflow (p.1.partial0.val * p.2.val) ∧ NoUnderflow (p.1.partial1.val * p.2.val) := by
      rw [ea, e]
      unfold NoUnderflow
      decide +kernel
    intro i v a hv ha'
    exact key (v, a) (List.mem_of_getElem? (i := i) (by rw [List.getElem?_zip_eq_some]; exact ⟨hv, ha'⟩))
  · rw [e]
    decide +kernel

end Verif.Float.AD
