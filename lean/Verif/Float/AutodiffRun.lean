import Verif.Float.AutodiffExact

/-! Helper lemmas: runs of arithmetic programs on doubles next to the exact runs. -/

namespace Verif.Float.AD

noncomputable def Var.toReal (v : Var) : Autodiff.Var := ⟨v.index, (v.value.val : ℝ)⟩

theorem Tape.snoc {g : Graph} (h : Tape g) {v : Vertex} (hv : v.Earlier g.length) : Tape (g ++ [v]) := by
  intro i w hw
  rcases Nat.lt_trichotomy i g.length with hi | hi | hi
  · rw [List.getElem?_append_left hi] at hw; exact h i w hw
  · subst hi; simp at hw; subst hw; exact hv
  · rw [List.getElem?_eq_none (by simp; omega)] at hw; cases hw

/-- One statement keeps the tape well formed. -/
theorem exec_tape {x : F64} {g g' : Graph} {env : List Var} {ins : Arith} {v : Var} (hw : Tape g)
    (he : ∀ w ∈ env, w.index < g.length) (h : ins.exec x g env = some (g', v)) :
    Tape g' ∧ g <+: g' ∧ v.index < g'.length := by
  have key : ∀ {i : ℕ} {w : Var}, env[i]? = some w → w.index < g.length := fun h => he _ (List.mem_of_getElem? h)
  have one : ∀ (u : Vertex) (y : F64), u.Earlier g.length → some (g ++ [u], (⟨g.length, y⟩ : Var)) = some (g', v) →
      Tape g' ∧ g <+: g' ∧ v.index < g'.length := by
    intro u y hu h
    simp only [Option.some.injEq, Prod.mk.injEq] at h
    obtain ⟨rfl, rfl⟩ := h
    exact ⟨hw.snoc hu, List.prefix_append _ _, by simp⟩
  cases ins <;> simp only [Arith.exec, Option.bind_eq_bind, Option.bind_eq_some_iff] at h
  case leaf => exact one _ _ ⟨.inr ⟨rfl, rfl⟩, .inr ⟨rfl, rfl⟩⟩ h
  case neg i =>
    obtain ⟨a, ha, h⟩ := h
    simp only [negV, mulVF, Option.bind_eq_bind, Option.bind_eq_some_iff] at h
    obtain ⟨y, -, h⟩ := h
    exact one _ y ⟨.inl (key ha), .inl (key ha)⟩ (by simpa [push] using h)
  case add i j =>
    obtain ⟨a, ha, b, hb, h⟩ := h
    simp only [addVV, Option.bind_eq_bind, Option.bind_eq_some_iff] at h
    obtain ⟨y, -, h⟩ := h
    exact one _ y ⟨.inl (key ha), .inl (key hb)⟩ (by simpa [push] using h)
  case mul i j =>
    obtain ⟨a, ha, b, hb, h⟩ := h
    simp only [mulVV, Option.bind_eq_bind, Option.bind_eq_some_iff] at h
    obtain ⟨y, -, h⟩ := h
    exact one _ y ⟨.inl (key ha), .inl (key hb)⟩ (by simpa [push] using h)
  case addF i c =>
    obtain ⟨a, ha, h⟩ := h
    simp only [addVF, Option.bind_eq_bind, Option.bind_eq_some_iff] at h
    obtain ⟨y, -, h⟩ := h
    exact one _ y ⟨.inl (key ha), .inl (key ha)⟩ (by simpa [push] using h)
  case subF i c =>
    obtain ⟨a, ha, h⟩ := h
    simp only [subVF, addVF, Option.bind_eq_bind, Option.bind_eq_some_iff] at h
    obtain ⟨y, -, h⟩ := h
    exact one _ y ⟨.inl (key ha), .inl (key ha)⟩ (by simpa [push] using h)
  case mulF i c =>
    obtain ⟨a, ha, h⟩ := h
    simp only [mulVF, Option.bind_eq_bind, Option.bind_eq_some_iff] at h
    obtain ⟨y, -, h⟩ := h
    exact one _ y ⟨.inl (key ha), .inl (key ha)⟩ (by simpa [push] using h)
  case sub i j =>
    obtain ⟨a, ha, b, hb, h⟩ := h
    simp only [subVV, negV, mulVF, addVV, push, Option.bind_eq_bind, Option.bind_eq_some_iff, Prod.exists,
      Option.some.injEq, Prod.mk.injEq] at h
    obtain ⟨g1, nb, ⟨y, -, -, -, ⟨rfl, rfl⟩, rfl, rfl⟩, z, -, -, -, ⟨rfl, rfl⟩, rfl, rfl⟩ := h
    refine ⟨(hw.snoc ⟨.inl (key hb), .inl (key hb)⟩).snoc ⟨.inl ?_, .inl ?_⟩, ?_, ?_⟩
    · have := key ha
      simp; omega
    · simp
    · exact (List.prefix_append _ _).trans (List.prefix_append _ _)
    · simp

theorem runFrom_cons {x : ℕ → F64} {g : Graph} {env : List Var} {ins : Arith} {rest : List Arith} {r : Graph × List Var} :
    runFrom x g env (ins :: rest) = some r ↔
      ∃ g' v, ins.exec (x env.length) g env = some (g', v) ∧ runFrom x g' (env ++ [v]) rest = some r := by
  simp only [runFrom, Option.bind_eq_bind, Option.bind_eq_some_iff, Prod.exists]

theorem runFrom_tape {x : ℕ → F64} {g gF : Graph} {env envF : List Var} {prog : List Arith} (hw : Tape g)
    (he : ∀ w ∈ env, w.index < g.length) (h : runFrom x g env prog = some (gF, envF)) :
    Tape gF ∧ (∀ w ∈ envF, w.index < gF.length) ∧ envF.length = env.length + prog.length := by
  induction prog generalizing g env with
  | nil =>
    simp only [runFrom, Option.some.injEq, Prod.mk.injEq] at h
    obtain ⟨rfl, rfl⟩ := h
    exact ⟨hw, he, by simp⟩
  | cons ins rest ih =>
    obtain ⟨g', v, h1, h2⟩ := runFrom_cons.1 h
    obtain ⟨t, p, hv⟩ := exec_tape hw he h1
    obtain ⟨a, b, c⟩ := ih t (fun w hw' => by
      rcases List.mem_append.1 hw' with h | h
      · exact (he w h).trans_le p.length_le
      · simp at h; subst h; exact hv) h2
    exact ⟨a, b, by simp at c ⊢; omega⟩

theorem toReal_snoc (f : ℝ → ℝ) (g : Graph) (v : Vertex) :
    (g ++ [v]).toReal f = g.toReal f ++ [⟨f v.partial0.val, f v.partial1.val, v.parent0, v.parent1⟩] := by
  simp [Graph.toReal]

theorem toReal_length (f : ℝ → ℝ) (g : Graph) : (g.toReal f).length = g.length := by simp [Graph.toReal]

theorem isInt_of_abs {y : F64} {q : ℚ} (h : toF64 q = some y) (hi : IsInt q) (hq : |q| ≤ 2 ^ 53) : y.val = q := by
  rw [toF64_some h, rnd_int hi hq]

theorem env_get {env : List Var} {i : ℕ} {a : Autodiff.Var} (h : (env.map Var.toReal)[i]? = some a) :
    ∃ b, env[i]? = some b ∧ a = b.toReal := by
  rw [List.getElem?_map, Option.map_eq_some_iff] at h
  obtain ⟨b, h1, h2⟩ := h
  exact ⟨b, h1, h2.symm⟩

/-- A statement on integers whose exact value is at most `2 ^ 53` in magnitude is executed exactly. -/
theorem exec_exact {x : F64} {g : Graph} {env : List Var} {ins : Arith} {G : Autodiff.Graph} {V : Autodiff.Var}
    (hx : IsInt x.val) (hc : ∀ c, ins.const = some c → IsInt c.val) (hv : ∀ w ∈ env, IsInt w.value.val)
    (hg : IntTape g) (h : ins.toInstr.exec (x.val : ℝ) (g.toReal id) (env.map Var.toReal) = some (G, V))
    (hb : |V.value| ≤ 2 ^ 53) (hbs : ∀ w ∈ env, |w.value.val| ≤ 2 ^ 53) :
    ∃ g' v, ins.exec x g env = some (g', v) ∧ G = g'.toReal id ∧ V = v.toReal ∧ IsInt v.value.val ∧ IntTape g' := by
  have key : ∀ {i : ℕ} {w : Var}, env[i]? = some w → IsInt w.value.val := fun h => hv _ (List.mem_of_getElem? h)
  have snoc : ∀ {g : Graph} {u : Vertex}, IntTape g → IsInt u.partial0.val → IsInt u.partial1.val → IntTape (g ++ [u]) := by
    intro g u hg h0 h1 w hw
    rcases List.mem_append.1 hw with h | h
    · exact hg w h
    · simp at h; subst h; exact ⟨h0, h1⟩
  have m1 : F64.one.neg.val = -1 := by simp [F64.one, F64.neg]
  cases ins <;> simp only [Arith.toInstr, Autodiff.Instr.exec, Option.bind_eq_bind, Option.bind_eq_some_iff] at h
  case leaf =>
    rw [Autodiff.var_eq] at h
    cases h
    refine ⟨_, _, rfl, ?_, ?_, hx, snoc hg isInt_zero isInt_zero⟩
    · rw [toReal_snoc]; simp [toReal_length, F64.zero]
    · simp [Var.toReal, toReal_length]
  case neg i =>
    obtain ⟨a, ha0, h⟩ := h
    obtain ⟨a, ha, rfl⟩ := env_get ha0
    rw [Autodiff.neg, Autodiff.binVF_eq] at h
    cases h
    simp only [Autodiff.VFOp.value, Var.toReal] at hb
    obtain ⟨y, y1, y2⟩ := toF64_int (q := a.value.val * F64.one.neg.val) ((key ha).mul isInt_one.neg) (by
      rw [m1]; exact_mod_cast hb)
    have ym : a.value.mul F64.one.neg = some y := y1
    refine ⟨g ++ [⟨F64.one.neg, F64.zero, a.index, a.index⟩], ⟨g.length, y⟩, ?_, ?_, ?_, ?_, snoc hg isInt_one.neg isInt_zero⟩
    · simp [Arith.exec, ha, negV, mulVF, ym, push]
    · rw [toReal_snoc]; simp [m1, F64.zero, Autodiff.VFOp.partials, Var.toReal]
    · simp [Var.toReal, toReal_length, y2, m1, Autodiff.VFOp.value]
    · rw [y2]; exact (key ha).mul isInt_one.neg
  case add i j =>
    obtain ⟨a, ha0, b, hb0, h⟩ := h
    obtain ⟨a, ha, rfl⟩ := env_get ha0
    obtain ⟨b, hb', rfl⟩ := env_get hb0
    rw [Autodiff.binVV_eq] at h
    cases h
    simp only [Autodiff.VVOp.value, Var.toReal] at hb
    obtain ⟨y, y1, y2⟩ := toF64_int (q := a.value.val + b.value.val) ((key ha).add (key hb')) (by exact_mod_cast hb)
    have ym : a.value.add b.value = some y := y1
    refine ⟨g ++ [⟨F64.one, F64.one, a.index, b.index⟩], ⟨g.length, y⟩, ?_, ?_, ?_, ?_, snoc hg isInt_one isInt_one⟩
    · simp [Arith.exec, ha, hb', addVV, ym, push]
    · rw [toReal_snoc]; simp [F64.one, Autodiff.VVOp.partials, Var.toReal]
    · simp [Var.toReal, toReal_length, y2, Autodiff.VVOp.value]
    · rw [y2]; exact (key ha).add (key hb')
  case mul i j =>
    obtain ⟨a, ha0, b, hb0, h⟩ := h
    obtain ⟨a, ha, rfl⟩ := env_get ha0
    obtain ⟨b, hb', rfl⟩ := env_get hb0
    rw [Autodiff.binVV_eq] at h
    cases h
    simp only [Autodiff.VVOp.value, Var.toReal] at hb
    obtain ⟨y, y1, y2⟩ := toF64_int (q := a.value.val * b.value.val) ((key ha).mul (key hb')) (by exact_mod_cast hb)
    have ym : a.value.mul b.value = some y := y1
    refine ⟨g ++ [⟨b.value, a.value, a.index, b.index⟩], ⟨g.length, y⟩, ?_, ?_, ?_, ?_, snoc hg (key hb') (key ha)⟩
    · simp [Arith.exec, ha, hb', mulVV, ym, push]
    · rw [toReal_snoc]; simp [Autodiff.VVOp.partials, Var.toReal]
    · simp [Var.toReal, toReal_length, y2, Autodiff.VVOp.value]
    · rw [y2]; exact (key ha).mul (key hb')
  case addF i c =>
    obtain ⟨a, ha0, h⟩ := h
    obtain ⟨a, ha, rfl⟩ := env_get ha0
    rw [Autodiff.binVF_eq] at h
    cases h
    simp only [Autodiff.VFOp.value, Var.toReal] at hb
    have ic := hc c rfl
    obtain ⟨y, y1, y2⟩ := toF64_int (q := a.value.val + c.val) ((key ha).add ic) (by exact_mod_cast hb)
    have ym : a.value.add c = some y := y1
    refine ⟨g ++ [⟨F64.one, F64.zero, a.index, a.index⟩], ⟨g.length, y⟩, ?_, ?_, ?_, ?_, snoc hg isInt_one isInt_zero⟩
    · simp [Arith.exec, ha, addVF, ym, push]
    · rw [toReal_snoc]; simp [F64.one, F64.zero, Autodiff.VFOp.partials, Var.toReal]
    · simp [Var.toReal, toReal_length, y2, Autodiff.VFOp.value]
    · rw [y2]; exact (key ha).add ic
  case subF i c =>
    obtain ⟨a, ha0, h⟩ := h
    obtain ⟨a, ha, rfl⟩ := env_get ha0
    rw [Autodiff.subVF, Autodiff.binVF_eq] at h
    cases h
    simp only [Autodiff.VFOp.value, Var.toReal] at hb
    have ic := hc c rfl
    obtain ⟨y, y1, y2⟩ := toF64_int (q := a.value.val + c.neg.val) ((key ha).add ic.neg) (by
      simp only [F64.neg]; exact_mod_cast hb)
    have ym : a.value.add c.neg = some y := y1
    refine ⟨g ++ [⟨F64.one, F64.zero, a.index, a.index⟩], ⟨g.length, y⟩, ?_, ?_, ?_, ?_, snoc hg isInt_one isInt_zero⟩
    · simp [Arith.exec, ha, subVF, addVF, ym, push]
    · rw [toReal_snoc]; simp [F64.one, F64.zero, Autodiff.VFOp.partials, Var.toReal]
    · simp [Var.toReal, toReal_length, y2, Autodiff.VFOp.value, F64.neg]
    · rw [y2]; exact (key ha).add ic.neg
  case mulF i c =>
    obtain ⟨a, ha0, h⟩ := h
    obtain ⟨a, ha, rfl⟩ := env_get ha0
    rw [Autodiff.binVF_eq] at h
    cases h
    simp only [Autodiff.VFOp.value, Var.toReal] at hb
    have ic := hc c rfl
    obtain ⟨y, y1, y2⟩ := toF64_int (q := a.value.val * c.val) ((key ha).mul ic) (by exact_mod_cast hb)
    have ym : a.value.mul c = some y := y1
    refine ⟨g ++ [⟨c, F64.zero, a.index, a.index⟩], ⟨g.length, y⟩, ?_, ?_, ?_, ?_, snoc hg ic isInt_zero⟩
    · simp [Arith.exec, ha, mulVF, ym, push]
    · rw [toReal_snoc]; simp [F64.zero, Autodiff.VFOp.partials, Var.toReal]
    · simp [Var.toReal, toReal_length, y2, Autodiff.VFOp.value]
    · rw [y2]; exact (key ha).mul ic
  case sub i j =>
    obtain ⟨a, ha0, b, hb0, h⟩ := h
    obtain ⟨a, ha, rfl⟩ := env_get ha0
    obtain ⟨b, hb', rfl⟩ := env_get hb0
    rw [Autodiff.subVV_eq, Autodiff.binVV_eq] at h
    cases h
    simp only [Autodiff.VVOp.value, Var.toReal] at hb
    obtain ⟨y, y1, y2⟩ := toF64_int (q := b.value.val * F64.one.neg.val) ((key hb').mul isInt_one.neg) (by
      rw [m1, abs_mul]
      have := hbs b (List.mem_of_getElem? hb')
      simpa using this)
    have ym : b.value.mul F64.one.neg = some y := y1
    obtain ⟨z, z1, z2⟩ := toF64_int (q := a.value.val + y.val) ((key ha).add (by rw [y2]; exact (key hb').mul isInt_one.neg)) (by
      rw [y2, m1]; exact_mod_cast hb)
    have zm : a.value.add y = some z := z1
    refine ⟨g ++ [⟨F64.one.neg, F64.zero, b.index, b.index⟩] ++ [⟨F64.one, F64.one, a.index, g.length⟩], ⟨g.length + 1, z⟩, ?_, ?_, ?_, ?_,
      snoc (snoc hg isInt_one.neg isInt_zero) isInt_one isInt_one⟩
    · simp [Arith.exec, ha, hb', subVV, negV, mulVF, addVV, ym, zm, push]
    · rw [toReal_snoc, toReal_snoc]; simp [F64.neg, F64.one, F64.zero, Autodiff.VVOp.partials, Var.toReal, toReal_length]
    · simp [Var.toReal, toReal_length, y2, z2, m1, Autodiff.VVOp.value]
    · rw [z2, y2]; exact (key ha).add ((key hb').mul isInt_one.neg)

theorem runFrom_exact {x : ℕ → F64} {prog : List Arith} {g : Graph} {env : List Var} {G : Autodiff.Graph}
    {E : List Autodiff.Var} (hw : Autodiff.WF (g.toReal id)) (he : ∀ w ∈ env, w.index < g.length)
    (hx : ∀ i, IsInt (x i).val) (hc : ∀ ins ∈ prog, ∀ c, ins.const = some c → IsInt c.val)
    (hv : ∀ w ∈ env, IsInt w.value.val) (hg : IntTape g)
    (h : Autodiff.runFrom (fun i => ((x i).val : ℝ)) (g.toReal id) (env.map Var.toReal) (prog.map Arith.toInstr) = some (G, E))
    (hb : ∀ V ∈ E, |V.value| ≤ 2 ^ 53) :
    ∃ g' env', runFrom x g env prog = some (g', env') ∧ G = g'.toReal id ∧ E = env'.map Var.toReal ∧ IntTape g' := by
  induction prog generalizing g env with
  | nil =>
    simp only [List.map_nil, Autodiff.runFrom, Option.some.injEq, Prod.mk.injEq] at h
    exact ⟨g, env, rfl, h.1.symm, h.2.symm, hg⟩
  | cons ins rest ih =>
    simp only [List.map_cons] at h
    obtain ⟨G', V, h1, h2⟩ := Autodiff.runFrom_cons.1 h
    have heR : ∀ u ∈ env.map Var.toReal, u.index < (g.toReal id).length := by
      intro u hu
      obtain ⟨w, hw', rfl⟩ := List.mem_map.1 hu
      rw [toReal_length]
      exact he w hw'
    obtain ⟨⟨tl, e1, -⟩, hw', hi⟩ := Autodiff.exec_grows hw heR h1
    have hpre := (Autodiff.runFrom_grows hw' (env := env.map Var.toReal ++ [V]) (by
      intro u hu
      rcases List.mem_append.1 hu with hu | hu
      · have := heR u hu
        rw [e1]; simp; omega
      · simp at hu; subst hu; exact hi) h2).2.1
    have hin : ∀ u ∈ env.map Var.toReal ++ [V], |u.value| ≤ 2 ^ 53 := fun u hu => hb u (hpre.mem hu)
    simp only [List.length_map] at h1
    obtain ⟨g', v, q1, rfl, rfl, q4, q5⟩ := exec_exact (hx env.length) (hc ins (by simp)) hv hg h1 (hin V (by simp)) (by
      intro w hw''
      have := hin w.toReal (List.mem_append_left _ (List.mem_map_of_mem hw''))
      simp only [Var.toReal] at this
      exact_mod_cast this)
    obtain ⟨gF, envF, r1, r2, r3, r4⟩ := ih (g := g') (env := env ++ [v]) hw' (by
      intro w hw''
      have hl : g.length ≤ g'.length := by
        have := congrArg List.length e1
        simp [toReal_length] at this
        omega
      rcases List.mem_append.1 hw'' with h | h
      · exact (he w h).trans_le hl
      · simp at h; subst h
        simpa [toReal_length, Var.toReal] using hi) (fun i hi => hc i (by simp [hi])) (by
      intro w hw''
      rcases List.mem_append.1 hw'' with h | h
      · exact hv w h
      · simp at h; subst h; exact q4) q5 (by simpa using h2)
    exact ⟨gF, envF, runFrom_cons.2 ⟨g', v, q1, r1⟩, r2, r3, r4⟩

end Verif.Float.AD
