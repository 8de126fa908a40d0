import Verif.Autodiff.Run
import Mathlib.Analysis.Complex.ExponentialBounds

/-!
# C26–C31: automatic differentiation
-/

namespace Verif.Autodiff

open Finset

/-! ## C26 -/

theorem exec_isSome {x : ℝ} {g : Graph} {env : List Var} {ins : Instr} (h : ∀ i ∈ ins.refs, i < env.length)
    (h1 : ins ≠ .sum []) (h2 : ins ≠ .prod []) : ∃ r, ins.exec x g env = some r := by
  have get : ∀ i, i < env.length → ∃ v, env[i]? = some v := fun i hi => ⟨env[i], by simp⟩
  have red : ∀ op g acc (bs : List Var), ∃ r, reduceFrom (binVV op) g acc bs = some r := by
    intro op g acc bs
    induction bs generalizing g acc with
    | nil => exact ⟨_, rfl⟩
    | cons b bs ih => rw [reduceFrom, binVV_eq]; exact ih _ _
  have mp : ∀ l : List ℕ, (∀ i ∈ l, i < env.length) → ∃ vs, l.mapM (fun i => env[i]?) = some vs ∧
      vs.length = l.length := by
    intro l hl
    induction l with
    | nil => exact ⟨[], rfl, rfl⟩
    | cons i l ih =>
      obtain ⟨v, hv⟩ := get i (hl i (by simp))
      obtain ⟨vs, hvs, hlen⟩ := ih (fun j hj => hl j (by simp [hj]))
      exact ⟨v :: vs, by simp [List.mapM_cons, hv, hvs], by simp [hlen]⟩
  cases ins <;> simp only [Instr.refs, List.mem_cons, List.not_mem_nil, or_false, forall_eq_or_imp, forall_eq] at h
  case leaf => exact ⟨_, rfl⟩
  case vv op i j =>
    obtain ⟨a, ha⟩ := get i h.1
    obtain ⟨b, hb⟩ := get j h.2
    simp only [Instr.exec, ha, hb]; exact ⟨_, rfl⟩
  case sub i j =>
    obtain ⟨a, ha⟩ := get i h.1
    obtain ⟨b, hb⟩ := get j h.2
    simp only [Instr.exec, ha, hb]; exact ⟨_, rfl⟩
  case div i j =>
    obtain ⟨a, ha⟩ := get i h.1
    obtain ⟨b, hb⟩ := get j h.2
    simp only [Instr.exec, ha, hb]; exact ⟨_, rfl⟩
  case sum l =>
    obtain ⟨vs, hvs, hlen⟩ := mp l h
    simp only [Instr.exec, hvs, Option.bind_eq_bind, Option.bind_some]
    cases vs with
    | nil => simp only [List.length_nil] at hlen; exact absurd (by rw [List.length_eq_zero_iff.1 hlen.symm]) h1
    | cons v vs => exact red _ _ _ _
  case prod l =>
    obtain ⟨vs, hvs, hlen⟩ := mp l h
    simp only [Instr.exec, hvs, Option.bind_eq_bind, Option.bind_some]
    cases vs with
    | nil => simp only [List.length_nil] at hlen; exact absurd (by rw [List.length_eq_zero_iff.1 hlen.symm]) h2
    | cons v vs => exact red _ _ _ _
  all_goals
    obtain ⟨a, ha⟩ := get _ h
    simp only [Instr.exec, ha]; exact ⟨_, rfl⟩

theorem runFrom_isSome {x : ℕ → ℝ} {g : Graph} {env : List Var} {prog : List Instr}
    (h : ∀ (k : ℕ) (ins : Instr), prog[k]? = some ins →
      (∀ i ∈ ins.refs, i < env.length + k) ∧ ins ≠ .sum [] ∧ ins ≠ .prod []) :
    ∃ r, runFrom x g env prog = some r := by
  induction prog generalizing g env with
  | nil => exact ⟨_, rfl⟩
  | cons ins rest ih =>
    obtain ⟨a, b, c⟩ := h 0 ins (by simp)
    obtain ⟨⟨g', v⟩, hr⟩ := exec_isSome (x := x env.length) (g := g) (env := env) (by simpa using a) b c
    obtain ⟨r, hr'⟩ := ih (g := g') (env := env ++ [v]) (fun k ins hk => by
      have := h (k + 1) ins (by simpa using hk)
      refine ⟨fun i hi => ?_, this.2⟩
      have := this.1 i hi
      simp; omega)
    exact ⟨r, runFrom_cons.2 ⟨g', v, hr, hr'⟩⟩

/-- C26: every well-scoped client program runs without panicking and yields one variable per statement. -/
theorem C26_runs (prog : List Instr) (hs : Scoped prog) (x : ℕ → ℝ) :
    ∃ g env, run prog x = some (g, env) ∧ env.length = prog.length := by
  obtain ⟨⟨g, env⟩, h⟩ := runFrom_isSome (x := x) (g := []) (env := []) (prog := prog) (by simpa [Scoped] using hs)
  exact ⟨g, env, h, by simpa using (runFrom_grows WF.nil he_nil h).2.2.1⟩

/-- An instance: `z = x * y + sin x / y`. -/
example (x : ℕ → ℝ) := C26_runs [.leaf, .leaf, .vv .mul 0 1, .un .sin 0, .div 3 1, .vv .add 2 4] (by
  intro k ins hk
  match k, hk with
  | 0, hk => cases hk; simp [Instr.refs]
  | 1, hk => cases hk; simp [Instr.refs]
  | 2, hk => cases hk; simp [Instr.refs]
  | 3, hk => cases hk; simp [Instr.refs]
  | 4, hk => cases hk; simp [Instr.refs]
  | 5, hk => cases hk; simp [Instr.refs]
  | (n + 6), hk => simp at hk) x

/-- C26: for every client program (any length, any sharing of subexpressions), every point `x` at which each operator
is applied inside its domain of differentiability, every statement `k` with result `z`, and every input `xp` created by
statement `p`: `z.accumulate()` succeeds, and `.wrt(&xp)` is the partial derivative, with respect to that input, of the
function that statement `k` denotes. The value stored in `z` is the value of that function. -/
theorem C26_gradient_exact (prog : List Instr) (x : ℕ → ℝ) (g : Graph) (env : List Var)
    (hrun : run prog x = some (g, env)) (hd : Differentiable prog x) (k : ℕ) (z : Var) (hz : env[k]? = some z)
    (p : ℕ) (hp : prog[p]? = some .leaf) (xp : Var) (hxp : env[p]? = some xp) :
    z.value = denote prog x k ∧
      ∃ adj d, accumulate g z = some adj ∧ wrt adj xp = some d ∧
        HasDerivAt (fun t => denote prog (Function.update x p t) k) d (x p) := by
  have hg := runFrom_grows WF.nil he_nil hrun
  have ht := runFrom_track (x := x) (p := p) (L := xp.index) (vals := fun _ => []) WF.nil he_nil hrun (by simp)
    ⟨xp, hxp, rfl⟩ (Or.inr ⟨p, by simp, hp⟩) (by simp) hd k z hz
  have hzi : z.index < g.length := hg.2.2.2.2.1 z (List.mem_of_getElem? hz)
  have hxi : xp.index < g.length := hg.2.2.2.2.1 xp (List.mem_of_getElem? hxp)
  obtain ⟨adj, ha, hl, hv⟩ := accumulate_spec hg.2.2.2.1 z hzi
  refine ⟨?_, adj, adj.getD xp.index 0, ha, ?_, ?_⟩
  · simpa [denote] using ht.2.1
  · rw [wrt, List.getD_eq_getElem?_getD, List.getElem?_eq_getElem (by omega)]; rfl
  · rw [hv _ hxi]; exact ht.2.2

/-- An instance: the derivative of `z = x * y + sin x / y` in `x` at `x = 2`, `y = 3`. -/
example := C26_gradient_exact [.leaf, .leaf, .vv .mul 0 1, .un .sin 0, .div 3 1, .vv .add 2 4] (fun i => i + 2) _ _ rfl (by
  intro k ins hk
  match k, hk with
  | 0, hk => cases hk; trivial
  | 1, hk => cases hk; trivial
  | 2, hk => cases hk; trivial
  | 3, hk => cases hk; trivial
  | 4, hk => cases hk; simp only [Instr.Dom, denote, denoteFrom]; norm_num [Instr.denote]
  | 5, hk => cases hk; trivial
  | (n + 6), hk => simp at hk) 5 _ rfl 0 rfl _ rfl

theorem reduce_value (op : VVOp) {g g' : Graph} {acc v : Var} {bs : List Var}
    (h : reduceFrom (binVV op) g acc bs = some (g', v)) :
    v.value = bs.foldl (fun y b => op.math y b.value) acc.value := by
  induction bs generalizing g acc with
  | nil => simp only [reduceFrom, Option.some.injEq, Prod.mk.injEq] at h; rw [h.2]; rfl
  | cons b bs ih =>
    rw [reduceFrom, binVV_eq] at h
    rw [ih h, List.foldl_cons, VVOp.value_eq]

theorem exec_value {x : ℝ} {g g' : Graph} {env : List Var} {ins : Instr} {v : Var} {vals : ℕ → ℝ}
    (hv : ∀ i u, env[i]? = some u → u.value = vals i) (h : ins.exec x g env = some (g', v)) :
    v.value = ins.denote x vals := by
  cases ins <;> simp only [Instr.exec, Option.bind_eq_bind, Option.bind_eq_some_iff] at h
  case leaf => cases h; rfl
  case un op i => obtain ⟨a, ha, h⟩ := h; cases h; simp [Instr.denote, UnOp.value_eq, hv i a ha]
  case neg i => obtain ⟨a, ha, h⟩ := h; cases h; simp [Instr.denote, VFOp.value, hv i a ha]
  case vv op i j =>
    obtain ⟨a, ha, b, hb, h⟩ := h; cases h; simp [Instr.denote, VVOp.value_eq, hv i a ha, hv j b hb]
  case sub i j =>
    obtain ⟨a, ha, b, hb, h⟩ := h; cases h
    simp [Instr.denote, VVOp.value, VFOp.value, hv i a ha, hv j b hb, sub_eq_add_neg]
  case div i j =>
    obtain ⟨a, ha, b, hb, h⟩ := h; cases h
    simp [Instr.denote, VVOp.value, UnOp.value, hv i a ha, hv j b hb, div_eq_mul_inv]
  case vf op i c => obtain ⟨a, ha, h⟩ := h; cases h; simp [Instr.denote, VFOp.value_eq, hv i a ha]
  case subF i c => obtain ⟨a, ha, h⟩ := h; cases h; simp [Instr.denote, VFOp.value, hv i a ha, sub_eq_add_neg]
  case divF i c => obtain ⟨a, ha, h⟩ := h; cases h; simp [Instr.denote, VFOp.value, hv i a ha, div_eq_mul_inv]
  case powi i n => obtain ⟨a, ha, h⟩ := h; cases h; simp [Instr.denote, hv i a ha]
  case fv op c i => obtain ⟨a, ha, h⟩ := h; cases h; simp [Instr.denote, FVOp.value_eq, hv i a ha]
  case fAdd c i => obtain ⟨a, ha, h⟩ := h; cases h; simp [Instr.denote, VFOp.value, hv i a ha, add_comm]
  case fMul c i => obtain ⟨a, ha, h⟩ := h; cases h; simp [Instr.denote, VFOp.value, hv i a ha, mul_comm]
  case sum l =>
    obtain ⟨vs, hvs, h⟩ := h
    cases mapM_get hvs with
    | nil => simp [sumV] at h
    | @cons i a l vs h1 h2 =>
      have hmap : vs.map Var.value = l.map vals := by
        clear hvs h
        induction h2 with
        | nil => rfl
        | cons h _ ih => simp [hv _ _ h, ih]
      have e : ∀ (bs : List Var) (y : ℝ),
          bs.foldl (fun y b => VVOp.math .add y b.value) y = y + (bs.map Var.value).sum := by
        intro bs
        induction bs with
        | nil => simp
        | cons b bs ih => intro y; simp only [List.foldl_cons]; rw [ih]; simp [VVOp.math, add_assoc]
      rw [reduce_value .add h, e, hmap, hv i a h1]; simp [Instr.denote]
  case prod l =>
    obtain ⟨vs, hvs, h⟩ := h
    cases mapM_get hvs with
    | nil => simp [prodV] at h
    | @cons i a l vs h1 h2 =>
      have hmap : vs.map Var.value = l.map vals := by
        clear hvs h
        induction h2 with
        | nil => rfl
        | cons h _ ih => simp [hv _ _ h, ih]
      have e : ∀ (bs : List Var) (y : ℝ),
          bs.foldl (fun y b => VVOp.math .mul y b.value) y = y * (bs.map Var.value).prod := by
        intro bs
        induction bs with
        | nil => simp
        | cons b bs ih => intro y; simp only [List.foldl_cons]; rw [ih]; simp [VVOp.math, mul_assoc]
      rw [reduce_value .mul h, e, hmap, hv i a h1]; simp [Instr.denote]

/-- C26: without any domain condition, every variable carries the value its statement denotes. -/
theorem C26_values (prog : List Instr) (x : ℕ → ℝ) (g : Graph) (env : List Var) (hrun : run prog x = some (g, env))
    (k : ℕ) (z : Var) (hz : env[k]? = some z) : z.value = denote prog x k := by
  have gen : ∀ (prog : List Instr) (g0 : Graph) (env0 : List Var) (vals : List ℝ),
      runFrom x g0 env0 prog = some (g, env) → vals.length = env0.length →
      (∀ k z, env0[k]? = some z → z.value = vals.getD k 0) →
      ∀ k z, env[k]? = some z → z.value = (denoteFrom x vals prog).getD k 0 := by
    intro prog
    induction prog with
    | nil => intro g0 env0 vals h _ hv; simp only [runFrom, Option.some.injEq, Prod.mk.injEq] at h; rw [← h.2]; exact hv
    | cons ins rest ih =>
      intro g0 env0 vals h hl hv
      obtain ⟨g', v, h1, h2⟩ := runFrom_cons.1 h
      refine ih g' (env0 ++ [v]) _ h2 (by simp [hl]) ?_
      intro k z hk
      by_cases hk' : k < env0.length
      · rw [List.getElem?_append_left hk'] at hk
        rw [hv k z hk]
        exact (getD_of_prefix (List.prefix_append _ _) (by omega)).symm
      · have hke : k = env0.length := by
          have := (List.getElem?_eq_some_iff.1 hk).1
          simp at this; omega
        subst hke
        simp only [List.getElem?_append_right le_rfl, Nat.sub_self, List.getElem?_cons_zero, Option.some.injEq] at hk
        subst hk
        rw [exec_value hv h1, ← hl]
        simp
  exact gen prog [] [] [] hrun rfl (by simp) k z hz

example := C26_values [.leaf, .leaf, .vv .mul 0 1, .un .sin 0, .div 3 1, .vv .add 2 4] (fun i => i + 2) _ _ rfl 5 _ rfl

/-- The function called `cbrt` in the specification is the real cube root. -/
theorem C26_cbrt (x : ℝ) : UnOp.math .cbrt x ^ 3 = x := by
  simp only [UnOp.math, Autodiff.cbrt]
  have key : ∀ y : ℝ, 0 ≤ y → (y ^ (1 / 3 : ℝ)) ^ 3 = y := by
    intro y hy
    rw [← Real.rpow_natCast, ← Real.rpow_mul hy]; norm_num
  split_ifs with h
  · exact key x h
  · have := key (-x) (by linarith)
    nlinarith

/-- The hypotheses are met: `z = x * y + sin x / y` at `x = 2`, `y = 3`. -/
example : ∃ g env, run [.leaf, .leaf, .vv .mul 0 1, .un .sin 0, .div 3 1, .vv .add 2 4] (fun i => i + 2) = some (g, env) ∧
    Differentiable [.leaf, .leaf, .vv .mul 0 1, .un .sin 0, .div 3 1, .vv .add 2 4] (fun i => i + 2) := by
  refine ⟨_, _, rfl, ?_⟩
  intro k ins hk
  match k, hk with
  | 0, hk => cases hk; trivial
  | 1, hk => cases hk; trivial
  | 2, hk => cases hk; trivial
  | 3, hk => cases hk; trivial
  | 4, hk => cases hk; simp only [Instr.Dom, denote, denoteFrom]; norm_num [Instr.denote]
  | 5, hk => cases hk; trivial
  | (n + 6), hk => simp at hk

/-! ## C27 -/

/-- C27: the tape of every run: one vertex count per statement as specified, every parent link goes to an earlier vertex
or is a self link with derivative 0, every variable is on the tape, and `accumulate` of every variable succeeds with
exactly one adjoint per vertex. -/
theorem C27_tape (prog : List Instr) (x : ℕ → ℝ) (g : Graph) (env : List Var) (hrun : run prog x = some (g, env)) :
    g.length = (prog.map Instr.vertices).sum ∧ env.length = prog.length ∧
      (∀ (i : ℕ) (v : Vertex), g[i]? = some v →
        v.parent0 ≤ i ∧ v.parent1 ≤ i ∧ (v.parent0 = i → v.partial0 = 0) ∧ (v.parent1 = i → v.partial1 = 0)) ∧
      (∀ z ∈ env, z.index < g.length ∧ ∃ adj, accumulate g z = some adj ∧ adj.length = g.length) := by
  obtain ⟨-, -, h1, h2, h3, h4⟩ := runFrom_grows WF.nil he_nil hrun
  refine ⟨by simpa using h4, by simpa using h1, fun i v hv => ?_, fun z hz => ?_⟩
  · have := h2 i v hv
    obtain ⟨a, b⟩ := this
    refine ⟨by omega, by omega, fun h => ?_, fun h => ?_⟩
    · rcases a with a | a
      · omega
      · exact a.2
    · rcases b with b | b
      · omega
      · exact b.2
  · obtain ⟨adj, ha, hl, -⟩ := accumulate_spec h2 z (h3 z hz)
    exact ⟨h3 z hz, adj, ha, hl⟩

example := C27_tape [.leaf, .leaf, .div 0 1, .sum [0, 1, 2]] (fun _ => 1) _ _ rfl

theorem runFrom_append {x : ℕ → ℝ} {g : Graph} {env : List Var} {p q : List Instr} {r : Graph × List Var} :
    runFrom x g env (p ++ q) = some r ↔
      ∃ g' env', runFrom x g env p = some (g', env') ∧ runFrom x g' env' q = some r := by
  induction p generalizing g env with
  | nil => simp [runFrom]
  | cons ins p ih =>
    rw [List.cons_append, runFrom_cons]
    simp only [runFrom_cons, ih]
    constructor
    · rintro ⟨g1, v, h1, g2, e2, h2, h3⟩; exact ⟨g2, e2, ⟨g1, v, h1, h2⟩, h3⟩
    · rintro ⟨g2, e2, ⟨g1, v, h1, h2⟩, h3⟩; exact ⟨g1, v, h1, g2, e2, h2, h3⟩

/-- C27: recording more statements never changes the vertices or variables recorded before. -/
theorem C27_append_only (prog more : List Instr) (x : ℕ → ℝ) (g' : Graph) (env' : List Var)
    (h : run (prog ++ more) x = some (g', env')) :
    ∃ g env, run prog x = some (g, env) ∧ g <+: g' ∧ env <+: env' := by
  obtain ⟨g, env, h1, h2⟩ := runFrom_append.1 h
  have h3 := runFrom_grows WF.nil he_nil h1
  have h4 := runFrom_grows h3.2.2.2.1 h3.2.2.2.2.1 h2
  exact ⟨g, env, h1, h4.1, h4.2.1⟩

example : ∃ g env, run ([.leaf, .leaf] ++ [.div 0 1, .sum [0, 1, 2]]) (fun _ => 1) = some (g, env) ∧ g.length = 6 :=
  ⟨_, _, rfl, rfl⟩

/-! ## C28 -/

theorem tangents_unit_lt (g : Graph) (i j : ℕ) (hji : j < i) :
    (tangents (fun k => if k = i then 1 else 0) g).getD j 0 = 0 := by
  induction j using Nat.strong_induction_on with
  | _ j ih =>
    rcases hv : g[j]? with _ | v
    · rw [List.getD_eq_getElem?_getD, List.getElem?_eq_none]; rfl
      rw [tangents_length]; exact List.getElem?_eq_none_iff.1 hv
    · rw [tangents_eq _ g hv, if_neg (by omega)]
      have z : ∀ q, (if q < j then (tangents (fun k => if k = i then (1 : ℝ) else 0) g).getD q 0 else 0) = 0 := by
        intro q
        split_ifs with h
        · exact ih q h (by omega)
        · rfl
      rw [z, z]; simp

theorem tangents_unit_self (g : Graph) (i : ℕ) (hi : i < g.length) :
    (tangents (fun k => if k = i then 1 else 0) g).getD i 0 = 1 := by
  rw [tangents_eq _ g (List.getElem?_eq_getElem hi), if_pos rfl]
  have z : ∀ q, (if q < i then (tangents (fun k => if k = i then (1 : ℝ) else 0) g).getD q 0 else 0) = 0 := by
    intro q
    split_ifs with h
    · exact tangents_unit_lt g i q h
    · rfl
  rw [z, z]; simp

theorem tangents_unit_indep (g : Graph) (i j : ℕ) (h : ¬ DependsOn g i j) :
    (tangents (fun k => if k = i then 1 else 0) g).getD j 0 = 0 := by
  induction j using Nat.strong_induction_on with
  | _ j ih =>
    rcases hv : g[j]? with _ | v
    · rw [List.getD_eq_getElem?_getD, List.getElem?_eq_none]; rfl
      rw [tangents_length]; exact List.getElem?_eq_none_iff.1 hv
    · rw [tangents_eq _ g hv, if_neg (by rintro rfl; exact h (.refl))]
      have z0 : (if v.parent0 < j then (tangents (fun k => if k = i then (1 : ℝ) else 0) g).getD v.parent0 0 else 0) = 0 := by
        split_ifs with hq
        · exact ih _ hq (fun h' => h (.parent0 hv h'))
        · rfl
      have z1 : (if v.parent1 < j then (tangents (fun k => if k = i then (1 : ℝ) else 0) g).getD v.parent1 0 else 0) = 0 := by
        split_ifs with hq
        · exact ih _ hq (fun h' => h (.parent1 hv h'))
        · rfl
      rw [z0, z1]; simp

theorem getElem?_of_getD {adj : List ℝ} {i : ℕ} (h : i < adj.length) {x : ℝ} (hx : adj.getD i 0 = x) :
    adj[i]? = some x := by
  rw [List.getElem?_eq_getElem h, ← hx, List.getD_eq_getElem?_getD, List.getElem?_eq_getElem h]; rfl

/-- C28: `z.accumulate()` is 1 at `z`, 0 at every vertex recorded after `z`, and 0 at every vertex `z` does not depend
on. -/
theorem C28_unrelated_zero (prog : List Instr) (x : ℕ → ℝ) (g : Graph) (env : List Var)
    (hrun : run prog x = some (g, env)) (z : Var) (hz : z ∈ env) :
    ∃ adj, accumulate g z = some adj ∧ adj[z.index]? = some 1 ∧
      (∀ i, z.index < i → i < g.length → adj[i]? = some 0) ∧
      (∀ i, i < g.length → ¬ DependsOn g i z.index → adj[i]? = some 0) := by
  obtain ⟨-, -, -, hw, h3, -⟩ := runFrom_grows WF.nil he_nil hrun
  obtain ⟨adj, ha, hl, hv⟩ := accumulate_spec hw z (h3 z hz)
  refine ⟨adj, ha, ?_, fun i hi hi' => ?_, fun i hi h => ?_⟩
  · exact getElem?_of_getD (by rw [hl]; exact h3 z hz) (by rw [hv _ (h3 z hz), tangents_unit_self g _ (h3 z hz)])
  · exact getElem?_of_getD (by omega) (by rw [hv _ hi', tangents_unit_lt g _ _ hi])
  · exact getElem?_of_getD (by omega) (by rw [hv _ hi, tangents_unit_indep g _ _ h])

example := C28_unrelated_zero [.leaf, .leaf, .vv .mul 0 0] (fun _ => 5) _ _ rfl _ (.tail _ (.tail _ (.head _)))

/-- C28: derivatives of `z` are unaffected by whatever is recorded after `z`. -/
theorem C28_later_operations (prog more : List Instr) (x : ℕ → ℝ) (g g' : Graph) (env env' : List Var)
    (h : run prog x = some (g, env)) (h' : run (prog ++ more) x = some (g', env')) (z : Var) (hz : z ∈ env) :
    ∃ adj adj', accumulate g z = some adj ∧ accumulate g' z = some adj' ∧ adj <+: adj' := by
  obtain ⟨g1, env1, h1, h2⟩ := runFrom_append.1 h'
  rw [show runFrom x [] [] prog = run prog x from rfl, h] at h1
  cases h1
  obtain ⟨-, -, -, hw, h3, -⟩ := runFrom_grows WF.nil he_nil h
  obtain ⟨⟨tl, htl⟩, -, -, hw', -, -⟩ := runFrom_grows hw h3 h2
  subst htl
  have hzi := h3 z hz
  have hzi' : z.index < (g ++ tl).length := by simp; omega
  obtain ⟨adj, ha, hl, hv⟩ := accumulate_spec hw z hzi
  obtain ⟨adj', ha', hl', hv'⟩ := accumulate_spec hw' z hzi'
  refine ⟨adj, adj', ha, ha', ?_⟩
  rw [List.prefix_iff_getElem?]
  intro i hi
  have hi2 : i < (g ++ tl).length := by simp; omega
  rw [getElem?_of_getD (adj := adj') (i := i) (by omega) rfl, hv' i hi2, tangents_append_lt _ _ _ hzi,
    ← hv i (by omega), List.getD_eq_getElem?_getD, List.getElem?_eq_getElem hi]
  rfl

/-- An instance: after `y = x * x`, two further operations. -/
example := C28_later_operations [.leaf, .vv .mul 0 0] [.un .sin 0, .vv .add 1 2] (fun _ => 5) _ _ _ _ rfl rfl _
  (.tail _ (.head _))

/-- C28: after `Graph::zero()`, `z.accumulate()` is the seed: 1 at `z` and 0 everywhere else. -/
theorem C28_zero (prog : List Instr) (x : ℕ → ℝ) (g : Graph) (env : List Var) (hrun : run prog x = some (g, env))
    (z : Var) (hz : z ∈ env) :
    ∃ adj, accumulate (zero g) z = some adj ∧ adj.length = g.length ∧
      ∀ i, i < g.length → adj[i]? = some (if i = z.index then 1 else 0) := by
  obtain ⟨-, -, -, hw, h3, -⟩ := runFrom_grows WF.nil he_nil hrun
  have hlen : (zero g).length = g.length := by simp [zero]
  have hw0 : WF (zero g) := by
    intro i v hv
    simp only [zero, List.getElem?_map, Option.map_eq_some_iff] at hv
    obtain ⟨u, hu, rfl⟩ := hv
    obtain ⟨a, b⟩ := hw i u hu
    exact ⟨a.imp id (fun h => ⟨h.1, rfl⟩), b.imp id (fun h => ⟨h.1, rfl⟩)⟩
  obtain ⟨adj, ha, hl, hv⟩ := accumulate_spec hw0 z (by rw [hlen]; exact h3 z hz)
  refine ⟨adj, ha, by omega, fun i hi => getElem?_of_getD (by omega) ?_⟩
  rw [hv i (by omega)]
  have hzv : (zero g)[z.index]? = some { g[z.index]'(h3 z hz) with partial0 := 0, partial1 := 0 } := by
    simp [zero, h3 z hz]
  rw [tangents_eq _ _ hzv]
  simp [eq_comm]

example : ∃ g env, run [.leaf, .leaf, .vv .mul 0 0] (fun _ => 5) = some (g, env) ∧ ¬ DependsOn g 1 2 := by
  refine ⟨_, _, rfl, ?_⟩
  intro h
  have gen : ∀ j, DependsOn ([⟨0, 0, 0, 0⟩, ⟨0, 0, 1, 1⟩, ⟨5, 5, 0, 0⟩] : Graph) 1 j → j = 1 := by
    intro j hj
    induction hj with
    | refl => rfl
    | @parent0 j v h _ ih =>
      match j, h with
      | 0, h => cases h; simp at ih
      | 1, _ => rfl
      | 2, h => cases h; simp at ih
      | (n + 3), h => simp at h
    | @parent1 j v h _ ih =>
      match j, h with
      | 0, h => cases h; simp at ih
      | 1, _ => rfl
      | 2, h => cases h; simp at ih
      | (n + 3), h => simp at h
  exact absurd (gen 2 h) (by norm_num)

/-! ## C29 -/

/-- The derivative accumulated for a single unary operator on an input is the recorded partial. -/
theorem un_grad (op : UnOp) (x : ℝ) : ∃ g x0 z adj, run [.leaf, .un op 0] (fun _ => x) = some (g, [x0, z]) ∧
    accumulate g z = some adj ∧ wrt adj x0 = some (op.partial x) := by
  refine ⟨_, _, _, [op.partial x, 1], rfl, ?_, ?_⟩
  · simp [accumulate, sweep, addAt]
  · rfl

theorem fv_grad (op : FVOp) (c x : ℝ) : ∃ g x0 z adj, run [.leaf, .fv op c 0] (fun _ => x) = some (g, [x0, z]) ∧
    accumulate g z = some adj ∧ wrt adj x0 = some ((op.partials c x).1 + (op.partials c x).2) := by
  refine ⟨_, _, _, [(op.partials c x).1 + (op.partials c x).2, 1], rfl, ?_, ?_⟩
  · simp [accumulate, sweep, addAt]
  · rfl

theorem vv_grad (op : VVOp) (x y : ℝ) : ∃ g x0 x1 z adj,
    run [.leaf, .leaf, .vv op 0 1] (fun i => if i = 0 then x else y) = some (g, [x0, x1, z]) ∧
    accumulate g z = some adj ∧ wrt adj x0 = some (op.partials x y).1 ∧ wrt adj x1 = some (op.partials x y).2 := by
  refine ⟨_, _, _, _, [(op.partials x y).1, (op.partials x y).2, 1], rfl, ?_, ?_, ?_⟩
  · simp [accumulate, sweep, addAt]
  · rfl
  · rfl

/-- C29, `log2`: for every positive `x` the gradient reported is `1/x`, the true derivative is `1/(x ln 2)`, and they
differ. -/
theorem C29_log2 (x : ℝ) (hx : 0 < x) : ∃ g x0 z adj, run [.leaf, .un .log2 0] (fun _ => x) = some (g, [x0, z]) ∧
    z.value = Real.logb 2 x ∧ accumulate g z = some adj ∧ wrt adj x0 = some (1 / x) ∧
    HasDerivAt (Real.logb 2) (1 / (x * Real.log 2)) x ∧ 1 / x ≠ 1 / (x * Real.log 2) := by
  refine ⟨_, _, _, [1 / x, 1], rfl, rfl, by simp [accumulate, sweep, addAt, UnOp.partial], rfl, ?_, ?_⟩
  · have := (Real.hasDerivAt_log hx.ne').div_const (Real.log 2)
    refine this.congr_deriv ?_
    have := Real.log_pos (show (1 : ℝ) < 2 by norm_num)
    field_simp
  · intro h
    have h1 := Real.log_two_lt_d9
    have h2 := Real.log_pos (show (1 : ℝ) < 2 by norm_num)
    field_simp at h
    rw [h] at h1; norm_num at h1

example := C29_log2 3 (by norm_num)

/-- C29, `log10`: the same with `ln 10`. -/
theorem C29_log10 (x : ℝ) (hx : 0 < x) : ∃ g x0 z adj, run [.leaf, .un .log10 0] (fun _ => x) = some (g, [x0, z]) ∧
    z.value = Real.logb 10 x ∧ accumulate g z = some adj ∧ wrt adj x0 = some (1 / x) ∧
    HasDerivAt (Real.logb 10) (1 / (x * Real.log 10)) x ∧ 1 / x ≠ 1 / (x * Real.log 10) := by
  refine ⟨_, _, _, [1 / x, 1], rfl, rfl, by simp [accumulate, sweep, addAt, UnOp.partial], rfl, ?_, ?_⟩
  · have := (Real.hasDerivAt_log hx.ne').div_const (Real.log 10)
    refine this.congr_deriv ?_
    have := Real.log_pos (show (1 : ℝ) < 10 by norm_num)
    field_simp
  · intro h
    have h2 : 1 < Real.log 10 := by
      rw [Real.lt_log_iff_exp_lt (by norm_num)]
      exact Real.exp_one_lt_d9.trans (by norm_num)
    field_simp at h
    linarith

example := C29_log10 3 (by norm_num)

/-- C29, `Variable.log(Variable)`: the two partials are recorded on the wrong operands. For positive `s` and base
`b ≠ 1`, the gradient reported for the argument is the derivative with respect to the base, and the other way round; the
reported gradient for the argument is right exactly when `s ln s + b ln b = 0`, so never for `s, b > 1`. -/
theorem C29_log_variables (s b : ℝ) (hs : 0 < s) (hb : 0 < b) (hb1 : b ≠ 1) : ∃ g x0 x1 z adj ds db,
    run [.leaf, .leaf, .vv .log 0 1] (fun i => if i = 0 then s else b) = some (g, [x0, x1, z]) ∧
    z.value = Real.logb b s ∧ accumulate g z = some adj ∧ 
    HasDerivAt (fun s => Real.logb b s) ds s ∧ HasDerivAt (fun b => Real.logb b s) db b ∧
    wrt adj x0 = some db ∧ wrt adj x1 = some ds ∧ (db = ds ↔ s * Real.log s + b * Real.log b = 0) := by
  have hl := log_ne_zero hb hb1
  have e1 := (Real.hasDerivAt_log hs.ne').div_const (Real.log b)
  have e2 := (hasDerivAt_const b (Real.log s)).div (Real.hasDerivAt_log hb.ne') hl
  refine ⟨_, _, _, _, [-Real.log s / (b * Real.log b ^ 2), 1 / (s * Real.log b), 1], 1 / (s * Real.log b),
    -Real.log s / (b * Real.log b ^ 2), rfl, rfl, by simp [accumulate, sweep, addAt, VVOp.partials], 
    e1.congr_deriv (by field_simp), e2.congr_deriv (by field_simp; ring), rfl, rfl, ?_⟩
  rw [div_eq_div_iff (by positivity) (by positivity)]
  constructor
  · intro h
    have : Real.log b * (s * Real.log s + b * Real.log b) = 0 := by linarith
    exact (mul_eq_zero.1 this).resolve_left hl
  · intro h
    have : Real.log b * (s * Real.log s + b * Real.log b) = 0 := by rw [h, mul_zero]
    linarith

example := C29_log_variables 5 3 (by norm_num) (by norm_num) (by norm_num)

/-- C29, `f64.min(Variable)` and `f64.max(Variable)`: wherever the function is differentiable (`c ≠ x`) the reported
gradient is 1 minus the true derivative. -/
theorem C29_min_max (c x : ℝ) (h : c ≠ x) :
    (∃ g x0 z adj d, run [.leaf, .fv .min c 0] (fun _ => x) = some (g, [x0, z]) ∧ z.value = min c x ∧
      accumulate g z = some adj ∧ HasDerivAt (fun x => min c x) d x ∧ wrt adj x0 = some (1 - d) ∧ 1 - d ≠ d) ∧
    (∃ g x0 z adj d, run [.leaf, .fv .max c 0] (fun _ => x) = some (g, [x0, z]) ∧ z.value = max c x ∧
      accumulate g z = some adj ∧ HasDerivAt (fun x => max c x) d x ∧ wrt adj x0 = some (1 - d) ∧ 1 - d ≠ d) := by
  rcases lt_or_gt_of_ne h with h | h
  · refine ⟨⟨_, _, _, [1, 1], 0, rfl, rfl, ?_, hasDerivAt_min_left (hasDerivAt_const x c) continuousAt_id h, ?_, ?_⟩,
      ⟨_, _, _, [0, 1], 1, rfl, rfl, ?_, ?_, ?_, ?_⟩⟩
    · simp [accumulate, sweep, addAt, FVOp.partials, h]
    · simp [wrt]
    · norm_num
    · simp [accumulate, sweep, addAt, FVOp.partials, h.le]
    · have := hasDerivAt_max_left (g := fun _ => c) (hasDerivAt_id x) continuousAt_const h
      simpa [max_comm c] using this
    · simp [wrt]
    · norm_num
  · refine ⟨⟨_, _, _, [0, 1], 1, rfl, rfl, ?_, ?_, ?_, ?_⟩,
      ⟨_, _, _, [1, 1], 0, rfl, rfl, ?_, hasDerivAt_max_left (hasDerivAt_const x c) continuousAt_id h, ?_, ?_⟩⟩
    · simp [accumulate, sweep, addAt, FVOp.partials, h.le]
    · have := hasDerivAt_min_left (g := fun _ => c) (hasDerivAt_id x) continuousAt_const h
      simpa [min_comm c] using this
    · simp [wrt]
    · norm_num
    · simp [accumulate, sweep, addAt, FVOp.partials, h]
    · simp [wrt]
    · norm_num

example := C29_min_max 2 3 (by norm_num)

/-- C29, `f64.powf(Variable)` and `f64.powi(Variable)`: for a positive base `c` the gradient reported is `x c^(x-1)`, the
true derivative is `c^x ln c`, and they agree only when `x = c ln c`. -/
theorem C29_pow (c x : ℝ) (hc : 0 < c) (op : FVOp) (hop : op = .powf ∨ op = .powi) :
    ∃ g x0 z adj, run [.leaf, .fv op c 0] (fun _ => x) = some (g, [x0, z]) ∧ z.value = c ^ x ∧
      accumulate g z = some adj ∧ wrt adj x0 = some (x * c ^ (x - 1)) ∧
      HasDerivAt (fun x => c ^ x) (c ^ x * Real.log c) x ∧ (x * c ^ (x - 1) = c ^ x * Real.log c ↔ x = c * Real.log c) := by
  have hd : HasDerivAt (fun x => c ^ x) (c ^ x * Real.log c) x := by
    have := (hasDerivAt_id x).const_rpow (a := c) hc
    refine this.congr_deriv ?_
    simp; ring
  have hiff : x * c ^ (x - 1) = c ^ x * Real.log c ↔ x = c * Real.log c := by
    rw [Real.rpow_sub_one hc.ne']
    have : 0 < c ^ x := Real.rpow_pos_of_pos hc x
    constructor
    · intro h; field_simp at h; linarith
    · intro h; field_simp; linarith
  rcases hop with rfl | rfl
  · exact ⟨_, _, _, [x * c ^ (x - 1), 1], rfl, rfl, by simp [accumulate, sweep, addAt, FVOp.partials], rfl, hd, hiff⟩
  · exact ⟨_, _, _, [x * c ^ (x - 1), 1], rfl, rfl, by simp [accumulate, sweep, addAt, FVOp.partials], rfl, hd, hiff⟩

example := C29_pow 2 3 (by norm_num) .powi (.inr rfl)

/-! ## C30 -/

theorem WF_join {a b : Graph} (ha : WF a) (hb : WF b) (hne : a ≠ []) : WF (join a b) := by
  intro i v hv
  unfold join at hv
  by_cases hi : i < a.length
  · rw [List.getElem?_append_left hi] at hv; exact ha i v hv
  · rw [List.getElem?_append_right (by omega)] at hv
    have h0 : 0 < a.length := List.length_pos_iff.2 hne
    obtain ⟨h1, h2⟩ := hb _ v hv
    exact ⟨Or.inl (by omega), Or.inl (by omega)⟩

/-- C30: `a.join(&b)` is `a`'s vertices followed by `b`'s, the latter with their parent positions unchanged. -/
theorem C30_structure (a b : Graph) (i : ℕ) :
    (join a b).length = a.length + b.length ∧ (i < a.length → (join a b)[i]? = a[i]?) ∧
      (join a b)[a.length + i]? = b[i]? := by
  refine ⟨List.length_append, fun h => List.getElem?_append_left h, ?_⟩
  unfold join
  rw [List.getElem?_append_right (by omega), Nat.add_sub_cancel_left]

/-- C30: so for any two tapes recorded by programs, `b` not longer than `a`, the derivative of a joined result of `b`
with respect to every joined variable of `b` (except itself) is reported as 0: nothing reaches `b`'s own inputs. -/
theorem C30_gradients_lost (pa pb : List Instr) (xa xb : ℕ → ℝ) (a b : Graph) (ea eb : List Var)
    (ha : run pa xa = some (a, ea)) (hb : run pb xb = some (b, eb)) (hlen : b.length ≤ a.length) (z y : Var)
    (hz : z ∈ eb) (hy : y ∈ eb) :
    ∃ adj, accumulate (join a b) { z with index := a.length + z.index } = some adj ∧
      wrt adj { y with index := a.length + y.index } = some (if y.index = z.index then 1 else 0) := by
  obtain ⟨-, -, -, wa, -, -⟩ := runFrom_grows WF.nil he_nil ha
  obtain ⟨-, -, -, wb, ib, -⟩ := runFrom_grows WF.nil he_nil hb
  have hzi := ib z hz
  have hyi := ib y hy
  have hne : a ≠ [] := by
    intro h; rw [h] at hlen; simp only [List.length_nil] at hlen; omega
  have hw := WF_join wa wb hne
  have hl : (join a b).length = a.length + b.length := by simp [join]
  obtain ⟨adj, h1, h2, h3⟩ := accumulate_spec hw { z with index := a.length + z.index } (by rw [hl]; simp; omega)
  refine ⟨adj, h1, getElem?_of_getD (by simp only; omega) ?_⟩
  simp only at h3 ⊢
  rw [h3 _ (by omega)]
  have hv : (join a b)[a.length + z.index]? = some (b[z.index]) := by
    rw [(C30_structure a b z.index).2.2]; simp
  rw [tangents_eq _ _ hv]
  obtain ⟨hp0, hp1⟩ := wb z.index b[z.index] (by simp)
  have z0 : ∀ q, q ≤ z.index →
      (tangents (fun j => if j = a.length + y.index then (1 : ℝ) else 0) (join a b)).getD q 0 = 0 :=
    fun q hq => tangents_unit_lt _ _ _ (by omega)
  rw [z0 _ (by omega), z0 _ (by omega)]
  simp [eq_comm]

/-- An instance: a tape of two vertices extended by the tape of `sin y`. -/
example := C30_gradients_lost [.leaf, .leaf] [.leaf, .un .sin 0] (fun _ => 1) (fun _ => 2) _ _ _ _ rfl rfl (by decide) _ _
  (.tail _ (.head _)) (.head _)

/-- C30: for every non-empty `a`, a joined `x ↦ op x` reports derivative 0 with respect to its own input and attributes
its derivative to the first vertex of `a` instead. -/
theorem C30_misattributed (pa : List Instr) (xa : ℕ → ℝ) (a : Graph) (ea : List Var) (ha : run pa xa = some (a, ea))
    (hne : a ≠ []) (op : UnOp) (x : ℝ) :
    ∃ b x0 z adj, run [.leaf, .un op 0] (fun _ => x) = some (b, [x0, z]) ∧
      accumulate (join a b) { z with index := a.length + z.index } = some adj ∧
      wrt adj { x0 with index := a.length + x0.index } = some 0 ∧ adj[0]? = some (op.partial x) := by
  obtain ⟨-, -, -, wa, -, -⟩ := runFrom_grows WF.nil he_nil ha
  have hr : run [.leaf, .un op 0] (fun _ => x) =
      some ([⟨0, 0, 0, 0⟩, ⟨op.partial x, 0, 0, 1⟩], [⟨0, x⟩, ⟨1, op.value x⟩]) := rfl
  obtain ⟨-, -, -, wb, ib, -⟩ := runFrom_grows WF.nil he_nil hr
  have h0 : 0 < a.length := List.length_pos_iff.2 hne
  refine ⟨[⟨0, 0, 0, 0⟩, ⟨op.partial x, 0, 0, 1⟩], ⟨0, x⟩, ⟨1, op.value x⟩, ?_⟩
  set b : Graph := [⟨0, 0, 0, 0⟩, ⟨op.partial x, 0, 0, 1⟩] with hbdef
  have hw := WF_join wa wb hne
  have hl : (join a b).length = a.length + 2 := by simp [join, hbdef]
  obtain ⟨adj, h1, h2, h3⟩ := accumulate_spec hw ⟨a.length + 1, op.value x⟩ (by rw [hl]; simp)
  have hv : (join a b)[a.length + 1]? = some ⟨op.partial x, 0, 0, 1⟩ := by
    rw [(C30_structure a b 1).2.2]; rfl
  refine ⟨adj, hr, h1, getElem?_of_getD (by simp; omega) ?_, getElem?_of_getD (by omega) ?_⟩
  · simp only [Nat.add_zero] at h3 ⊢
    rw [h3 _ (by omega), tangents_eq _ _ hv, tangents_unit_lt _ _ 0 (by omega)]
    simp
  · simp only at h3
    rw [h3 _ (by omega), tangents_eq _ _ hv, tangents_unit_self _ 0 (by omega)]
    simp

example := C30_misattributed [.leaf] (fun _ => 1) _ _ rfl (by simp) .sin 2

/-! ## C31 -/

/-- C31: `wrt` on a list of variables returns, at each position, what `wrt` returns for the variable at that position,
and panics exactly when one of them does. -/
theorem C31_wrt_positional (adj : List ℝ) (vs : List Var) :
    (∀ ds, wrtAll adj vs = some ds → ds.length = vs.length ∧
      ∀ (i : ℕ) (v : Var), vs[i]? = some v → ∃ d, wrt adj v = some d ∧ ds[i]? = some d) ∧
    (wrtAll adj vs = none ↔ ∃ v ∈ vs, wrt adj v = none) := by
  induction vs with
  | nil => simp [wrtAll]
  | cons v vs ih =>
    have hc : wrtAll adj (v :: vs) = (do let d ← wrt adj v; let ds ← wrtAll adj vs; pure (d :: ds)) := by
      simp [wrtAll, wrt, List.mapM_cons]
    rw [hc]
    cases hd : wrt adj v with
    | none => simp [hd]
    | some d =>
      cases hds : wrtAll adj vs with
      | none =>
        rw [hds] at ih
        simpa [hd] using ih.2
      | some ds =>
        rw [hds] at ih
        obtain ⟨h1, h2⟩ := ih
        obtain ⟨hl, hp⟩ := h1 ds rfl
        refine ⟨?_, ?_⟩
        · intro ds' h
          simp only [Option.bind_eq_bind, Option.bind_some, Option.pure_def, Option.some.injEq] at h
          subst h
          refine ⟨by simp [hl], fun i u hu => ?_⟩
          cases i with
          | zero => simp at hu; subst hu; exact ⟨d, hd, by simp⟩
          | succ i => obtain ⟨d', e1, e2⟩ := hp i u (by simpa using hu); exact ⟨d', e1, by simpa using e2⟩
        · simpa [hd] using h2

theorem hasDerivAt_sum (l : List ℕ) (x : ℕ → ℝ) (i : ℕ) :
    HasDerivAt (fun t => (l.map (Function.update x i t)).sum) (l.count i) (x i) := by
  induction l with
  | nil => simpa using hasDerivAt_const _ _
  | cons j l ih =>
    simp only [List.map_cons, List.sum_cons]
    by_cases h : j = i
    · subst h
      have : HasDerivAt (fun t => Function.update x j t j) 1 (x j) := by
        simp only [Function.update_self]; exact hasDerivAt_id (x j)
      refine (this.add ih).congr_deriv ?_
      simp [add_comm]
    · have : HasDerivAt (fun t => Function.update x i t j) 0 (x i) := by
        simp only [Function.update_of_ne h]; exact hasDerivAt_const _ _
      refine (this.add ih).congr_deriv ?_
      rw [List.count_cons_of_ne (by simpa using h)]; simp

theorem hasDerivAt_prod (l : List ℕ) (x : ℕ → ℝ) (i : ℕ) :
    HasDerivAt (fun t => (l.map (Function.update x i t)).prod) (l.count i * ((l.erase i).map x).prod) (x i) := by
  induction l with
  | nil => simpa using hasDerivAt_const _ _
  | cons j l ih =>
    simp only [List.map_cons, List.prod_cons]
    by_cases h : j = i
    · subst h
      have h1 : HasDerivAt (fun t => Function.update x j t j) 1 (x j) := by
        simp only [Function.update_self]; exact hasDerivAt_id (x j)
      refine (h1.mul ih).congr_deriv ?_
      simp only [Function.update_eq_self, List.count_cons_self, List.erase_cons_head, one_mul]
      by_cases hm : j ∈ l
      · have hp : (l.map x).prod = x j * ((l.erase j).map x).prod := by
          rw [← List.prod_cons, ← List.map_cons]
          exact ((List.perm_cons_erase hm).map x).prod_eq
        rw [hp]; push_cast; ring
      · rw [List.count_eq_zero_of_not_mem hm]; simp
    · have h1 : HasDerivAt (fun t => Function.update x i t j) 0 (x i) := by
        simp only [Function.update_of_ne h]; exact hasDerivAt_const _ _
      refine (h1.mul ih).congr_deriv ?_
      rw [List.count_cons_of_ne (by simpa using h), List.erase_cons_tail (by simpa using h)]
      simp [Function.update_of_ne h]; ring

theorem denoteFrom_append (x : ℕ → ℝ) (vals : List ℝ) (p q : List Instr) :
    denoteFrom x vals (p ++ q) = denoteFrom x (denoteFrom x vals p) q := by
  induction p generalizing vals with
  | nil => rfl
  | cons ins p ih => simp only [List.cons_append, denoteFrom]; rw [ih]

theorem denoteFrom_leaves (x : ℕ → ℝ) (n : ℕ) : denoteFrom x [] (List.replicate n .leaf) = (List.range n).map x := by
  induction n with
  | zero => rfl
  | succ n ih =>
    rw [List.replicate_succ', denoteFrom_append, ih]
    simp [denoteFrom, Instr.denote, List.range_succ]

theorem denote_last (x : ℕ → ℝ) (n : ℕ) (ins : Instr) :
    denote (List.replicate n .leaf ++ [ins]) x n = ins.denote (x n) (fun i => ((List.range n).map x).getD i 0) := by
  rw [denote, denoteFrom_append, denoteFrom_leaves]
  simp only [denoteFrom]
  rw [List.getD_eq_getElem?_getD, List.getElem?_append_right (by simp)]
  simp

theorem getD_range (x : ℕ → ℝ) (n : ℕ) {i : ℕ} (hi : i < n) : ((List.range n).map x).getD i 0 = x i := by
  simp [List.getD_eq_getElem?_getD, hi]

/-- Gradient of an `n`-ary reduction of `n` inputs, from C26. -/
theorem leaves_grad (n : ℕ) (ins : Instr) (x : ℕ → ℝ) (d : ℕ → ℝ) (hs : ∀ i ∈ ins.refs, i < n)
    (h1 : ins ≠ .sum []) (h2 : ins ≠ .prod []) (hD : ∀ v, ins.Dom v)
    (hd : ∀ i, i < n → HasDerivAt (fun t => ins.denote (Function.update x i t n)
      (fun j => ((List.range n).map (Function.update x i t)).getD j 0)) (d i) (x i)) :
    ∃ g env z adj, run (List.replicate n .leaf ++ [ins]) x = some (g, env ++ [z]) ∧ env.length = n ∧
      accumulate g z = some adj ∧ wrtAll adj env = some ((List.range n).map d) := by
  set prog := List.replicate n Instr.leaf ++ [ins] with hprog
  have hlen : prog.length = n + 1 := by simp [hprog]
  have hleaf : ∀ p, p < n → prog[p]? = some .leaf := by
    intro p hp
    rw [hprog, List.getElem?_append_left (by simpa using hp)]; simp [hp]
  have hlast : prog[n]? = some ins := by simp [hprog]
  have hsc : Scoped prog := by
    intro k i hk
    have hk' : k < n + 1 := by rw [← hlen]; exact (List.getElem?_eq_some_iff.1 hk).1
    by_cases h : k < n
    · rw [hleaf k h] at hk; cases hk; simp [Instr.refs]
    · obtain rfl : k = n := by omega
      rw [hlast] at hk; cases hk; exact ⟨hs, h1, h2⟩
  have hdiff : Differentiable prog x := by
    intro k i hk
    have hk' : k < n + 1 := by rw [← hlen]; exact (List.getElem?_eq_some_iff.1 hk).1
    by_cases h : k < n
    · rw [hleaf k h] at hk; cases hk; trivial
    · obtain rfl : k = n := by omega
      rw [hlast] at hk; cases hk; exact hD _
  obtain ⟨g, envF, hr, hel⟩ := C26_runs prog hsc x
  rw [hlen] at hel
  obtain ⟨env, z, rfl⟩ : ∃ env z, envF = env ++ [z] :=
    ⟨envF.dropLast, envF.getLast (by rintro rfl; simp only [List.length_nil] at hel; omega),
      (List.dropLast_append_getLast _).symm⟩
  have henv : env.length = n := by simpa using hel
  have hz : (env ++ [z])[n]? = some z := by rw [← henv]; simp
  obtain ⟨_, -, hacc⟩ : True ∧ True ∧ ∃ adj, accumulate g z = some adj := by
    obtain ⟨adj, h, -⟩ := C28_unrelated_zero prog x g (env ++ [z]) hr z (by simp)
    exact ⟨trivial, trivial, adj, h⟩
  obtain ⟨adj, hacc⟩ := hacc
  refine ⟨g, env, z, adj, hr, henv, hacc, ?_⟩
  have hpos : ∀ i (v : Var), env[i]? = some v → wrt adj v = some (d i) := by
    intro i v hv
    have hi : i < n := by rw [← henv]; exact (List.getElem?_eq_some_iff.1 hv).1
    have hv' : (env ++ [z])[i]? = some v := by rw [List.getElem?_append_left (by omega)]; exact hv
    obtain ⟨-, adj', d', e1, e2, e3⟩ := C26_gradient_exact prog x g _ hr hdiff n z hz i (hleaf i hi) v hv'
    rw [hacc] at e1; cases e1
    simp only [hprog, denote_last] at e3
    rw [e2, e3.unique (hd i hi)]
  have hw := (C31_wrt_positional adj env)
  rcases hds : wrtAll adj env with _ | ds
  · obtain ⟨v, hv, hn⟩ := hw.2.1 hds
    obtain ⟨i, hi, rfl⟩ := List.getElem_of_mem hv
    rw [hpos i _ (List.getElem?_eq_getElem hi)] at hn; cases hn
  · obtain ⟨hl, hp⟩ := hw.1 ds hds
    congr 1
    apply List.ext_getElem?
    intro i
    by_cases hi : i < n
    · obtain ⟨d', e1, e2⟩ := hp i env[i] (by simp)
      rw [hpos i _ (List.getElem?_eq_getElem (by omega))] at e1
      cases e1
      rw [e2]; simp [hi]
    · rw [List.getElem?_eq_none (by omega), List.getElem?_eq_none (by simp; omega)]

/-- C31: for `n` inputs and the sum of any non-empty list of them (repetitions allowed), the derivative with respect to
input `i` is the number of times it occurs in the list; in particular 1 for each summand when all are different. -/
theorem C31_sum (n : ℕ) (x : ℕ → ℝ) (l : List ℕ) (hne : l ≠ []) (hl : ∀ i ∈ l, i < n) :
    ∃ g env z adj, run (List.replicate n .leaf ++ [.sum l]) x = some (g, env ++ [z]) ∧ env.length = n ∧
      accumulate g z = some adj ∧ wrtAll adj env = some ((List.range n).map fun i => (l.count i : ℝ)) := by
  refine leaves_grad n (.sum l) x _ hl (by simpa using hne) (by simp) (fun _ => trivial) (fun i hi => ?_)
  refine (hasDerivAt_sum l x i).congr_of_eventuallyEq (Filter.Eventually.of_forall fun t => ?_)
  simp only [Instr.denote]
  congr 1
  exact List.map_congr_left fun j hj => getD_range _ n (hl j hj)

example (x : ℕ → ℝ) := C31_sum 3 x [2, 0, 2] (by decide) (by decide)

/-- C31: the derivative of the product of any non-empty list of inputs with respect to input `i` is its number of
occurrences times the product of the list with one occurrence removed: the product of the other factors when all are
different. -/
theorem C31_product (n : ℕ) (x : ℕ → ℝ) (l : List ℕ) (hne : l ≠ []) (hl : ∀ i ∈ l, i < n) :
    ∃ g env z adj, run (List.replicate n .leaf ++ [.prod l]) x = some (g, env ++ [z]) ∧ env.length = n ∧
      accumulate g z = some adj ∧
      wrtAll adj env = some ((List.range n).map fun i => (l.count i : ℝ) * ((l.erase i).map x).prod) := by
  refine leaves_grad n (.prod l) x _ hl (by simp) (by simpa using hne) (fun _ => trivial) (fun i hi => ?_)
  refine (hasDerivAt_prod l x i).congr_of_eventuallyEq (Filter.Eventually.of_forall fun t => ?_)
  simp only [Instr.denote]
  congr 1
  exact List.map_congr_left fun j hj => getD_range _ n (hl j hj)

example (x : ℕ → ℝ) := C31_product 3 x [2, 0, 2] (by decide) (by decide)

/-- C31: `Sum` and `Product` over an empty iterator panic. -/
theorem C31_empty_panics (prog : List Instr) (x : ℕ → ℝ) :
    run (prog ++ [.sum []]) x = none ∧ run (prog ++ [.prod []]) x = none := by
  have h : ∀ ins, (∀ y g env, Instr.exec y g env ins = none) → run (prog ++ [ins]) x = none := by
    intro ins hi
    by_contra hne
    obtain ⟨r, hr⟩ := Option.ne_none_iff_exists'.1 hne
    obtain ⟨g', env', -, h2⟩ := runFrom_append.1 hr
    obtain ⟨_, _, h3, -⟩ := runFrom_cons.1 h2
    rw [hi] at h3; cases h3
  exact ⟨h _ fun _ _ _ => rfl, h _ fun _ _ _ => rfl⟩

example : ([2, 0, 2] : List ℕ) ≠ [] ∧ ∀ i ∈ ([2, 0, 2] : List ℕ), i < 3 := by decide

end Verif.Autodiff
