import Verif.Autodiff.Tape
import Verif.Autodiff.Deriv

/-!
# Executions of client programs: structure of the tape, values and tangents

Helper lemmas for C26–C31.
-/

namespace Verif.Autodiff

/-! ## What each operator pushes -/

theorem var_eq (g : Graph) (x : ℝ) : var g x = some (g ++ [⟨0, 0, g.length, g.length⟩], ⟨g.length, x⟩) := rfl

theorem unary_eq (op : UnOp) (g : Graph) (a : Var) :
    unary op g a = some (g ++ [⟨op.partial a.value, 0, a.index, g.length⟩], ⟨g.length, op.value a.value⟩) := rfl

theorem binVV_eq (op : VVOp) (g : Graph) (a b : Var) :
    binVV op g a b = some (g ++ [⟨(op.partials a.value b.value).1, (op.partials a.value b.value).2, a.index, b.index⟩],
      ⟨g.length, op.value a.value b.value⟩) := rfl

theorem binVF_eq (op : VFOp) (g : Graph) (a : Var) (c : ℝ) :
    binVF op g a c = some (g ++ [⟨(op.partials a.value c).1, (op.partials a.value c).2, a.index, a.index⟩],
      ⟨g.length, op.value a.value c⟩) := rfl

theorem binFV_eq (op : FVOp) (g : Graph) (c : ℝ) (a : Var) :
    binFV op g c a = some (g ++ [⟨(op.partials c a.value).1, (op.partials c a.value).2, a.index, a.index⟩],
      ⟨g.length, op.value c a.value⟩) := rfl

theorem powiVI_eq (g : Graph) (a : Var) (n : ℤ) :
    powiVI g a n = some (g ++ [⟨(n : ℝ) * a.value ^ (n - 1), 0, a.index, a.index⟩], ⟨g.length, a.value ^ n⟩) := rfl

theorem subVV_eq (g : Graph) (a b : Var) :
    subVV g a b = binVV .add (g ++ [⟨-1, 0, b.index, b.index⟩]) a ⟨g.length, b.value * -1⟩ := rfl

theorem divVV_eq (g : Graph) (a b : Var) :
    divVV g a b = binVV .mul (g ++ [⟨-(b.value ^ 2)⁻¹, 0, b.index, g.length⟩]) a ⟨g.length, 1 / b.value⟩ := rfl

/-- The outcome of a statement: the old vertices are kept, `n` are added, the tape stays well formed and the result is
on the tape. -/
def Grows (g g' : Graph) (v : Var) (n : ℕ) : Prop :=
  (∃ h, g' = g ++ h ∧ h.length = n) ∧ WF g' ∧ v.index < g'.length

theorem grows_snoc {g : Graph} (hw : WF g) {u : Vertex} (hu : u.WF g.length) (x : ℝ) :
    Grows g (g ++ [u]) ⟨g.length, x⟩ 1 :=
  ⟨⟨[u], rfl, rfl⟩, hw.snoc hu, by simp⟩

theorem Grows.trans {g g' g'' : Graph} {v w : Var} {n m : ℕ} (h : Grows g g' v n) (h' : Grows g' g'' w m) :
    Grows g g'' w (n + m) := by
  obtain ⟨⟨a, rfl, la⟩, -, -⟩ := h
  obtain ⟨⟨b, rfl, lb⟩, hw, hi⟩ := h'
  exact ⟨⟨a ++ b, by simp, by simp; omega⟩, hw, hi⟩

theorem grows_binVV {g : Graph} (hw : WF g) (op : VVOp) {a b : Var} (ha : a.index < g.length) (hb : b.index < g.length) :
    Grows g (g ++ [⟨(op.partials a.value b.value).1, (op.partials a.value b.value).2, a.index, b.index⟩])
      ⟨g.length, op.value a.value b.value⟩ 1 :=
  grows_snoc hw ⟨Or.inl ha, Or.inl hb⟩ _

theorem grows_reduce (op : VVOp) {g g' : Graph} {acc v : Var} {bs : List Var} (hw : WF g) (ha : acc.index < g.length)
    (hb : ∀ b ∈ bs, b.index < g.length) (h : reduceFrom (binVV op) g acc bs = some (g', v)) :
    Grows g g' v bs.length := by
  induction bs generalizing g acc with
  | nil => simp only [reduceFrom, Option.some.injEq, Prod.mk.injEq] at h
           obtain ⟨rfl, rfl⟩ := h
           exact ⟨⟨[], by simp, rfl⟩, hw, ha⟩
  | cons b bs ih =>
    rw [reduceFrom, binVV_eq] at h
    simp only [Option.bind_eq_bind, Option.bind_some] at h
    have h1 := grows_binVV hw op ha (hb b (by simp))
    have h2 := ih h1.2.1 h1.2.2 (fun c hc => by
      have := hb c (by simp [hc]); simp; omega) h
    have := h1.trans h2
    rwa [List.length_cons, Nat.add_comm]

theorem mapM_get {α : Type} {env : List α} {l : List ℕ} {vs : List α} (h : l.mapM (fun i => env[i]?) = some vs) :
    List.Forall₂ (fun i v => env[i]? = some v) l vs := by
  induction l generalizing vs with
  | nil => simp at h; subst h; exact .nil
  | cons i l ih =>
    simp only [List.mapM_cons, Option.bind_eq_bind, Option.bind_eq_some_iff, Option.pure_def, Option.some.injEq] at h
    obtain ⟨v, hv, ws, hws, rfl⟩ := h
    exact .cons hv (ih hws)

/-- The structural effect of every statement. -/
theorem exec_grows {x : ℝ} {g g' : Graph} {env : List Var} {ins : Instr} {v : Var} (hw : WF g)
    (he : ∀ u ∈ env, u.index < g.length) (h : ins.exec x g env = some (g', v)) : Grows g g' v ins.vertices := by
  have key : ∀ {i : ℕ} {u : Var}, env[i]? = some u → u.index < g.length :=
    fun h => he _ (List.mem_of_getElem? h)
  cases ins <;> simp only [Instr.exec, Option.bind_eq_bind, Option.bind_eq_some_iff] at h
  case leaf =>
    rw [var_eq] at h; cases h
    exact grows_snoc hw ⟨Or.inr ⟨rfl, rfl⟩, Or.inr ⟨rfl, rfl⟩⟩ _
  case un op i =>
    obtain ⟨a, ha, h⟩ := h
    rw [unary_eq] at h; cases h
    exact grows_snoc hw ⟨Or.inl (key ha), Or.inr ⟨rfl, rfl⟩⟩ _
  case neg i =>
    obtain ⟨a, ha, h⟩ := h
    rw [Autodiff.neg, binVF_eq] at h; cases h
    exact grows_snoc hw ⟨Or.inl (key ha), Or.inl (key ha)⟩ _
  case vv op i j =>
    obtain ⟨a, ha, b, hb, h⟩ := h
    rw [binVV_eq] at h; cases h
    exact grows_binVV hw _ (key ha) (key hb)
  case sub i j =>
    obtain ⟨a, ha, b, hb, h⟩ := h
    rw [subVV_eq, binVV_eq] at h; cases h
    have h1 : Grows g (g ++ [⟨-1, 0, b.index, b.index⟩]) ⟨g.length, b.value * -1⟩ 1 :=
      grows_snoc hw ⟨Or.inl (key hb), Or.inl (key hb)⟩ _
    exact h1.trans (grows_binVV h1.2.1 .add (by have := key ha; simp; omega) h1.2.2)
  case div i j =>
    obtain ⟨a, ha, b, hb, h⟩ := h
    rw [divVV_eq, binVV_eq] at h; cases h
    have h1 : Grows g (g ++ [⟨-(b.value ^ 2)⁻¹, 0, b.index, g.length⟩]) ⟨g.length, 1 / b.value⟩ 1 :=
      grows_snoc hw ⟨Or.inl (key hb), Or.inr ⟨rfl, rfl⟩⟩ _
    exact h1.trans (grows_binVV h1.2.1 .mul (by have := key ha; simp; omega) h1.2.2)
  case vf op i c =>
    obtain ⟨a, ha, h⟩ := h
    rw [binVF_eq] at h; cases h
    exact grows_snoc hw ⟨Or.inl (key ha), Or.inl (key ha)⟩ _
  case subF i c =>
    obtain ⟨a, ha, h⟩ := h
    rw [subVF, binVF_eq] at h; cases h
    exact grows_snoc hw ⟨Or.inl (key ha), Or.inl (key ha)⟩ _
  case divF i c =>
    obtain ⟨a, ha, h⟩ := h
    rw [divVF, binVF_eq] at h; cases h
    exact grows_snoc hw ⟨Or.inl (key ha), Or.inl (key ha)⟩ _
  case powi i n =>
    obtain ⟨a, ha, h⟩ := h
    rw [powiVI_eq] at h; cases h
    exact grows_snoc hw ⟨Or.inl (key ha), Or.inl (key ha)⟩ _
  case fv op c i =>
    obtain ⟨a, ha, h⟩ := h
    rw [binFV_eq] at h; cases h
    exact grows_snoc hw ⟨Or.inl (key ha), Or.inl (key ha)⟩ _
  case fAdd c i =>
    obtain ⟨a, ha, h⟩ := h
    rw [addFV, binVF_eq] at h; cases h
    exact grows_snoc hw ⟨Or.inl (key ha), Or.inl (key ha)⟩ _
  case fMul c i =>
    obtain ⟨a, ha, h⟩ := h
    rw [mulFV, binVF_eq] at h; cases h
    exact grows_snoc hw ⟨Or.inl (key ha), Or.inl (key ha)⟩ _
  case sum l =>
    obtain ⟨vs, hv, h⟩ := h
    cases mapM_get hv with
    | nil => simp [sumV] at h
    | cons h1 h2 =>
      have hm := List.forall₂_iff_get.1 h2
      have := grows_reduce .add hw (key h1) (fun b hb => by
        obtain ⟨n, hn, rfl⟩ := List.getElem_of_mem hb
        exact key (hm.2 n (by omega) hn)) h
      simpa [Instr.vertices, h2.length_eq] using this
  case prod l =>
    obtain ⟨vs, hv, h⟩ := h
    cases mapM_get hv with
    | nil => simp [prodV] at h
    | cons h1 h2 =>
      have hm := List.forall₂_iff_get.1 h2
      have := grows_reduce .mul hw (key h1) (fun b hb => by
        obtain ⟨n, hn, rfl⟩ := List.getElem_of_mem hb
        exact key (hm.2 n (by omega) hn)) h
      simpa [Instr.vertices, h2.length_eq] using this

theorem runFrom_cons {x : ℕ → ℝ} {g : Graph} {env : List Var} {ins : Instr} {rest : List Instr}
    {r : Graph × List Var} :
    runFrom x g env (ins :: rest) = some r ↔
      ∃ g' v, ins.exec (x env.length) g env = some (g', v) ∧ runFrom x g' (env ++ [v]) rest = some r := by
  simp only [runFrom, Option.bind_eq_bind, Option.bind_eq_some_iff, Prod.exists]

/-- Structural invariant of runs. -/
theorem runFrom_grows {x : ℕ → ℝ} {g gF : Graph} {env envF : List Var} {prog : List Instr} (hw : WF g)
    (he : ∀ u ∈ env, u.index < g.length) (h : runFrom x g env prog = some (gF, envF)) :
    g <+: gF ∧ env <+: envF ∧ envF.length = env.length + prog.length ∧ WF gF ∧ (∀ u ∈ envF, u.index < gF.length) ∧
      gF.length = g.length + (prog.map Instr.vertices).sum := by
  induction prog generalizing g env with
  | nil =>
    simp only [runFrom, Option.some.injEq, Prod.mk.injEq] at h
    obtain ⟨rfl, rfl⟩ := h
    exact ⟨List.prefix_refl _, List.prefix_refl _, by simp, hw, he, by simp⟩
  | cons ins rest ih =>
    obtain ⟨g', v, h1, h2⟩ := runFrom_cons.1 h
    obtain ⟨⟨a, rfl, la⟩, hw', hi⟩ := exec_grows hw he h1
    have := ih hw' (fun u hu => by
      rcases List.mem_append.1 hu with hu | hu
      · have := he u hu; simp; omega
      · simp at hu; subst hu; exact hi) h2
    refine ⟨(List.prefix_append _ _).trans this.1, (List.prefix_append _ _).trans this.2.1, ?_, this.2.2.2.1,
      this.2.2.2.2.1, ?_⟩
    · rw [this.2.2.1]; simp; omega
    · rw [this.2.2.2.2.2]; simp; omega

theorem he_nil : ∀ u ∈ ([] : List Var), u.index < ([] : Graph).length := by simp

/-! ## Values and tangents -/

/-- The variable `v` on the tape `g` computes `f` at `t`, and its tangent for the seed `s` is `f'(t)`. -/
def Track (g : Graph) (s : ℕ → ℝ) (t : ℝ) (v : Var) (f : ℝ → ℝ) : Prop :=
  v.index < g.length ∧ v.value = f t ∧ HasDerivAt f ((tangents s g).getD v.index 0) t

theorem Track.mono {g h : Graph} {s : ℕ → ℝ} {t : ℝ} {v : Var} {f : ℝ → ℝ} (H : Track g s t v f) :
    Track (g ++ h) s t v f := by
  refine ⟨by have := H.1; simp; omega, H.2.1, ?_⟩
  rw [tangents_append_lt _ _ _ H.1]; exact H.2.2

theorem track_snoc {g : Graph} {s : ℕ → ℝ} {t : ℝ} {u : Vertex} {x : ℝ} {f : ℝ → ℝ} (hs : s g.length = 0)
    (hx : x = f t) (hd : HasDerivAt f
      (u.partial0 * (tangents s g).getD u.parent0 0 + u.partial1 * (tangents s g).getD u.parent1 0) t) :
    Track (g ++ [u]) s t ⟨g.length, x⟩ f := by
  refine ⟨by simp, hx, ?_⟩
  simp only
  rw [tangents_snoc, hs, zero_add]; exact hd

theorem track_unary {g : Graph} {s : ℕ → ℝ} {t : ℝ} {a : Var} {f : ℝ → ℝ} (op : UnOp) (hs : s g.length = 0)
    (ha : Track g s t a f) (hd : op.Dom (f t)) :
    Track (g ++ [⟨op.partial a.value, 0, a.index, g.length⟩]) s t ⟨g.length, op.value a.value⟩
      (fun τ => op.math (f τ)) := by
  refine track_snoc hs (by rw [UnOp.value_eq, ha.2.1]) ?_
  simp only [zero_mul, add_zero]
  rw [ha.2.1]
  exact (op.hasDerivAt _ hd).comp t ha.2.2

theorem track_binVV {g : Graph} {s : ℕ → ℝ} {t : ℝ} {a b : Var} {f k : ℝ → ℝ} (op : VVOp) (hs : s g.length = 0)
    (ha : Track g s t a f) (hb : Track g s t b k) (hd : op.Dom (f t) (k t)) :
    Track (g ++ [⟨(op.partials a.value b.value).1, (op.partials a.value b.value).2, a.index, b.index⟩]) s t
      ⟨g.length, op.value a.value b.value⟩ (fun τ => op.math (f τ) (k τ)) := by
  refine track_snoc hs (by rw [VVOp.value_eq, ha.2.1, hb.2.1]) ?_
  simp only
  rw [ha.2.1, hb.2.1]
  exact op.hasDerivAt ha.2.2 hb.2.2 hd

theorem track_binVF {g : Graph} {s : ℕ → ℝ} {t : ℝ} {a : Var} {f : ℝ → ℝ} (op : VFOp) (c : ℝ) (hs : s g.length = 0)
    (ha : Track g s t a f) (hd : op.Dom (f t) c) :
    Track (g ++ [⟨(op.partials a.value c).1, (op.partials a.value c).2, a.index, a.index⟩]) s t
      ⟨g.length, op.value a.value c⟩ (fun τ => op.math (f τ) c) := by
  refine track_snoc hs (by rw [VFOp.value_eq, ha.2.1]) ?_
  simp only
  rw [ha.2.1]
  exact op.hasDerivAt ha.2.2 hd

theorem track_binFV {g : Graph} {s : ℕ → ℝ} {t : ℝ} {a : Var} {f : ℝ → ℝ} (op : FVOp) (c : ℝ) (hs : s g.length = 0)
    (ha : Track g s t a f) (hd : op.Dom c (f t)) :
    Track (g ++ [⟨(op.partials c a.value).1, (op.partials c a.value).2, a.index, a.index⟩]) s t
      ⟨g.length, op.value c a.value⟩ (fun τ => op.math c (f τ)) := by
  refine track_snoc hs (by rw [FVOp.value_eq, ha.2.1]) ?_
  simp only
  rw [ha.2.1]
  exact op.hasDerivAt ha.2.2 hd

theorem Track.congr {g : Graph} {s : ℕ → ℝ} {t : ℝ} {v : Var} {f k : ℝ → ℝ} (H : Track g s t v f) (h : f = k) :
    Track g s t v k := h ▸ H

theorem reduceFrom_prefix (op : VVOp) {g g' : Graph} {acc v : Var} {bs : List Var}
    (h : reduceFrom (binVV op) g acc bs = some (g', v)) : g <+: g' := by
  induction bs generalizing g acc with
  | nil => simp only [reduceFrom, Option.some.injEq, Prod.mk.injEq] at h; rw [h.1]
  | cons b bs ih =>
    rw [reduceFrom, binVV_eq] at h
    exact (List.prefix_append _ _).trans (ih h)

theorem track_reduce (op : VVOp) (hop : ∀ x y, op.Dom x y) {g g' : Graph} {s : ℕ → ℝ} {t : ℝ} {acc v : Var}
    {bs : List Var} {f : ℝ → ℝ} {ks : List (ℝ → ℝ)} (hs : ∀ j, g.length ≤ j → j < g'.length → s j = 0)
    (ha : Track g s t acc f) (hb : List.Forall₂ (Track g s t) bs ks)
    (h : reduceFrom (binVV op) g acc bs = some (g', v)) :
    Track g' s t v (fun τ => ks.foldl (fun y k => op.math y (k τ)) (f τ)) := by
  induction bs generalizing g acc f ks with
  | nil =>
    cases hb
    simp only [reduceFrom, Option.some.injEq, Prod.mk.injEq] at h
    obtain ⟨rfl, rfl⟩ := h
    exact ha
  | cons b bs ih =>
    obtain ⟨k, ks, hb1, hb2, rfl⟩ := List.forall₂_cons_left_iff.1 hb
    rw [reduceFrom, binVV_eq] at h
    simp only [Option.bind_eq_bind, Option.bind_some] at h
    have hp := (reduceFrom_prefix op h).length_le
    simp only [List.length_append, List.length_cons, List.length_nil] at hp
    exact ih (ks := ks) (fun j h1 h2 => hs j (by simp at h1; omega) h2)
      (track_binVV op (hs _ le_rfl (by omega)) ha hb1 (hop _ _)) (hb2.imp fun _ _ => Track.mono) h

theorem foldl_add (l : List (ℝ → ℝ)) (x τ : ℝ) :
    l.foldl (fun y k => VVOp.math .add y (k τ)) x = x + (l.map (· τ)).sum := by
  induction l generalizing x with
  | nil => simp
  | cons k l ih => simp only [List.foldl_cons]; rw [ih]; simp [VVOp.math, add_assoc]

theorem foldl_mul (l : List (ℝ → ℝ)) (x τ : ℝ) :
    l.foldl (fun y k => VVOp.math .mul y (k τ)) x = x * (l.map (· τ)).prod := by
  induction l generalizing x with
  | nil => simp
  | cons k l ih => simp only [List.foldl_cons]; rw [ih]; simp [VVOp.math, mul_assoc]

/-- Every statement other than the creation of an input computes its denotation, and its tangent is the derivative of
the denotation along any curve. -/
theorem exec_track {x : ℝ} {g g' : Graph} {env : List Var} {ins : Instr} {v : Var} {s : ℕ → ℝ} {t : ℝ}
    {vals : ℕ → ℝ → ℝ} {w : ℕ → ℝ} (hne : ins ≠ .leaf)
    (hT : ∀ i u, env[i]? = some u → Track g s t u (vals i)) (hw : ∀ i u, env[i]? = some u → w i = vals i t)
    (hs : ∀ j, g.length ≤ j → j < g'.length → s j = 0) (hd : ins.Dom w) (h : ins.exec x g env = some (g', v))
    (y : ℝ → ℝ) :
    Track g' s t v (fun τ => ins.denote (y τ) (fun i => vals i τ)) := by
  cases ins <;> simp only [Instr.exec, Option.bind_eq_bind, Option.bind_eq_some_iff, Instr.Dom] at h hd
  case leaf => exact absurd rfl hne
  case un op i =>
    obtain ⟨a, ha, h⟩ := h
    rw [unary_eq] at h; cases h
    rw [hw i a ha] at hd
    exact track_unary op (hs _ le_rfl (by simp)) (hT i a ha) hd
  case neg i =>
    obtain ⟨a, ha, h⟩ := h
    rw [Autodiff.neg, binVF_eq] at h; cases h
    refine (track_binVF .mul (-1) (hs _ le_rfl (by simp)) (hT i a ha) trivial).congr ?_
    funext τ; simp [VFOp.math, Instr.denote]
  case vv op i j =>
    obtain ⟨a, ha, b, hb, h⟩ := h
    rw [binVV_eq] at h; cases h
    rw [hw i a ha, hw j b hb] at hd
    exact track_binVV op (hs _ le_rfl (by simp)) (hT i a ha) (hT j b hb) hd
  case sub i j =>
    obtain ⟨a, ha, b, hb, h⟩ := h
    rw [subVV_eq, binVV_eq] at h; cases h
    have h1 := track_binVF .mul (-1) (hs _ le_rfl (by simp)) (hT j b hb) trivial
    have h2 := track_binVV .add (hs _ (by simp) (by simp)) (hT i a ha).mono h1 trivial
    refine h2.congr ?_
    funext τ; simp [VFOp.math, VVOp.math, Instr.denote, sub_eq_add_neg]
  case div i j =>
    obtain ⟨a, ha, b, hb, h⟩ := h
    rw [divVV_eq, binVV_eq] at h; cases h
    rw [hw j b hb] at hd
    have h1 := track_unary .recip (hs _ le_rfl (by simp)) (hT j b hb) hd
    have h2 := track_binVV .mul (hs _ (by simp) (by simp)) (hT i a ha).mono h1 trivial
    refine h2.congr ?_
    funext τ; simp [UnOp.math, VVOp.math, Instr.denote, div_eq_mul_inv]
  case vf op i c =>
    obtain ⟨a, ha, h⟩ := h
    rw [binVF_eq] at h; cases h
    rw [hw i a ha] at hd
    exact track_binVF op c (hs _ le_rfl (by simp)) (hT i a ha) hd
  case subF i c =>
    obtain ⟨a, ha, h⟩ := h
    rw [subVF, binVF_eq] at h; cases h
    refine (track_binVF .add (-c) (hs _ le_rfl (by simp)) (hT i a ha) trivial).congr ?_
    funext τ; simp [VFOp.math, Instr.denote, sub_eq_add_neg]
  case divF i c =>
    obtain ⟨a, ha, h⟩ := h
    rw [divVF, binVF_eq] at h; cases h
    refine (track_binVF .mul (1 / c) (hs _ le_rfl (by simp)) (hT i a ha) trivial).congr ?_
    funext τ; simp [VFOp.math, Instr.denote, div_eq_mul_inv]
  case powi i n =>
    obtain ⟨a, ha, h⟩ := h
    rw [powiVI_eq] at h; cases h
    rw [hw i a ha] at hd
    refine track_snoc (hs _ le_rfl (by simp)) (by rw [(hT i a ha).2.1]; rfl) ?_
    simp only [zero_mul, add_zero, Instr.denote]
    rw [(hT i a ha).2.1]
    exact powi_hasDerivAt (hT i a ha).2.2 hd
  case fv op c i =>
    obtain ⟨a, ha, h⟩ := h
    rw [binFV_eq] at h; cases h
    rw [hw i a ha] at hd
    exact track_binFV op c (hs _ le_rfl (by simp)) (hT i a ha) hd
  case fAdd c i =>
    obtain ⟨a, ha, h⟩ := h
    rw [addFV, binVF_eq] at h; cases h
    refine (track_binVF .add c (hs _ le_rfl (by simp)) (hT i a ha) trivial).congr ?_
    funext τ; simp [VFOp.math, Instr.denote, add_comm]
  case fMul c i =>
    obtain ⟨a, ha, h⟩ := h
    rw [mulFV, binVF_eq] at h; cases h
    refine (track_binVF .mul c (hs _ le_rfl (by simp)) (hT i a ha) trivial).congr ?_
    funext τ; simp [VFOp.math, Instr.denote, mul_comm]
  case sum l =>
    obtain ⟨vs, hv, h⟩ := h
    cases mapM_get hv with
    | nil => simp [sumV] at h
    | @cons i a l vs h1 h2 =>
      have hf : List.Forall₂ (Track g s t) vs (l.map vals) := by
        rw [List.forall₂_map_right_iff]
        exact (h2.imp fun i u hu => hT i u hu).flip
      refine (track_reduce .add (fun _ _ => trivial) hs (hT i a h1) hf h).congr ?_
      funext τ
      rw [foldl_add]
      simp [Instr.denote, Function.comp_def]
  case prod l =>
    obtain ⟨vs, hv, h⟩ := h
    cases mapM_get hv with
    | nil => simp [prodV] at h
    | @cons i a l vs h1 h2 =>
      have hf : List.Forall₂ (Track g s t) vs (l.map vals) := by
        rw [List.forall₂_map_right_iff]
        exact (h2.imp fun i u hu => hT i u hu).flip
      refine (track_reduce .mul (fun _ _ => trivial) hs (hT i a h1) hf h).congr ?_
      funext τ
      rw [foldl_mul]
      simp [Instr.denote, Function.comp_def]

/-! ## Whole runs -/

theorem denoteFrom_prefix (x : ℕ → ℝ) (vals : List ℝ) (prog : List Instr) : vals <+: denoteFrom x vals prog := by
  induction prog generalizing vals with
  | nil => exact List.prefix_refl _
  | cons ins rest ih => exact (List.prefix_append _ _).trans (ih _)

theorem denoteFrom_length (x : ℕ → ℝ) (vals : List ℝ) (prog : List Instr) :
    (denoteFrom x vals prog).length = vals.length + prog.length := by
  induction prog generalizing vals with
  | nil => rfl
  | cons ins rest ih => rw [denoteFrom, ih]; simp; omega

/-- An input created later sits at a later position of the tape. -/
theorem leaf_index {x : ℕ → ℝ} {g gF : Graph} {env envF : List Var} {prog : List Instr} (hw : WF g)
    (he : ∀ u ∈ env, u.index < g.length) (h : runFrom x g env prog = some (gF, envF)) {j : ℕ}
    (hj : prog[j]? = some .leaf) : ∃ v, envF[env.length + j]? = some v ∧ g.length ≤ v.index := by
  induction prog generalizing g env j with
  | nil => simp at hj
  | cons ins rest ih =>
    obtain ⟨g', v, h1, h2⟩ := runFrom_cons.1 h
    have hG := exec_grows hw he h1
    obtain ⟨⟨a, hg, la⟩, hw', hi⟩ := hG
    have he' : ∀ u ∈ env ++ [v], u.index < g'.length := fun u hu => by
      rcases List.mem_append.1 hu with hu | hu
      · have := he u hu; rw [hg]; simp; omega
      · simp at hu; subst hu; exact hi
    cases j with
    | zero =>
      simp only [List.getElem?_cons_zero, Option.some.injEq] at hj
      subst hj
      simp only [Instr.exec, var_eq, Option.some.injEq, Prod.mk.injEq] at h1
      refine ⟨v, ?_, by rw [← h1.2]⟩
      obtain ⟨tl, htl⟩ := (runFrom_grows hw' he' h2).2.1
      rw [← htl]; simp
    | succ j =>
      obtain ⟨u, hu, hl⟩ := ih hw' he' h2 (j := j) (by simpa using hj)
      refine ⟨u, by rw [← hu]; congr 1; simp; omega, ?_⟩
      have : g.length ≤ g'.length := by rw [hg]; simp
      omega

/-- The main invariant: along a run, every variable computes its denotation and its tangent for the unit seed at input
`p` is the partial derivative of the denotation with respect to that input. -/
theorem runFrom_track {x : ℕ → ℝ} {p L : ℕ} {g gF : Graph} {env envF : List Var} {prog : List Instr}
    {vals : ℝ → List ℝ} (hw : WF g) (he : ∀ u ∈ env, u.index < g.length)
    (h : runFrom x g env prog = some (gF, envF)) (hlen : ∀ t, (vals t).length = env.length)
    (hL : ∃ u, envF[p]? = some u ∧ u.index = L)
    (hp : p < env.length ∨ ∃ j, p = env.length + j ∧ prog[j]? = some .leaf)
    (hT : ∀ k u, env[k]? = some u →
      Track g (fun j => if j = L then 1 else 0) (x p) u (fun t => (vals t).getD k 0))
    (hd : ∀ (j : ℕ) (ins : Instr), prog[j]? = some ins →
      ins.Dom (fun i => (denoteFrom x (vals (x p)) prog).getD i 0)) :
    ∀ k u, envF[k]? = some u → Track gF (fun j => if j = L then 1 else 0) (x p) u
      (fun t => (denoteFrom (Function.update x p t) (vals t) prog).getD k 0) := by
  induction prog generalizing g env vals with
  | nil =>
    simp only [runFrom, Option.some.injEq, Prod.mk.injEq] at h
    obtain ⟨rfl, rfl⟩ := h
    exact hT
  | cons ins rest ih =>
    obtain ⟨g', v, h1, h2⟩ := runFrom_cons.1 h
    obtain ⟨⟨a, hg, la⟩, hw', hi⟩ := exec_grows hw he h1
    have he' : ∀ u ∈ env ++ [v], u.index < g'.length := fun u hu => by
      rcases List.mem_append.1 hu with hu | hu
      · have := he u hu; rw [hg]; simp; omega
      · simp at hu; subst hu; exact hi
    have hpre := (runFrom_grows hw' he' h2).2.1
    have hget : ∀ k, k < env.length → envF[k]? = env[k]? := fun k hk => by
      obtain ⟨tl, htl⟩ := hpre
      rw [← htl, List.append_assoc, List.getElem?_append_left hk]
    have hgetv : envF[env.length]? = some v := by
      obtain ⟨tl, htl⟩ := hpre
      rw [← htl]; simp
    obtain ⟨u0, hu0, hL0⟩ := hL
    -- the seed position relative to this statement
    have hcase : (p < env.length ∧ L < g.length) ∨ (p = env.length ∧ ins = .leaf ∧ v.index = L) ∨
        (env.length < p ∧ g'.length ≤ L) := by
      rcases hp with hp | ⟨j, hj, hl⟩
      · left
        refine ⟨hp, ?_⟩
        rw [hget p hp] at hu0
        rw [← hL0]; exact he u0 (List.mem_of_getElem? hu0)
      · right
        cases j with
        | zero =>
          left
          refine ⟨by simpa using hj, by simpa using hl, ?_⟩
          rw [hj] at hu0
          simp only [Nat.add_zero] at hu0
          rw [hgetv] at hu0
          cases hu0; exact hL0
        | succ j =>
          right
          refine ⟨by omega, ?_⟩
          obtain ⟨u1, hu1, hl1⟩ := leaf_index hw' he' h2 (j := j) (by simpa using hl)
          rw [show (env ++ [v]).length + j = p by simp; omega, hu0] at hu1
          cases hu1
          omega
    set s : ℕ → ℝ := fun j => if j = L then 1 else 0 with hsdef
    have htrack : Track g' s (x p) v
        (fun t => ins.denote (Function.update x p t env.length) (fun i => (vals t).getD i 0)) := by
      by_cases hleaf : ins = .leaf
      · subst hleaf
        simp only [Instr.exec, var_eq, Option.some.injEq, Prod.mk.injEq] at h1
        obtain ⟨hg1, hv1⟩ := h1
        rw [← hg1, ← hv1]
        refine ⟨by simp, ?_, ?_⟩
        · simp [Instr.denote]
        · simp only [tangents_snoc, Instr.denote, zero_mul, add_zero]
          rcases hcase with ⟨c1, c2⟩ | ⟨c1, -, c3⟩ | ⟨c1, c2⟩
          · have e1 : s g.length = 0 := by simp only [hsdef]; rw [if_neg (by omega)]
            rw [e1]
            have : (fun t => Function.update x p t env.length) = fun _ => x env.length := by
              funext t; rw [Function.update_of_ne (by omega)]
            rw [this]; exact hasDerivAt_const _ _
          · have e1 : s g.length = 1 := by
              simp only [hsdef]; rw [if_pos]; rw [← c3, ← hv1]
            rw [e1]
            have : (fun t => Function.update x p t env.length) = id := by
              funext t; rw [← c1]; simp
            rw [this]; exact hasDerivAt_id _
          · have e1 : s g.length = 0 := by
              simp only [hsdef]; rw [if_neg]
              rw [← hg1] at c2; simp at c2; omega
            rw [e1]
            have : (fun t => Function.update x p t env.length) = fun _ => x env.length := by
              funext t; rw [Function.update_of_ne (by omega)]
            rw [this]; exact hasDerivAt_const _ _
      · refine exec_track (vals := fun i t => (vals t).getD i 0)
          (w := fun i => (denoteFrom x (vals (x p)) (ins :: rest)).getD i 0) hleaf hT ?_ ?_
          (hd 0 ins (by simp)) h1 (fun t => Function.update x p t env.length)
        · intro i u hu
          refine getD_of_prefix (denoteFrom_prefix _ _ _) ?_
          rw [hlen]; exact (List.getElem?_eq_some_iff.1 hu).1
        · intro j h1 h2
          simp only [hsdef]
          rw [if_neg]
          rcases hcase with ⟨_, c⟩ | ⟨_, c, _⟩ | ⟨_, c⟩
          · omega
          · exact absurd c hleaf
          · omega
    have hupd : Function.update x p (x p) = x := by simp
    have hfin := ih (vals := fun t => vals t ++
        [ins.denote (Function.update x p t (vals t).length) (fun i => (vals t).getD i 0)]) hw' he' h2
      (fun t => by simp [hlen]) ?_ ?_ ?_
    · intro k u hu
      exact hfin k u hu
    · rcases hp with hp | ⟨j, hj, hl⟩
      · left; simp; omega
      · cases j with
        | zero => left; simp; omega
        | succ j => right; exact ⟨j, by simp; omega, by simpa using hl⟩
    · intro k u hu
      by_cases hk : k < env.length
      · rw [List.getElem?_append_left hk] at hu
        have := (hT k u hu).mono (h := a)
        rw [← hg] at this
        refine this.congr ?_
        funext t
        exact (getD_of_prefix (List.prefix_append _ _) (by rw [hlen]; exact hk)).symm
      · have hke : k = env.length := by
          have := (List.getElem?_eq_some_iff.1 hu).1
          simp at this; omega
        subst hke
        simp only [List.getElem?_append_right le_rfl, Nat.sub_self, List.getElem?_cons_zero, Option.some.injEq] at hu
        subst hu
        refine htrack.congr ?_
        funext t
        rw [List.getD_eq_getElem?_getD, List.getElem?_append_right (by rw [hlen]), hlen]
        simp
    · intro j ins' hj
      have := hd (j + 1) ins' (by simpa using hj)
      simp only [denoteFrom] at this
      rw [hupd]
      exact this

end Verif.Autodiff
