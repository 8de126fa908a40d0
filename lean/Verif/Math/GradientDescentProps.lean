import Verif.Math.GradientDescent
import Verif.Autodiff.Props
import Mathlib.Data.List.GetD
import Mathlib.Algebra.Order.BigOperators.Group.List
import Mathlib.Tactic.Linarith
import Mathlib.Tactic.Ring
import Mathlib.Tactic.NormNum
import Mathlib.Tactic.Positivity

/-!
# C50: gradient descent

`descend lr G k x0` is the mathematical iteration `x ↦ x - lr G(x)`, `k` times; `F body` is the mathematical function a
client objective denotes.
-/

namespace Verif.Math.GradientDescent

open Verif.Autodiff (Instr Graph Var Scoped denote run accumulate wrtAll)

/-- One mathematical gradient step. -/
def gradStep (lr : ℝ) (G : List ℝ → List ℝ) (x : List ℝ) : List ℝ := List.zipWith (fun a g => a - lr * g) x (G x)

/-- `k` gradient steps. -/
def descend (lr : ℝ) (G : List ℝ → List ℝ) : ℕ → List ℝ → List ℝ
  | 0, x => x
  | k + 1, x => descend lr G k (gradStep lr G x)

theorem descend_succ (lr : ℝ) (G : List ℝ → List ℝ) (k : ℕ) (x : List ℝ) :
    descend lr G (k + 1) x = gradStep lr G (descend lr G k x) := by
  induction k generalizing x with
  | zero => rfl
  | succ k ih => rw [descend, ih, descend]

/-- The Euclidean length. -/
noncomputable def len (x : List ℝ) : ℝ := √((x.map (· ^ 2)).sum)

theorem norm_eq_len (x : List ℝ) : norm x = len x := by
  unfold norm len
  congr 3
  funext a; ring

theorem gradStep_length (lr : ℝ) (G : List ℝ → List ℝ) (x : List ℝ) (h : (G x).length = x.length) :
    (gradStep lr G x).length = x.length := by simp [gradStep, h]

theorem descend_length (lr : ℝ) (G : List ℝ → List ℝ) (hG : ∀ x, (G x).length = x.length) (k : ℕ) (x : List ℝ) :
    (descend lr G k x).length = x.length := by
  induction k generalizing x with
  | zero => rfl
  | succ k ih => rw [descend, ih, gradStep_length _ _ _ (hG x)]

theorem update_eq (lr : ℝ) (G : List ℝ → List ℝ) (x : List ℝ) (h : (G x).length = x.length) :
    update lr x (G x) = gradStep lr G x := by
  unfold update gradStep
  rw [h, List.drop_length, List.append_nil]

theorem loop_record (oracle : List ℝ → Option (ℝ × List ℝ)) (f : List ℝ → ℝ) (G : List ℝ → List ℝ) (d : ℕ)
    (ho : ∀ x : List ℝ, x.length = d → oracle x = some (f x, G x)) (hG : ∀ x, (G x).length = x.length) (lr tol : ℝ) :
    ∀ (n k : ℕ) (r : Result), r.minimizer.length = d → r.iterations = k → ∃ r' j, loop oracle lr tol n k r = some r' ∧ j ≤ n ∧
      r'.minimizer = descend lr G j r.minimizer ∧ (∀ i, i < j → tol ≤ len (G (descend lr G i r.minimizer))) ∧
      ((j < n ∧ len (G r'.minimizer) < tol ∧ r'.iterations = k + j + 1) ∨ (j = n ∧ r'.iterations = k + n)) ∧
      ((j = 0 ∧ r'.minimum = r.minimum) ∨ ∃ i, j = i + 1 ∧ r'.minimum = f (descend lr G i r.minimizer)) := by
  intro n
  induction n with
  | zero => intro k r hr hk; exact ⟨r, 0, rfl, le_rfl, rfl, by simp, Or.inr ⟨rfl, by omega⟩, Or.inl ⟨rfl, rfl⟩⟩
  | succ n ih =>
    intro k r hr hk
    rw [loop, ho _ hr]
    simp only [Option.bind_eq_bind, Option.bind_some]
    by_cases hs : isStationary (G r.minimizer) tol
    · rw [if_pos hs]
      refine ⟨_, 0, rfl, by omega, rfl, by simp, Or.inl ⟨by omega, ?_, by simp⟩, Or.inl ⟨rfl, rfl⟩⟩
      rw [← norm_eq_len]; exact hs
    · rw [if_neg hs]
      have hl : (update lr r.minimizer (G r.minimizer)).length = d := by
        rw [update_eq _ _ _ (hG _), gradStep_length _ _ _ (hG _), hr]
      obtain ⟨r', j, h1, h2, h3, h4, h5, h6⟩ :=
        ih (k + 1) ⟨update lr r.minimizer (G r.minimizer), f r.minimizer, k + 1⟩ hl rfl
      simp only [update_eq _ _ _ (hG r.minimizer)] at h1 h3 h4 h6 ⊢
      refine ⟨r', j + 1, h1, by omega, by rw [h3, descend], ?_, ?_, Or.inr ⟨j, rfl, ?_⟩⟩
      · intro i hi
        cases i with
        | zero =>
          rw [← norm_eq_len]
          exact not_lt.1 hs
        | succ i => rw [descend]; exact h4 i (by omega)
      · rcases h5 with ⟨a, b, c⟩ | ⟨a, c⟩
        · exact Or.inl ⟨by omega, b, by omega⟩
        · exact Or.inr ⟨by omega, by omega⟩
      · rcases h6 with ⟨rfl, h⟩ | ⟨i, rfl, h⟩
        · exact h
        · rw [h, descend]

/-- C50: for every objective `f` with gradient `G`, every start, rate, budget and tolerance, the optimiser returns,
and its record is that of plain gradient descent: for some `j` not above the budget, the minimiser is the `j`-th
iterate from the start; no earlier iterate had a gradient shorter than the tolerance; either the budget was spent, or
the returned point is the first stationary one. The reported `minimum` is `f` at the iterate *before* the returned
point, and `0` when no step was taken. -/
theorem C50_record (o : Optimizer) (oracle : List ℝ → Option (ℝ × List ℝ)) (f : List ℝ → ℝ) (G : List ℝ → List ℝ)
    (x0 : List ℝ) (ho : ∀ x : List ℝ, x.length = x0.length → oracle x = some (f x, G x))
    (hG : ∀ x, (G x).length = x.length) :
    ∃ r j, optimizeWith o oracle x0 = some r ∧ j ≤ o.maxIterations ∧
      r.minimizer = descend o.learningRate G j x0 ∧
      (∀ i, i < j → o.tol ≤ len (G (descend o.learningRate G i x0))) ∧
      ((j < o.maxIterations ∧ len (G r.minimizer) < o.tol ∧ r.iterations = j + 1) ∨
        (j = o.maxIterations ∧ r.iterations = o.maxIterations)) ∧
      r.iterations ≤ o.maxIterations ∧
      ((j = 0 ∧ r.minimum = 0) ∨ ∃ i, j = i + 1 ∧ r.minimum = f (descend o.learningRate G i x0)) := by
  obtain ⟨r, j, h1, h2, h3, h4, h5, h6⟩ :=
    loop_record oracle f G x0.length ho hG o.learningRate o.tol o.maxIterations 0 ⟨x0, 0, 0⟩ rfl rfl
  simp only [zero_add] at h5
  refine ⟨r, j, h1, h2, h3, h4, h5, ?_, h6⟩
  rcases h5 with ⟨a, _, c⟩ | ⟨_, c⟩ <;> omega

example := C50_record ⟨1 / 10, 100, some (1 / 100)⟩ (fun x => some ((x.map (· ^ 2)).sum, x.map (2 * ·)))
  (fun x => (x.map (· ^ 2)).sum) (fun x => x.map (2 * ·)) [3, -1] (fun _ _ => rfl) (fun x => by simp)

/-! ## The gradient used is the true gradient -/

/-- The function of `y` denoted by a client objective: the last statement of `body` run on variables holding `y`. -/
noncomputable def F (body : List Instr) (y : List ℝ) : ℝ :=
  denote (List.replicate y.length Instr.leaf ++ body) (fun i => y.getD i 0) (y.length + body.length - 1)

/-- C50: at every point where the objective's operations are differentiable, the value and the gradient the optimiser
works with are the objective's value and its vector of partial derivatives. -/
theorem C50_gradient (body : List Instr) (x : List ℝ) (hs : Scoped (List.replicate x.length Instr.leaf ++ body))
    (hne : 0 < x.length + body.length)
    (hd : Autodiff.Differentiable (List.replicate x.length Instr.leaf ++ body) (fun i => x.getD i 0)) :
    ∃ g, evaluate body x = some (F body x, g) ∧ g.length = x.length ∧
      ∀ (i : ℕ) (d : ℝ), g[i]? = some d → HasDerivAt (fun t => F body (x.set i t)) d (x.getD i 0) := by
  obtain ⟨gr, env, hrun, hlen⟩ := Autodiff.C26_runs _ hs (fun i => x.getD i 0)
  simp only [List.length_append, List.length_replicate] at hlen
  have hz : env[x.length + body.length - 1]? = some (env[x.length + body.length - 1]'(by omega)) :=
    List.getElem?_eq_getElem (by omega)
  set z := env[x.length + body.length - 1]'(by omega) with hzdef
  have hzlast : env.getLast? = some z := by rw [List.getLast?_eq_getElem?, hlen, hz]
  have hleaf : ∀ p, p < x.length → (List.replicate x.length Instr.leaf ++ body)[p]? = some .leaf := by
    intro p hp
    rw [List.getElem?_append_left (by simpa using hp), List.getElem?_replicate, if_pos hp]
  have hv := Autodiff.C26_values _ _ _ _ hrun _ z hz
  obtain ⟨-, -, -, htape⟩ := Autodiff.C27_tape _ _ _ _ hrun
  obtain ⟨hzi, adj, hacc, hadj⟩ := htape z (List.mem_of_getElem? hz)
  have hw : wrtAll adj (env.take x.length) = some ((env.take x.length).map fun v => adj.getD v.index 0) := by
    unfold wrtAll
    have : ∀ vs : List Var, (∀ v ∈ vs, v ∈ env) →
        vs.mapM (fun v => adj[v.index]?) = some (vs.map fun v => adj.getD v.index 0) := by
      intro vs
      induction vs with
      | nil => intro _; rfl
      | cons v vs ih =>
        intro h
        have hvi := (htape v (h v (by simp))).1
        rw [List.mapM_cons, ih (fun w hw => h w (by simp [hw])), List.getElem?_eq_getElem (by omega)]
        simp [hadj, hvi]
    exact this _ (fun v hv => List.mem_of_mem_take hv)
  refine ⟨(env.take x.length).map fun v => adj.getD v.index 0, ?_, ?_, ?_⟩
  · unfold evaluate
    rw [hrun]
    simp only [Option.bind_eq_bind, Option.bind_some, hzlast, hacc, hw]
    rw [hv]; rfl
  · simp; omega
  · intro i d hi
    simp only [List.getElem?_map, Option.map_eq_some_iff] at hi
    obtain ⟨xp, hxp, hd'⟩ := hi
    have hi : i < x.length := by
      by_contra hc
      rw [List.getElem?_eq_none (by simp; omega)] at hxp
      simp at hxp
    rw [List.getElem?_take_of_lt hi] at hxp
    obtain ⟨_, adj', d', h1, h2, h3⟩ := Autodiff.C26_gradient_exact _ _ _ _ hrun hd _ z hz i (hleaf i hi) xp hxp
    rw [hacc] at h1
    cases h1
    have hdd : d' = d := by
      rw [← hd', List.getD_eq_getElem?_getD]
      unfold Autodiff.wrt at h2
      rw [h2]; rfl
    subst hdd
    have : (fun t => F body (x.set i t)) = fun t => denote (List.replicate x.length Instr.leaf ++ body)
        (Function.update (fun i => x.getD i 0) i t) (x.length + body.length - 1) := by
      funext t
      unfold F
      rw [List.length_set]
      congr 1
      funext m
      by_cases hm : m = i
      · subst hm; simp [hi]
      · rw [Function.update_of_ne hm, List.getD_eq_getElem?_getD, List.getElem?_set_ne (Ne.symm hm),
          List.getD_eq_getElem?_getD]
    rw [this]
    exact h3

/-- Hypotheses met by `f(x) = x[0] * x[0]`, the objective of the crate's own test. -/
example : ∃ g, evaluate [.vv .mul 0 0] [3] = some (F [.vv .mul 0 0] [3], g) ∧ g.length = 1 := by
  have hs : Scoped (List.replicate [(3 : ℝ)].length Instr.leaf ++ [.vv .mul 0 0]) := by
    intro k ins hk
    match k with
    | 0 => simp at hk; subst hk; simp [Instr.refs]
    | 1 => simp at hk; subst hk; simp [Instr.refs]
    | k + 2 => simp at hk
  have hd : Autodiff.Differentiable (List.replicate [(3 : ℝ)].length Instr.leaf ++ [.vv .mul 0 0])
      (fun i => [(3 : ℝ)].getD i 0) := by
    intro k ins hk
    match k with
    | 0 => simp at hk; subst hk; simp [Instr.Dom]
    | 1 => simp at hk; subst hk; simp [Instr.Dom, Autodiff.VVOp.Dom]
    | k + 2 => simp at hk
  obtain ⟨g, h1, h2, _⟩ := C50_gradient [.vv .mul 0 0] [3] hs (by simp) hd
  exact ⟨g, h1, h2⟩

/-! ## Convergence -/

/-- Inner product of coordinate lists. -/
def dot (x y : List ℝ) : ℝ := (List.zipWith (· * ·) x y).sum

/-- `G` is the gradient of an `L`-smooth `f` on `d`-dimensional points: the standard quadratic upper bound. -/
def Smooth (f : List ℝ → ℝ) (G : List ℝ → List ℝ) (L : ℝ) (d : ℕ) : Prop :=
  ∀ x y : List ℝ, x.length = d → y.length = d →
    f y ≤ f x + dot (G x) (List.zipWith (· - ·) y x) + L / 2 * ((List.zipWith (· - ·) y x).map (· ^ 2)).sum

theorem step_dot (lr : ℝ) : ∀ x g : List ℝ, g.length = x.length →
    dot g (List.zipWith (· - ·) (List.zipWith (fun a g => a - lr * g) x g) x) = -lr * (g.map (· ^ 2)).sum ∧
    ((List.zipWith (· - ·) (List.zipWith (fun a g => a - lr * g) x g) x).map (· ^ 2)).sum =
      lr ^ 2 * (g.map (· ^ 2)).sum := by
  intro x
  induction x with
  | nil => intro g h; rw [List.length_nil, List.length_eq_zero_iff] at h; subst h; simp [dot]
  | cons a x ih =>
    intro g h
    cases g with
    | nil => simp at h
    | cons b g =>
      obtain ⟨h1, h2⟩ := ih g (by simpa using h)
      constructor
      · simp only [dot, List.zipWith_cons_cons, List.sum_cons, List.map_cons] at h1 ⊢
        rw [h1]; ring
      · simp only [List.zipWith_cons_cons, List.map_cons, List.sum_cons] at h2 ⊢
        rw [h2]; ring

theorem len_sq (g : List ℝ) : len g ^ 2 = (g.map (· ^ 2)).sum := by
  unfold len
  rw [Real.sq_sqrt]
  apply List.sum_nonneg
  intro a ha
  rw [List.mem_map] at ha
  obtain ⟨b, _, rfl⟩ := ha
  positivity

theorem step_decreases (f : List ℝ → ℝ) (G : List ℝ → List ℝ) (L lr : ℝ) (d : ℕ) (hs : Smooth f G L d)
    (hG : ∀ x, (G x).length = x.length) (x : List ℝ) (hx : x.length = d) :
    f (gradStep lr G x) ≤ f x - lr * (1 - L * lr / 2) * len (G x) ^ 2 := by
  have h := hs x (gradStep lr G x) hx (by rw [gradStep_length _ _ _ (hG x), hx])
  obtain ⟨h1, h2⟩ := step_dot lr x (G x) (hG x)
  unfold gradStep at h ⊢
  rw [h1, h2] at h
  rw [len_sq]
  linarith

/-- C50: on a smooth objective bounded below by `m`, with a rate under `2/L` and a budget exceeding
`(f(x0) - m) / (lr (1 - L lr/2) tol²)`, the optimiser always stops at a point whose gradient is shorter than the
tolerance; and for any budget the returned point is no worse than the start. -/
theorem C50_converges (o : Optimizer) (oracle : List ℝ → Option (ℝ × List ℝ)) (f : List ℝ → ℝ) (G : List ℝ → List ℝ)
    (x0 : List ℝ) (ho : ∀ x : List ℝ, x.length = x0.length → oracle x = some (f x, G x))
    (hG : ∀ x, (G x).length = x.length) (L m : ℝ) (hs : Smooth f G L x0.length)
    (hm : ∀ x : List ℝ, x.length = x0.length → m ≤ f x) (hlr : 0 < o.learningRate) (hL : L * o.learningRate < 2) :
    ∃ r, optimizeWith o oracle x0 = some r ∧ f r.minimizer ≤ f x0 ∧
      (0 < o.tol → f x0 - m < o.maxIterations * (o.learningRate * (1 - L * o.learningRate / 2) * o.tol ^ 2) →
        len (G r.minimizer) < o.tol) := by
  obtain ⟨r, j, h1, h2, h3, h4, h5, -, -⟩ := C50_record o oracle f G x0 ho hG
  have hc : 0 < o.learningRate * (1 - L * o.learningRate / 2) := mul_pos hlr (by linarith)
  have mono : ∀ i, f (descend o.learningRate G i x0) ≤ f x0 := by
    intro i
    induction i with
    | zero => exact le_rfl
    | succ i ih =>
      rw [descend_succ]
      have := step_decreases f G L o.learningRate _ hs hG (descend o.learningRate G i x0) (descend_length _ _ hG _ _)
      have : 0 ≤ o.learningRate * (1 - L * o.learningRate / 2) * len (G (descend o.learningRate G i x0)) ^ 2 := by
        positivity
      linarith
  refine ⟨r, h1, by rw [h3]; exact mono j, fun ht hb => ?_⟩
  rcases h5 with ⟨_, h, _⟩ | ⟨hj, _⟩
  · exact h
  · exfalso
    have key : ∀ i, i ≤ j → f (descend o.learningRate G i x0) ≤
        f x0 - i * (o.learningRate * (1 - L * o.learningRate / 2) * o.tol ^ 2) := by
      intro i
      induction i with
      | zero => intro _; simp [descend]
      | succ i ih =>
        intro hi
        have a := ih (by omega)
        have b := step_decreases f G L o.learningRate _ hs hG (descend o.learningRate G i x0) (descend_length _ _ hG _ _)
        have c := h4 i (by omega)
        have e : o.tol ^ 2 ≤ len (G (descend o.learningRate G i x0)) ^ 2 := pow_le_pow_left₀ ht.le c 2
        have e' := mul_le_mul_of_nonneg_left e hc.le
        rw [descend_succ]
        push_cast
        linarith
    have a := key j le_rfl
    have b := hm (descend o.learningRate G j x0) (descend_length _ _ hG _ _)
    rw [hj] at a b
    linarith

/-- Hypotheses met by `f(x) = Σ xᵢ²` with `L = 2`, `m = 0`, rate `1/4`. -/
example (d : ℕ) : Smooth (fun x => (x.map (· ^ 2)).sum) (fun x => x.map (2 * ·)) 2 d := by
  intro x y hx hy
  simp only
  have : ∀ x y : List ℝ, y.length = x.length → (y.map (· ^ 2)).sum = (x.map (· ^ 2)).sum +
      dot (x.map (2 * ·)) (List.zipWith (· - ·) y x) + ((List.zipWith (· - ·) y x).map (· ^ 2)).sum := by
    intro x
    induction x with
    | nil => intro y h; rw [List.length_nil, List.length_eq_zero_iff] at h; subst h; simp [dot]
    | cons a x ih =>
      intro y h
      cases y with
      | nil => simp at h
      | cons b y =>
        have := ih y (by simpa using h)
        simp only [dot, List.map_cons, List.zipWith_cons_cons, List.sum_cons] at this ⊢
        rw [this]; ring
  rw [this x y (by omega)]
  linarith

/-! ## Construction and defects -/

/-- C50: `new` panics exactly on a supplied tolerance that is not positive, and otherwise stores its arguments; the
default tolerance is the square root of the machine epsilon `2^-52`. -/
theorem C50_new (lr : ℝ) (n : ℕ) (t : Option ℝ) :
    (new lr n t = none ↔ ∃ x, t = some x ∧ x ≤ 0) ∧
    ∀ o, new lr n t = some o → o.learningRate = lr ∧ o.maxIterations = n ∧ 0 < o.tol ∧ (∀ x, t = some x → o.tol = x) ∧
      (t = none → o.tol ^ 2 = 1 / 2 ^ 52) := by
  unfold new
  cases t with
  | none =>
    simp only [reduceCtorEq, false_and, exists_false, Option.some.injEq, IsEmpty.forall_iff,
      implies_true, true_and, forall_const]
    rintro o rfl
    exact ⟨rfl, rfl, by unfold Optimizer.tol; simp, by
      unfold Optimizer.tol; simp only [Option.getD_none]; exact Real.sq_sqrt (by positivity)⟩
  | some x =>
    simp only [Option.some.injEq, exists_eq_left']
    split_ifs with h
    · refine ⟨by simpa using h, ?_⟩
      rintro o ho
      cases ho
      exact ⟨rfl, rfl, by simpa [Optimizer.tol] using h, fun y hy => by simpa [Optimizer.tol] using hy, by simp⟩
    · exact ⟨by simpa using h, by simp⟩

example : (new (1 / 10) 1000 (some (1 / 10000))).isSome := by unfold new; simp

/-- C50 (negation): the reported `minimum` is not the objective's value at the reported minimiser, and can lie below
every value the objective takes. For every objective, a start that is already stationary is returned with minimum `0`. -/
theorem C50_minimum_not_attained (o : Optimizer) (oracle : List ℝ → Option (ℝ × List ℝ)) (f : List ℝ → ℝ)
    (G : List ℝ → List ℝ) (x0 : List ℝ) (ho : ∀ x : List ℝ, x.length = x0.length → oracle x = some (f x, G x))
    (hG : ∀ x, (G x).length = x.length) (hst : len (G x0) < o.tol) :
    ∃ r, optimizeWith o oracle x0 = some r ∧ r.minimizer = x0 ∧ r.minimum = 0 := by
  obtain ⟨r, j, h1, h2, h3, h4, h5, -, h6⟩ := C50_record o oracle f G x0 ho hG
  have hj : j = 0 := by
    by_contra hj
    have := h4 0 (by omega)
    rw [descend] at this
    linarith
  subst hj
  refine ⟨r, h1, h3, ?_⟩
  rcases h6 with ⟨_, h⟩ | ⟨i, h, _⟩
  · exact h
  · omega

/-- Hypotheses met: `x² + 1` started at `0` is reported to have minimum `0`. -/
example : ∃ r, optimize ⟨1 / 10, 100, some (1 / 100)⟩ [.vv .mul 0 0, .vf .add 1 1] [0] = some r ∧
    r.minimizer = [0] ∧ r.minimum = 0 := by
  have he : evaluate [.vv .mul 0 0, .vf .add 1 1] [0] = some (1, [0]) := by
    simp [evaluate, run, Autodiff.runFrom, Instr.exec, Autodiff.var, Autodiff.push, Autodiff.binVV,
      Autodiff.binVF, Autodiff.accumulate, Autodiff.sweep, Autodiff.addAt, Autodiff.VVOp.partials,
      Autodiff.VFOp.partials, wrtAll, Autodiff.VVOp.value, Autodiff.VFOp.value]
  refine ⟨⟨[0], 0, 1⟩, ?_, rfl, rfl⟩
  unfold optimize optimizeWith
  rw [show (100 : ℕ) = 99 + 1 from rfl, loop, he]
  simp only [Option.bind_eq_bind, Option.bind_some]
  rw [if_pos (by simp [isStationary, norm, Optimizer.tol])]

end Verif.Math.GradientDescent
