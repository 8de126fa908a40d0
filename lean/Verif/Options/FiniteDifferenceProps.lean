import Verif.Options.FiniteDifferenceLemmas
import Mathlib.Analysis.SpecialFunctions.Pow.Real

/-!
# Properties of the finite-difference pricer (C48)

Specification: `tridiag n a d c` is the `n × n` matrix with `d` on, `c` above and `a` below the diagonal
(`FiniteDifferenceLemmas`), `boundaryVec` the vector that carries the boundary value, `exerVec` the comparison with
the immediate-exercise value.
-/

namespace Verif.Options.FdPricer

open Matrix Real

/-- Boundary contribution: the call boundary at the last, the put boundary at the first inner node. -/
noncomputable def boundaryVec (o : FdPricer) (lo hi : ℝ) (t : ℕ) : Fin (o.priceSteps - 1) → ℝ := fun i =>
  match o.typeFlag with
  | .call => if i.val = o.priceSteps - 2 then hi * o.callBoundary (t * o.dt) o.xMax else 0
  | .put => if i.val = 0 then lo * o.putBoundary (t * o.dt) o.xMin else 0

/-- The price of the underlying at inner node `i`. -/
noncomputable def node (o : FdPricer) (i : Fin (o.priceSteps - 1)) : ℝ := exp (o.xMin + (i.val + 1) * o.dx)

/-- Early exercise: at each node the larger of the continuation value and the exercise value (both in money of time
`t`), for pricers whose flag is American from the smallest to the largest representable date. -/
noncomputable def exerVec (o : FdPricer) (t : ℕ) (w : Fin (o.priceSteps - 1) → ℝ) : Fin (o.priceSteps - 1) → ℝ := fun i =>
  if o.exerciseFlag = .american dateMin dateMax then
    max (w i) (exp (o.riskFreeRate * (t * o.dt)) * o.payoff (o.node i))
  else w i

/-! ### The tridiagonal routines -/

/-- The product routine multiplies by the tridiagonal matrix, for every vector of length at least 2 (shorter vectors
panic). -/
theorem C48_product (n : ℕ) (a d c : ℝ) (u : Fin n → ℝ) :
    tridiagMul a d c (List.ofFn u) = (if n < 2 then none else some (List.ofFn (tridiag n a d c *ᵥ u))) :=
  tridiagMul_ofFn n u

/-- The inversion routine returns the inverse of the tridiagonal matrix, for every size at least 2 and every
invertible matrix; the last entry of its recurrence is the determinant. -/
theorem C48_inverse (n : ℕ) (hn : 2 ≤ n) (a d c : ℝ) (hdet : (tridiag n a d c).det ≠ 0) :
    ∃ M : Matrix (Fin n) (Fin n) ℝ, invTridiag a d c n = (List.ofFn fun i => List.ofFn fun j => M i j) ∧
      tridiag n a d c * M = 1 ∧ M * tridiag n a d c = 1 ∧
      (∀ u, matMul (invTridiag a d c n) (List.ofFn u) = List.ofFn (M *ᵥ u)) ∧
      (thetaVec a d c n).getLast? = some (tridiag n a d c).det := by
  rw [tridiag_det] at hdet
  have h1 := tridiag_mul_invMat n hdet
  refine ⟨invMat n a d c, invTridiag_eq n hn, h1, mul_eq_one_comm.mp h1, ?_, ?_⟩
  · intro u; rw [invTridiag_eq n hn, matMul_ofFn]
  · rw [thetaVec_eq n (n - 2) (by omega), List.range_succ, List.map_append, tridiag_det]; simp

/-- Defect: for the smallest grid (two price steps, a single inner node) the routine returns `1 / (d² - a c)` as the
inverse of the `1 × 1` matrix `d`; this is wrong unless `d² - a c = d`. -/
theorem C48_inverse_one (a d c : ℝ) : invTridiag a d c 1 = [[1 / (d * d - c * a)]] ∧
    ((tridiag 1 a d c).det = d) ∧ ∃ x : ℝ, invTridiag (-x) (1 + 2 * x) (-x) 1 ≠ [[1 / (1 + 2 * x)]] := by
  have h : ∀ a d c : ℝ, invTridiag a d c 1 = [[1 / (d * d - c * a)]] := by
    intro a d c
    simp [invTridiag, thetaVec, phiVec, invEntry]
  refine ⟨h a d c, ?_, 1, ?_⟩
  · simp [tridiag]
  · rw [h]; norm_num

/-! ### The three schemes -/

theorem new_some {S K r v T : ℝ} {m n : ℕ} {f : TypeFlag} {e : ExerciseFlag} {o : FdPricer}
    (h : new S K r v T m n f e = some o) :
    o = ⟨S, K, r, v, T, m, n, f, e⟩ ∧ 0 < S ∧ 0 < K ∧ 0 < r ∧ 0 < v ∧ 0 < m ∧ 0 < n := by
  unfold new at h
  split_ifs at h with hc
  exact ⟨(Option.some.inj h).symm, hc⟩

/-- What `new` guarantees, and a positive time to expiry. -/
structure Ok (o : FdPricer) : Prop where
  S : 0 < o.initialPrice
  K : 0 < o.strikePrice
  r : 0 < o.riskFreeRate
  v : 0 < o.volatility
  m : 0 < o.timeSteps
  n : 0 < o.priceSteps
  T : 0 < o.T

theorem ok_of_new {S K r v T : ℝ} {m n : ℕ} {f : TypeFlag} {e : ExerciseFlag} {o : FdPricer}
    (h : new S K r v T m n f e = some o) (hT : 0 < T) : o.Ok := by
  obtain ⟨rfl, h1, h2, h3, h4, h5, h6⟩ := new_some h
  exact ⟨h1, h2, h3, h4, h5, h6, hT⟩

theorem Ok.dt_pos {o : FdPricer} (h : o.Ok) : 0 < o.dt := by
  have := h.T; have := h.m; unfold dt; positivity

theorem Ok.dx_pos {o : FdPricer} (h : o.Ok) : 0 < o.dx := by
  have := h.T; have := h.v; have := h.n
  have : 0 < o.volatility * √o.T := by positivity
  unfold dx xMax xMin
  apply div_pos _ (by positivity)
  linarith

theorem Ok.cx_pos {o : FdPricer} (h : o.Ok) : 0 < o.cx := by
  have := h.dt_pos; have := h.dx_pos; have := h.v; unfold cx; positivity

theorem addAt_ofFn {n : ℕ} (u : Fin n → ℝ) (i : ℕ) (e : ℝ) :
    addAt (List.ofFn u) i e = if i < n then some (List.ofFn (u + fun j => if j.val = i then e else 0)) else none := by
  unfold addAt
  rw [List.length_ofFn]
  split_ifs with h
  · congr 1
    refine List.ext_getElem (by simp) ?_
    intro j h1 h2
    rw [List.getElem_set, List.getElem_ofFn, List.getElem_ofFn]
    simp only [Pi.add_apply, getD_ofFn n u i h]
    split_ifs with h3 h4 h4
    · subst h3; rfl
    · exact absurd h3.symm h4
    · exact absurd h4.symm h3
    · rw [add_zero]
  · rfl

theorem boundary_ofFn (o : FdPricer) (h2 : 2 ≤ o.priceSteps) (lo hi : ℝ) (t : ℕ) (u : Fin (o.priceSteps - 1) → ℝ) :
    o.boundary lo hi t (List.ofFn u) = some (List.ofFn (u + o.boundaryVec lo hi t)) := by
  unfold boundary boundaryVec
  cases o.typeFlag
  · simp only
    rw [if_neg (by omega), addAt_ofFn, if_pos (by omega)]
  · simp only
    rw [addAt_ofFn, if_pos (by omega)]

theorem range'_map_ofFn {α : Type} (n : ℕ) (f : ℕ → α) :
    (List.range' 1 n).map f = List.ofFn fun i : Fin n => f (i.val + 1) := by
  refine List.ext_getElem (by simp) ?_
  intro i h1 h2
  simp [add_comm]

theorem exercise_ofFn (o : FdPricer) (t : ℕ) (w : Fin (o.priceSteps - 1) → ℝ) :
    o.exercise t (List.ofFn w) = List.ofFn (o.exerVec t w) := by
  unfold exercise exerVec
  split_ifs with h
  · rw [americanStep, range'_map_ofFn]
    congr 1
    funext i
    rw [Nat.add_sub_cancel, getD_ofFn _ w i.val i.isLt]
    simp [node]
  · rfl

/-- One step of the explicit scheme, on grids with at least three price steps: multiply by the tridiagonal matrix of
the scheme, add the boundary term, compare with immediate exercise. -/
theorem C48_explicit_step (o : FdPricer) (h3 : 3 ≤ o.priceSteps) (t : ℕ) (u : Fin (o.priceSteps - 1) → ℝ) :
    o.explicitStep t (List.ofFn u) = some (List.ofFn (o.exerVec t
      (tridiag _ (o.cx - o.cy) (1 - 2 * o.cx) (o.cx + o.cy) *ᵥ u
        + o.boundaryVec (o.cx - o.cy) (o.cx + o.cy) t))) := by
  rw [explicitStep, tridiagMul_ofFn, if_neg (by omega), Option.bind_some, boundary_ofFn o (by omega),
    Option.map_some, exercise_ofFn]

theorem implicit_det (o : FdPricer) (h : o.Ok) (n : ℕ) :
    0 < psi ((-o.cx - o.cy) * (-o.cx + o.cy)) (1 + 2 * o.cx) (n + 1) := by
  have := h.cx_pos
  apply psi_pos (by positivity)
  nlinarith [sq_nonneg o.cy]

theorem cn_det (o : FdPricer) (h : o.Ok) (n : ℕ) :
    0 < psi (-(1 / 2 * (o.cx + o.cy)) * -(1 / 2 * (o.cx - o.cy))) (1 + o.cx) (n + 1) := by
  have := h.cx_pos
  apply psi_pos (by positivity)
  nlinarith [sq_nonneg o.cy]

theorem implicitStep_ofFn (o : FdPricer) (h3 : 3 ≤ o.priceSteps) (t : ℕ) (u : Fin (o.priceSteps - 1) → ℝ) :
    o.implicitStep t (List.ofFn u) = some (List.ofFn (o.exerVec t
      (invMat (o.priceSteps - 1) (-o.cx + o.cy) (1 + 2 * o.cx) (-o.cx - o.cy) *ᵥ
        (u + o.boundaryVec (o.cx - o.cy) (o.cx + o.cy) t)))) := by
  rw [implicitStep, boundary_ofFn o (by omega), Option.map_some, invTridiag_eq _ (by omega), matMul_ofFn,
    exercise_ofFn, show -(-o.cx + o.cy) = o.cx - o.cy by ring, show -(-o.cx - o.cy) = o.cx + o.cy by ring]

theorem cnStep_ofFn (o : FdPricer) (h3 : 3 ≤ o.priceSteps) (t : ℕ) (u : Fin (o.priceSteps - 1) → ℝ) :
    o.cnStep t (List.ofFn u) = some (List.ofFn (o.exerVec t
      (invMat (o.priceSteps - 1) (-(1 / 2 * (o.cx - o.cy))) (1 + o.cx) (-(1 / 2 * (o.cx + o.cy))) *ᵥ
        (tridiag _ (1 / 2 * (o.cx - o.cy)) (1 - o.cx) (1 / 2 * (o.cx + o.cy)) *ᵥ u
          + o.boundaryVec (o.cx - o.cy) (o.cx + o.cy) t)))) := by
  rw [cnStep, tridiagMul_ofFn, if_neg (by omega), Option.bind_some, boundary_ofFn o (by omega),
    Option.map_some, invTridiag_eq _ (by omega), matMul_ofFn, exercise_ofFn,
    show 2 * (1 / 2 * (o.cx - o.cy)) = o.cx - o.cy by ring, show 2 * (1 / 2 * (o.cx + o.cy)) = o.cx + o.cy by ring]

/-- One step of the implicit scheme: for every accepted pricer with positive time to expiry the system has exactly
one solution, and the step is that solution compared with immediate exercise. -/
theorem C48_implicit_step (o : FdPricer) (h : o.Ok) (h3 : 3 ≤ o.priceSteps) (t : ℕ) (u : Fin (o.priceSteps - 1) → ℝ) :
    ∃ w, o.implicitStep t (List.ofFn u) = some (List.ofFn (o.exerVec t w)) ∧
      ∀ w', tridiag _ (-o.cx + o.cy) (1 + 2 * o.cx) (-o.cx - o.cy) *ᵥ w'
        = u + o.boundaryVec (o.cx - o.cy) (o.cx + o.cy) t ↔ w' = w := by
  refine ⟨_, implicitStep_ofFn o h3 t u, fun w' => ?_⟩
  have h1 := tridiag_mul_invMat (o.priceSteps - 1) (implicit_det o h (o.priceSteps - 1)).ne'
  have h2 := mul_eq_one_comm.mp h1
  constructor
  · intro e; rw [← e, mulVec_mulVec, h2, one_mulVec]
  · rintro rfl; rw [mulVec_mulVec, h1, one_mulVec]

/-- One step of the Crank-Nicolson scheme: the unique solution of the half-implicit system, compared with immediate
exercise. -/
theorem C48_crank_nicolson_step (o : FdPricer) (h : o.Ok) (h3 : 3 ≤ o.priceSteps) (t : ℕ)
    (u : Fin (o.priceSteps - 1) → ℝ) :
    ∃ w, o.cnStep t (List.ofFn u) = some (List.ofFn (o.exerVec t w)) ∧
      ∀ w', tridiag _ (-(1 / 2 * (o.cx - o.cy))) (1 + o.cx) (-(1 / 2 * (o.cx + o.cy))) *ᵥ w'
        = tridiag _ (1 / 2 * (o.cx - o.cy)) (1 - o.cx) (1 / 2 * (o.cx + o.cy)) *ᵥ u
          + o.boundaryVec (o.cx - o.cy) (o.cx + o.cy) t ↔ w' = w := by
  refine ⟨_, cnStep_ofFn o h3 t u, fun w' => ?_⟩
  have h1 := tridiag_mul_invMat (o.priceSteps - 1) (cn_det o h (o.priceSteps - 1)).ne'
  have h2 := mul_eq_one_comm.mp h1
  constructor
  · intro e; rw [← e, mulVec_mulVec, h2, one_mulVec]
  · rintro rfl; rw [mulVec_mulVec, h1, one_mulVec]

/-! ### Whole runs -/

/-- Iterating a step on vectors. -/
def iterVec {n : ℕ} (step : ℕ → (Fin n → ℝ) → (Fin n → ℝ)) : ℕ → (Fin n → ℝ) → (Fin n → ℝ)
  | 0, u => u
  | m + 1, u => step (m + 1) (iterVec step m u)

theorem loop_ofFn {n : ℕ} (ls : ℕ → List ℝ → Option (List ℝ)) (vs : ℕ → (Fin n → ℝ) → (Fin n → ℝ))
    (h : ∀ t u, ls t (List.ofFn u) = some (List.ofFn (vs t u))) (m : ℕ) (u : Fin n → ℝ) :
    loop ls m (List.ofFn u) = some (List.ofFn (iterVec vs m u)) := by
  induction m with
  | zero => rfl
  | succ m ih => rw [loop, ih, Option.bind_some, h]; rfl

/-- Terminal payoff at the nodes. -/
noncomputable def init (o : FdPricer) : Fin (o.priceSteps - 1) → ℝ := fun i => o.payoff (o.node i)

theorem initialCondition_ofFn (o : FdPricer) : o.initialCondition o.xMin o.dx = List.ofFn o.init := by
  rw [initialCondition, range'_map_ofFn]
  congr 1
  funext i
  simp [init, node]

/-- The value read off at the spot: the middle node, or the mean of the two middle nodes. -/
noncomputable def mid (o : FdPricer) (h3 : 3 ≤ o.priceSteps) (w : Fin (o.priceSteps - 1) → ℝ) : ℝ :=
  if o.priceSteps % 2 = 0 then w ⟨(o.priceSteps - 1) / 2, by omega⟩
  else (w ⟨(o.priceSteps - 1) / 2, by omega⟩ + w ⟨(o.priceSteps - 3) / 2, by omega⟩) / 2

theorem returnPrice_ofFn (o : FdPricer) (h3 : 3 ≤ o.priceSteps) (w : Fin (o.priceSteps - 1) → ℝ) :
    o.returnPrice (List.ofFn w) = some (o.mid h3 w) := by
  have e : ∀ (k : ℕ) (hk : k < o.priceSteps - 1), (List.ofFn w)[k]? = some (w ⟨k, hk⟩) := by
    intro k hk
    rw [List.getElem?_eq_getElem (by simpa using hk), List.getElem_ofFn]
  unfold returnPrice mid
  by_cases hp : o.priceSteps % 2 = 0
  · rw [if_pos hp, if_pos hp, if_neg (by omega), e _ (by omega)]
  · rw [if_neg hp, if_neg hp, if_neg (by omega), e _ (by omega), e _ (by omega)]; rfl

theorem run_ofFn (o : FdPricer) (h3 : 3 ≤ o.priceSteps) (ls : ℕ → List ℝ → Option (List ℝ))
    (vs : ℕ → (Fin (o.priceSteps - 1) → ℝ) → (Fin (o.priceSteps - 1) → ℝ))
    (h : ∀ t u, ls t (List.ofFn u) = some (List.ofFn (vs t u))) :
    o.run ls = some (exp (-o.riskFreeRate * o.T) * o.mid h3 (iterVec vs o.timeSteps o.init)) := by
  rw [run, initialCondition_ofFn, loop_ofFn ls vs h, Option.bind_some, returnPrice_ofFn o h3]; rfl

/-- Exactly which grids panic: fewer than three price steps for the explicit and Crank-Nicolson methods, a single
price step for the implicit one. -/
theorem C48_panics (o : FdPricer) (h : o.Ok) :
    (o.explicit = none ↔ o.priceSteps < 3) ∧ (o.crankNicolson = none ↔ o.priceSteps < 3) ∧
    (o.implicit = none ↔ o.priceSteps < 2) := by
  have hloop : ∀ (ls : ℕ → List ℝ → Option (List ℝ)) (u : List ℝ), ls 1 u = none → ∀ m, loop ls (m + 1) u = none := by
    intro ls u h1 m
    induction m with
    | zero => simpa [loop] using h1
    | succ m ih => rw [loop, ih]; rfl
  obtain ⟨m, hm⟩ : ∃ m, o.timeSteps = m + 1 := ⟨o.timeSteps - 1, by have := h.m; omega⟩
  refine ⟨⟨fun e => ?_, fun e => ?_⟩, ⟨fun e => ?_, fun e => ?_⟩, ⟨fun e => ?_, fun e => ?_⟩⟩
  · by_contra hn
    rw [explicit, run_ofFn o (by omega) _ _ fun t u => C48_explicit_step o (by omega) t u] at e
    cases e
  · rw [explicit, run, initialCondition_ofFn, hm, hloop]
    · rfl
    · rw [explicitStep, tridiagMul_ofFn, if_pos (by omega)]; rfl
  · by_contra hn
    rw [crankNicolson, run_ofFn o (by omega) _ _ fun t u => cnStep_ofFn o (by omega) t u] at e
    cases e
  · rw [crankNicolson, run, initialCondition_ofFn, hm, hloop]
    · rfl
    · rw [cnStep, tridiagMul_ofFn, if_pos (by omega)]; rfl
  · by_contra hn
    by_cases h3 : 3 ≤ o.priceSteps
    · rw [implicit, run_ofFn o h3 _ _ fun t u => implicitStep_ofFn o h3 t u] at e
      cases e
    · have h2 : o.priceSteps = 2 := by omega
      have hlen : ∀ (t : ℕ) (v : List ℝ), v.length = 1 → ∃ w, o.implicitStep t v = some w ∧ w.length = 1 := by
        intro t v hv
        have hb : ∃ w, o.boundary (-(-o.cx + o.cy)) (-(-o.cx - o.cy)) t v = some w ∧ w.length = 1 := by
          unfold boundary addAt
          cases o.typeFlag <;> simp [h2, hv]
        obtain ⟨w, hw, hw1⟩ := hb
        rw [implicitStep, hw, Option.map_some]
        refine ⟨_, rfl, ?_⟩
        unfold exercise
        split_ifs
        · simp [americanStep, h2]
        · simp [matMul, invTridiag, h2]
      have hl : ∀ m, ∃ w, loop o.implicitStep m (o.initialCondition o.xMin o.dx) = some w ∧ w.length = 1 := by
        intro m
        induction m with
        | zero => exact ⟨_, rfl, by simp [initialCondition, h2]⟩
        | succ m ih =>
          obtain ⟨w, hw, hw1⟩ := ih
          rw [loop, hw, Option.bind_some]
          exact hlen _ _ hw1
      obtain ⟨w, hw, hw1⟩ := hl o.timeSteps
      rw [implicit, run, hw, Option.bind_some] at e
      obtain ⟨x, rfl⟩ := List.length_eq_one_iff.mp hw1
      simp [returnPrice, h2] at e
  · rw [implicit, run, initialCondition_ofFn, hm, hloop]
    · rfl
    · rw [implicitStep]
      have : o.boundary (-(-o.cx + o.cy)) (-(-o.cx - o.cy)) 1 (List.ofFn o.init) = none := by
        unfold boundary
        cases o.typeFlag
        · simp only; rw [if_pos e]
        · simp only; rw [addAt_ofFn, if_neg (by omega)]
      rw [this]; rfl

/-- Defect: the exercise style is honoured only for the one flag American `Date::MIN` - `Date::MAX`. Any other
American flag, and every Bermudan flag, is priced as a European option. -/
theorem C48_american_dates (o : FdPricer) (e e' : ExerciseFlag)
    (h1 : e ≠ .american dateMin dateMax) (h2 : e' ≠ .american dateMin dateMax) :
    ({ o with exerciseFlag := e } : FdPricer).explicit = ({ o with exerciseFlag := e' } : FdPricer).explicit ∧
    ({ o with exerciseFlag := e } : FdPricer).implicit = ({ o with exerciseFlag := e' } : FdPricer).implicit ∧
    ({ o with exerciseFlag := e } : FdPricer).crankNicolson =
      ({ o with exerciseFlag := e' } : FdPricer).crankNicolson := by
  have hx : ∀ t v, ({ o with exerciseFlag := e } : FdPricer).exercise t v =
      ({ o with exerciseFlag := e' } : FdPricer).exercise t v := by
    intro t v
    rw [exercise, exercise, if_neg h1, if_neg h2]
  have s1 : ({ o with exerciseFlag := e } : FdPricer).explicitStep =
      ({ o with exerciseFlag := e' } : FdPricer).explicitStep := by
    funext t v; unfold explicitStep; simp only [hx]; rfl
  have s2 : ({ o with exerciseFlag := e } : FdPricer).implicitStep =
      ({ o with exerciseFlag := e' } : FdPricer).implicitStep := by
    funext t v; unfold implicitStep; simp only [hx]; rfl
  have s3 : ({ o with exerciseFlag := e } : FdPricer).cnStep =
      ({ o with exerciseFlag := e' } : FdPricer).cnStep := by
    funext t v; unfold cnStep; simp only [hx]; rfl
  unfold explicit implicit crankNicolson
  rw [s1, s2, s3]
  exact ⟨rfl, rfl, rfl⟩

theorem node_mid (o : FdPricer) (h : o.Ok) (he : o.priceSteps % 2 = 0) (h3 : (o.priceSteps - 1) / 2 < o.priceSteps - 1) :
    o.node ⟨(o.priceSteps - 1) / 2, h3⟩ = o.initialPrice := by
  have hn := h.n
  obtain ⟨k, hk⟩ : ∃ k, o.priceSteps = 2 * (k + 1) := ⟨o.priceSteps / 2 - 1, by omega⟩
  have e : (o.priceSteps - 1) / 2 = k := by omega
  unfold node
  simp only [e]
  have : o.xMin + ((k:ℝ) + 1) * o.dx = log o.initialPrice := by
    have hk' : (o.priceSteps : ℝ) = 2 * ((k:ℝ) + 1) := by rw [hk]; push_cast; ring
    unfold dx xMax xMin
    rw [hk']
    have : (k:ℝ) + 1 ≠ 0 := by positivity
    field_simp
    ring
  rw [this, exp_log h.S]

/-- An American option (in the one form the code honours) is never priced below its immediate exercise value, by any
of the three methods, on every grid with an even number of price steps, which has a node at the spot price. -/
theorem C48_american_intrinsic (o : FdPricer) (h : o.Ok) (h3 : 3 ≤ o.priceSteps) (he : o.priceSteps % 2 = 0)
    (ha : o.exerciseFlag = .american dateMin dateMax) :
    ∀ p, o.explicit = some p ∨ o.implicit = some p ∨ o.crankNicolson = some p →
      max (match o.typeFlag with
        | .call => o.initialPrice - o.strikePrice
        | .put => o.strikePrice - o.initialPrice) 0 ≤ p := by
  have hpay : max (match o.typeFlag with
      | .call => o.initialPrice - o.strikePrice
      | .put => o.strikePrice - o.initialPrice) 0 = o.payoff o.initialPrice := by
    unfold payoff
    cases o.typeFlag <;> rfl
  rw [hpay]
  have key : ∀ (ls : ℕ → List ℝ → Option (List ℝ))
      (vs : ℕ → (Fin (o.priceSteps - 1) → ℝ) → (Fin (o.priceSteps - 1) → ℝ)),
      (∀ t u, ls t (List.ofFn u) = some (List.ofFn (o.exerVec t (vs t u)))) → ∀ p, o.run ls = some p →
      o.payoff o.initialPrice ≤ p := by
    intro ls vs hl p hp
    rw [run_ofFn o h3 ls _ hl] at hp
    obtain rfl := Option.some.inj hp
    obtain ⟨m, hm⟩ : ∃ m, o.timeSteps = m + 1 := ⟨o.timeSteps - 1, by have := h.m; omega⟩
    rw [hm, iterVec, mid, if_pos he]
    simp only [exerVec]
    rw [if_pos ha, node_mid o h he]
    have ht : (((m + 1 : ℕ) : ℝ)) * o.dt = o.T := by
      rw [dt, hm]; field_simp
    rw [ht]
    have hE : exp (-o.riskFreeRate * o.T) * exp (o.riskFreeRate * o.T) = 1 := by rw [← exp_add]; simp
    calc o.payoff o.initialPrice
        = exp (-o.riskFreeRate * o.T) * (exp (o.riskFreeRate * o.T) * o.payoff o.initialPrice) := by
          rw [← mul_assoc, hE, one_mul]
      _ ≤ _ := mul_le_mul_of_nonneg_left (le_max_right _ _) (exp_pos _).le
  rintro p (hp | hp | hp)
  · exact key _ _ (fun t u => C48_explicit_step o h3 t u) p hp
  · exact key _ _ (fun t u => implicitStep_ofFn o h3 t u) p hp
  · exact key _ _ (fun t u => cnStep_ofFn o h3 t u) p hp

theorem invEnt_nonneg {a d c : ℝ} (n : ℕ) (ha : a ≤ 0) (hc : c ≤ 0) (hd : 0 < d) (hp : 4 * (c * a) ≤ d ^ 2)
    (i j : ℕ) (hi : i < n) (hj : j < n) : 0 ≤ invEnt n a d c i j := by
  have hpos : ∀ k, 0 < k → 0 < psi (c * a) d k := by
    intro k hk
    obtain ⟨k, rfl⟩ : ∃ q, k = q + 1 := ⟨k - 1, by omega⟩
    exact psi_pos hd hp k
  have h1 := hpos (i + 1) (by omega)
  have h2 := hpos (j + 1) (by omega)
  have h3 := hpos (n - i) (by omega)
  have h4 := hpos (n - j) (by omega)
  have h5 := hpos (n + 1) (by omega)
  have ha' : 0 ≤ -a := by linarith
  have hc' : 0 ≤ -c := by linarith
  unfold invEnt
  split_ifs <;> positivity

theorem tridiag_nonneg {a d c : ℝ} (n : ℕ) (ha : 0 ≤ a) (hc : 0 ≤ c) (hd : 0 ≤ d) (i j : Fin n) :
    0 ≤ tridiag n a d c i j := by
  unfold tridiag; split_ifs <;> first | assumption | exact le_rfl

theorem mulVec_mono {n : ℕ} (M : Matrix (Fin n) (Fin n) ℝ) (hM : ∀ i j, 0 ≤ M i j) {u w : Fin n → ℝ} (h : u ≤ w) :
    M *ᵥ u ≤ M *ᵥ w := by
  intro i
  simp only [Matrix.mulVec, dotProduct]
  exact Finset.sum_le_sum fun j _ => mul_le_mul_of_nonneg_left (h j) (hM i j)

theorem mid_mono (o : FdPricer) (h3 : 3 ≤ o.priceSteps) {u w : Fin (o.priceSteps - 1) → ℝ} (h : u ≤ w) :
    o.mid h3 u ≤ o.mid h3 w := by
  unfold mid
  split_ifs
  · exact h _
  · have h1 := h ⟨(o.priceSteps - 1) / 2, by omega⟩
    have h2 := h ⟨(o.priceSteps - 3) / 2, by omega⟩
    linarith

/-- The monotonicity (stability) conditions of the three schemes. -/
def Monotone (o : FdPricer) (method : ℕ) : Prop :=
  |o.cy| ≤ o.cx ∧ (method = 0 → 2 * o.cx ≤ 1) ∧ (method = 2 → o.cx ≤ 1)

/-- The method by number: 0 explicit, 1 implicit, otherwise Crank-Nicolson. -/
noncomputable def priceBy (o : FdPricer) (method : ℕ) : Option ℝ :=
  if method = 0 then o.explicit else if method = 1 then o.implicit else o.crankNicolson

/-- The vector step of the method before the exercise comparison. -/
noncomputable def lin (o : FdPricer) (method : ℕ) (t : ℕ) (u : Fin (o.priceSteps - 1) → ℝ) :
    Fin (o.priceSteps - 1) → ℝ :=
  if method = 0 then tridiag _ (o.cx - o.cy) (1 - 2 * o.cx) (o.cx + o.cy) *ᵥ u
    + o.boundaryVec (o.cx - o.cy) (o.cx + o.cy) t
  else if method = 1 then invMat (o.priceSteps - 1) (-o.cx + o.cy) (1 + 2 * o.cx) (-o.cx - o.cy) *ᵥ
    (u + o.boundaryVec (o.cx - o.cy) (o.cx + o.cy) t)
  else invMat (o.priceSteps - 1) (-(1 / 2 * (o.cx - o.cy))) (1 + o.cx) (-(1 / 2 * (o.cx + o.cy))) *ᵥ
    (tridiag _ (1 / 2 * (o.cx - o.cy)) (1 - o.cx) (1 / 2 * (o.cx + o.cy)) *ᵥ u
      + o.boundaryVec (o.cx - o.cy) (o.cx + o.cy) t)

theorem priceBy_eq (o : FdPricer) (h3 : 3 ≤ o.priceSteps) (method : ℕ) :
    o.priceBy method = some (exp (-o.riskFreeRate * o.T) *
      o.mid h3 (iterVec (fun t u => o.exerVec t (o.lin method t u)) o.timeSteps o.init)) := by
  unfold priceBy lin
  split_ifs
  · exact run_ofFn o h3 _ _ fun t u => C48_explicit_step o h3 t u
  · exact run_ofFn o h3 _ _ fun t u => implicitStep_ofFn o h3 t u
  · exact run_ofFn o h3 _ _ fun t u => cnStep_ofFn o h3 t u

theorem lin_mono (o : FdPricer) (h : o.Ok) (method : ℕ) (hmth : method ≤ 2) (hm : o.Monotone method) (t : ℕ)
    {u w : Fin (o.priceSteps - 1) → ℝ} (huw : u ≤ w) : o.lin method t u ≤ o.lin method t w := by
  obtain ⟨h1, h2, h3⟩ := hm
  have hx := h.cx_pos
  obtain ⟨hy1, hy2⟩ := abs_le.mp h1
  unfold lin
  split_ifs with h0 h01
  · refine add_le_add_left (mulVec_mono _ (fun i j => tridiag_nonneg _ ?_ ?_ ?_ i j) huw) _
    · linarith
    · linarith
    · have := h2 h0; linarith
  · refine mulVec_mono _ (fun i j => invEnt_nonneg _ ?_ ?_ ?_ ?_ _ _ i.isLt j.isLt) (add_le_add_left huw _)
    · linarith
    · linarith
    · linarith
    · nlinarith [sq_nonneg o.cy]
  · refine mulVec_mono _ (fun i j => invEnt_nonneg _ ?_ ?_ ?_ ?_ _ _ i.isLt j.isLt) (add_le_add_left ?_ _)
    · linarith
    · linarith
    · linarith
    · nlinarith [sq_nonneg o.cy]
    · refine mulVec_mono _ (fun i j => tridiag_nonneg _ ?_ ?_ ?_ i j) huw
      · linarith
      · linarith
      · have := h3 (by omega); linarith

/-- Early exercise never lowers the price: under the monotonicity condition of the method, the American price is at
least the European price, for every grid. -/
theorem C48_american_ge_european (o : FdPricer) (h : o.Ok) (h3 : 3 ≤ o.priceSteps) (method : ℕ) (hmth : method ≤ 2)
    (hm : o.Monotone method) (e : ℤ) :
    ∀ pE pA, ({ o with exerciseFlag := .european e } : FdPricer).priceBy method = some pE →
      ({ o with exerciseFlag := .american dateMin dateMax } : FdPricer).priceBy method = some pA → pE ≤ pA := by
  intro pE pA hE hA
  rw [priceBy_eq ({ o with exerciseFlag := .european e } : FdPricer) h3] at hE
  rw [priceBy_eq ({ o with exerciseFlag := .american dateMin dateMax } : FdPricer) h3] at hA
  obtain rfl := Option.some.inj hE
  obtain rfl := Option.some.inj hA
  refine mul_le_mul_of_nonneg_left ?_ (exp_pos _).le
  refine mid_mono o h3 ?_
  suffices ∀ m, iterVec (fun t u => ({ o with exerciseFlag := .european e } : FdPricer).exerVec t
      (o.lin method t u)) m o.init ≤ iterVec (fun t u =>
      ({ o with exerciseFlag := .american dateMin dateMax } : FdPricer).exerVec t (o.lin method t u)) m o.init from
    this o.timeSteps
  intro m
  induction m with
  | zero => exact le_rfl
  | succ m ih =>
    rw [iterVec, iterVec]
    intro i
    simp only [exerVec, reduceCtorEq, if_false, if_true]
    exact (lin_mono o h method hmth hm (m + 1) ih i).trans (le_max_left _ _)

/-- Prices are non-negative under the monotonicity condition when the boundary value is (the strike lies inside the
grid). -/
theorem C48_nonneg (o : FdPricer) (h : o.Ok) (h3 : 3 ≤ o.priceSteps) (method : ℕ) (hmth : method ≤ 2)
    (hm : o.Monotone method)
    (hb : (o.typeFlag = .call → o.strikePrice ≤ exp o.xMax) ∧
      (o.typeFlag = .put → exp o.xMin ≤ o.strikePrice * exp (-o.riskFreeRate * o.T))) :
    ∀ p, o.priceBy method = some p → 0 ≤ p := by
  intro p hp
  rw [priceBy_eq _ h3] at hp
  obtain rfl := Option.some.inj hp
  refine mul_nonneg (exp_pos _).le ?_
  have hmid0 : o.mid h3 0 = 0 := by simp [mid]
  rw [← hmid0]
  refine mid_mono o h3 ?_
  have hpay : ∀ s, 0 ≤ o.payoff s := by
    intro s; unfold payoff; cases o.typeFlag <;> exact le_max_right _ _
  have hxy := abs_le.mp hm.1
  have hbv : ∀ t, t ≤ o.timeSteps → 0 ≤ o.boundaryVec (o.cx - o.cy) (o.cx + o.cy) t := by
    intro t ht i
    have hr := h.r
    have hdt := h.dt_pos
    have htm : (t:ℝ) * o.dt ≤ o.T := by
      have hmp : (0:ℝ) < o.timeSteps := by exact_mod_cast h.m
      have : (t:ℝ) ≤ o.timeSteps := by exact_mod_cast ht
      calc (t:ℝ) * o.dt ≤ o.timeSteps * o.dt := mul_le_mul_of_nonneg_right this hdt.le
        _ = o.T := by rw [dt]; field_simp
    have htp : 0 ≤ (t:ℝ) * o.dt := by positivity
    unfold boundaryVec
    cases hf : o.typeFlag
    · simp only
      split_ifs
      · refine mul_nonneg (by linarith) ?_
        unfold callBoundary
        have h1 := hb.1 hf
        have h2 : exp (-o.riskFreeRate * (t * o.dt)) ≤ 1 := by
          rw [exp_le_one_iff]; nlinarith
        have := h.K
        nlinarith
      · exact le_rfl
    · simp only
      split_ifs
      · refine mul_nonneg (by linarith) ?_
        unfold putBoundary
        have h1 := hb.2 hf
        have h2 : exp (-o.riskFreeRate * o.T) ≤ exp (-o.riskFreeRate * (t * o.dt)) := by
          apply exp_le_exp.mpr; nlinarith
        have := h.K
        nlinarith
      · exact le_rfl
  suffices ∀ m, m ≤ o.timeSteps → 0 ≤ iterVec (fun t u => o.exerVec t (o.lin method t u)) m o.init from
    this o.timeSteps le_rfl
  intro m
  induction m with
  | zero => exact fun _ i => hpay _
  | succ m ih =>
    intro hle
    have h0 := lin_mono o h method hmth hm (m + 1) (ih (by omega))
    have hl : 0 ≤ o.lin method (m + 1) 0 := by
      have hb0 := hbv (m + 1) hle
      have hx := h.cx_pos
      unfold lin
      split_ifs
      · rw [mulVec_zero, zero_add]; exact hb0
      · rw [zero_add, ← mulVec_zero (invMat (o.priceSteps - 1) (-o.cx + o.cy) (1 + 2 * o.cx) (-o.cx - o.cy))]
        refine mulVec_mono _ (fun i j => invEnt_nonneg _ ?_ ?_ ?_ ?_ _ _ i.isLt j.isLt) hb0
        · linarith
        · linarith
        · linarith
        · nlinarith [sq_nonneg o.cy]
      · rw [mulVec_zero, zero_add, ← mulVec_zero (invMat (o.priceSteps - 1) (-(1 / 2 * (o.cx - o.cy))) (1 + o.cx)
          (-(1 / 2 * (o.cx + o.cy))))]
        refine mulVec_mono _ (fun i j => invEnt_nonneg _ ?_ ?_ ?_ ?_ _ _ i.isLt j.isLt) hb0
        · linarith
        · linarith
        · linarith
        · nlinarith [sq_nonneg o.cy]
    intro i
    have : (0:ℝ) ≤ o.lin method (m + 1) (iterVec (fun t u => o.exerVec t (o.lin method t u)) m o.init) i :=
      (hl i).trans (h0 i)
    simp only [iterVec, exerVec, Pi.zero_apply]
    split_ifs
    · exact this.trans (le_max_left _ _)
    · exact this

/-- Defect: the values on the grid are in money of time `t` (they are multiplied by `e^{-rT}` only at the end, and the
exercise comparison scales the payoff by `e^{rτ}`), but the boundary values are discounted ones. The undiscounted value
of a call deep in the money is at least `s e^{rτ} - K`; the code uses strictly less, for every `τ > 0` and boundary
price above the discounted strike; for boundary prices above twice the strike it is even below the exercise value
it is compared with. -/
theorem C48_boundary_discounted (o : FdPricer) (h : o.Ok) (tau x : ℝ) (ht : 0 < tau) :
    (o.strikePrice * exp (-o.riskFreeRate * tau) < exp x →
      o.callBoundary tau x < exp x * exp (o.riskFreeRate * tau) - o.strikePrice) ∧
    exp (o.riskFreeRate * tau) * o.callBoundary tau x = exp x * exp (o.riskFreeRate * tau) - o.strikePrice ∧
    (2 * o.strikePrice ≤ exp x →
      o.callBoundary tau x < exp (o.riskFreeRate * tau) * (exp x - o.strikePrice)) := by
  have hE : exp (-o.riskFreeRate * tau) * exp (o.riskFreeRate * tau) = 1 := by rw [← exp_add]; simp
  have h1 : 1 < exp (o.riskFreeRate * tau) := by
    rw [Real.one_lt_exp_iff]; have := h.r; positivity
  have h0 : 0 < exp (-o.riskFreeRate * tau) := exp_pos _
  have hK := h.K
  unfold callBoundary
  have e2 : exp (o.riskFreeRate * tau) * (exp x - o.strikePrice * exp (-o.riskFreeRate * tau)) =
      exp x * exp (o.riskFreeRate * tau) - o.strikePrice := by
    linear_combination (-o.strikePrice) * hE
  refine ⟨fun hx => ?_, e2, fun hx => ?_⟩
  · rw [← e2]
    have : 0 < exp x - o.strikePrice * exp (-o.riskFreeRate * tau) := by linarith
    nlinarith
  · have h2 : exp (-o.riskFreeRate * tau) < 1 := by nlinarith
    generalize exp (-o.riskFreeRate * tau) = q at *
    generalize exp (o.riskFreeRate * tau) = Q at *
    nlinarith [mul_pos hK (sub_pos.mpr h1), mul_pos (sub_pos.mpr h1) (sub_pos.mpr h2)]

/-- Defect: with the strike above the grid the negative boundary value leaks into the price: a European call whose
payoff vanishes on the whole grid gets a strictly negative explicit price, on every three-step grid with one time
step and `x + y > 0`. -/
theorem C48_negative_price (o : FdPricer) (h : o.Ok) (h3 : o.priceSteps = 3) (h1 : o.timeSteps = 1)
    (hf : o.typeFlag = .call) (he : ∃ e, o.exerciseFlag = .european e) (hxy : 0 < o.cx + o.cy)
    (hK : exp o.xMax < o.strikePrice * exp (-o.riskFreeRate * o.T)) :
    ∃ p, o.explicit = some p ∧ p < 0 := by
  have hr := h.r
  have hT := h.T
  have hdx := h.dx_pos
  have hKp := h.K
  refine ⟨_, run_ofFn o (by omega) _ _ fun t u => C48_explicit_step o (by omega) t u, ?_⟩
  have hq : exp (-o.riskFreeRate * o.T) < 1 := by
    rw [exp_lt_one_iff]; nlinarith
  have hnode : ∀ i : Fin (o.priceSteps - 1), o.node i < o.strikePrice := by
    intro i
    have hi : (i.val : ℝ) + 1 ≤ o.priceSteps := by
      have := i.isLt; exact_mod_cast (by omega : i.val + 1 ≤ o.priceSteps)
    have : o.node i ≤ exp o.xMax := by
      unfold node
      apply exp_le_exp.mpr
      have e1 : o.xMin + o.priceSteps * o.dx = o.xMax := by
        rw [dx, h3]; ring
      rw [← e1]
      nlinarith
    nlinarith
  have hinit : o.init = 0 := by
    funext i
    simp only [init, payoff, hf, Pi.zero_apply]
    exact max_eq_right (by have := hnode i; linarith)
  obtain ⟨e, he⟩ := he
  have hdt : ((1:ℕ):ℝ) * o.dt = o.T := by rw [dt, h1]; simp
  have hneg : (o.cx + o.cy) * o.callBoundary o.T o.xMax < 0 := by
    apply mul_neg_of_pos_of_neg hxy
    unfold callBoundary; linarith
  rw [h1, iterVec, iterVec, hinit, mulVec_zero, zero_add, mid]
  rw [if_neg (by omega)]
  simp only [exerVec, he, reduceCtorEq, if_false, boundaryVec, hf, zero_add, hdt, h3]
  norm_num
  have := exp_pos (-(o.riskFreeRate * o.T))
  nlinarith

/-! ### Concrete cases -/

/-- A pricer accepted by `new`, on a grid of three price steps and one time step, with `σ² = 2r` so that `y = 0`. -/
noncomputable def sample (K : ℝ) (f : TypeFlag) (e : ExerciseFlag) (n : ℕ) : FdPricer := ⟨1, K, 1 / 2, 1, 1, 1, n, f, e⟩

theorem sample_new (K : ℝ) (hK : 0 < K) (f : TypeFlag) (e : ExerciseFlag) (n : ℕ) (hn : 0 < n) :
    new 1 K (1 / 2) 1 1 1 n f e = some (sample K f e n) := by
  unfold new; rw [if_pos ⟨by norm_num, hK, by norm_num, by norm_num, by norm_num, hn⟩]; rfl

theorem sample_ok (K : ℝ) (hK : 0 < K) (f : TypeFlag) (e : ExerciseFlag) (n : ℕ) (hn : 0 < n) :
    (sample K f e n).Ok := ok_of_new (sample_new K hK f e n hn) one_pos

theorem sample_c (K : ℝ) (f : TypeFlag) (e : ExerciseFlag) (n : ℕ) :
    (sample K f e n).cy = 0 ∧ (sample K f e n).cx = (n:ℝ) ^ 2 / 200 := by
  constructor
  · simp [cy, sample]
  · simp only [cx, dt, dx, xMax, xMin, sample]
    norm_num
    rw [div_pow, div_div_eq_mul_div]
    ring

/-- The monotonicity conditions are met for all three methods on a four-step grid. -/
example : (sample 1 .put (.american dateMin dateMax) 4).Monotone 0 ∧
    (sample 1 .put (.american dateMin dateMax) 4).Monotone 1 ∧
    (sample 1 .put (.american dateMin dateMax) 4).Monotone 2 := by
  simp only [Monotone, sample_c]; norm_num

/-- A European call with a negative price. -/
example : ∃ p, (sample (exp 10) .call (.european 0) 3).explicit = some p ∧ p < 0 := by
  refine C48_negative_price _ (sample_ok _ (exp_pos _) _ _ _ (by norm_num)) rfl rfl rfl ⟨0, rfl⟩ ?_ ?_
  · simp only [sample_c]; norm_num
  · simp only [xMax, sample]
    rw [← exp_add]
    apply exp_lt_exp.mpr
    norm_num

/-- `C48_inverse` on the two-by-two matrix with rows 2, 1 and 1, 2. -/
example := C48_inverse 2 le_rfl 1 2 1 (by rw [Matrix.det_fin_two]; simp [tridiag]; norm_num)

/-- The three steps of a four-step grid, and the number of price steps each method needs. -/
example := C48_explicit_step (sample 1 .put (.european 0) 4) (by norm_num [sample]) 1

example := C48_implicit_step _ (sample_ok 1 one_pos .put (.european 0) 4 (by norm_num)) (by norm_num [sample]) 1

example := C48_crank_nicolson_step _ (sample_ok 1 one_pos .put (.european 0) 4 (by norm_num)) (by norm_num [sample]) 1

example := C48_panics _ (sample_ok 1 one_pos .put (.european 0) 2 (by norm_num))

/-- An American put that may only be exercised from day one on is priced as the European put. -/
example : (sample 2 .put (.american 1 30) 4).implicit = (sample 2 .put (.european 30) 4).implicit :=
  (C48_american_dates (sample 2 .put (.european 30) 4) (.american 1 30) (.european 30) (by decide) (by decide)).2.1

/-- An American put struck at 2 on an underlying at 1 is worth at least 1 to the implicit method. -/
example : ∀ p, (sample 2 .put (.american dateMin dateMax) 4).implicit = some p → 1 ≤ p := fun p hp => by
  have := C48_american_intrinsic _ (sample_ok 2 two_pos .put (.american dateMin dateMax) 4 (by norm_num))
    (by norm_num [sample]) (by norm_num [sample]) rfl p (Or.inr (Or.inl hp))
  norm_num [sample] at this
  exact this

example := C48_american_ge_european _ (sample_ok 2 two_pos .put (.european 0) 4 (by norm_num)) (by norm_num [sample]) 1
  (by norm_num) (by simp only [Monotone, sample_c]; norm_num) 0

example := C48_nonneg _ (sample_ok 1 one_pos .put (.european 0) 4 (by norm_num)) (by norm_num [sample]) 1
  (by norm_num) (by simp only [Monotone, sample_c]; norm_num) (by
    refine ⟨fun h => absurd h (by simp [sample]), fun _ => ?_⟩
    simp only [xMin, sample, one_mul]
    exact exp_le_exp.2 (by norm_num))

example := C48_boundary_discounted _ (sample_ok 1 one_pos .call (.european 0) 4 (by norm_num)) 1 2 one_pos

end Verif.Options.FdPricer
