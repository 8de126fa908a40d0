import Verif.Options.FdErrorLemmas
import Mathlib.Analysis.SpecialFunctions.Trigonometric.DerivHyp

/-!
# Error bounds of the finite-difference pricer (C82)

The pricer approximates, for the undiscounted value `w(τ, x)` of an option at time to expiry `τ` and logarithm `x` of
the price, the Black-Scholes equation `w_τ = σ²/2 w_xx + (r - σ²/2) w_x` on `x_min ≤ x ≤ x_max`.

Specification: `generator` is the right-hand side with derivatives replaced by central difference quotients on the grid
points `x_min + k dx`, `k = 0 … price_steps`; `lowerEdge` and `upperEdge` are the values the code puts at the two ends;
`Solution` says that a function solves the equation with bounded higher derivatives.
-/

namespace Verif.Options.FdPricer

open Real

/-- The three methods of the pricer. -/
inductive Scheme
  | explicit
  | implicit
  | crankNicolson

/-- The weight of the new time level. -/
noncomputable def Scheme.theta : Scheme → ℝ
  | .explicit => 0
  | .implicit => 1
  | .crankNicolson => 1 / 2

/-- One time step of the method. -/
noncomputable def Scheme.step (o : FdPricer) : Scheme → ℕ → List ℝ → Option (List ℝ)
  | .explicit => o.explicitStep
  | .implicit => o.implicitStep
  | .crankNicolson => o.cnStep

/-- The price by the method. -/
noncomputable def Scheme.price (o : FdPricer) : Scheme → Option ℝ
  | .explicit => o.explicit
  | .implicit => o.implicit
  | .crankNicolson => o.crankNicolson

/-- The value used at `x_min`, `τ` before expiry. -/
noncomputable def lowerEdge (o : FdPricer) (τ : ℝ) : ℝ :=
  match o.typeFlag with
  | .call => 0
  | .put => o.strikePrice * exp (-o.riskFreeRate * τ) - exp o.xMin

/-- The value used at `x_max`, `τ` before expiry. -/
noncomputable def upperEdge (o : FdPricer) (τ : ℝ) : ℝ :=
  match o.typeFlag with
  | .call => exp o.xMax - o.strikePrice * exp (-o.riskFreeRate * τ)
  | .put => 0

/-- Values at the inner nodes, completed by the values at the two ends of the grid. -/
def row {N : ℕ} (lo hi : ℝ) (u : Fin N → ℝ) (k : ℕ) : ℝ :=
  if k = 0 then lo else if h : k - 1 < N then u ⟨k - 1, h⟩ else hi

/-- `σ²/2 ∂²/∂x² + (r - σ²/2) ∂/∂x` at grid point `j + 1`, by central differences. -/
noncomputable def generator (o : FdPricer) (V : ℕ → ℝ) (j : ℕ) : ℝ :=
  o.volatility ^ 2 / 2 * ((V (j + 2) - 2 * V (j + 1) + V j) / o.dx ^ 2) +
    (o.riskFreeRate - o.volatility ^ 2 / 2) * ((V (j + 2) - V j) / (2 * o.dx))

theorem dt_generator (o : FdPricer) (V : ℕ → ℝ) (j : ℕ) : o.dt * o.generator V j =
    (o.cx - o.cy) * V j - 2 * o.cx * V (j + 1) + (o.cx + o.cy) * V (j + 2) := by
  unfold generator cx cy; ring

theorem row_zero {N : ℕ} (lo hi : ℝ) (u : Fin N → ℝ) : row lo hi u 0 = lo := rfl

theorem row_last {N : ℕ} (lo hi : ℝ) (u : Fin N → ℝ) : row lo hi u (N + 1) = hi := by simp [row]

theorem row_succ {N : ℕ} (lo hi : ℝ) (u : Fin N → ℝ) (j : Fin N) : row lo hi u (j.val + 1) = u j := by simp [row]

theorem tridiag_row {N : ℕ} (a d c lo hi : ℝ) (u : Fin N → ℝ) (j : Fin N) :
    (tridiag N a d c).mulVec u j + ((if j.val = 0 then a * lo else 0) + (if j.val = N - 1 then c * hi else 0)) =
      a * row lo hi u j.val + d * u j + c * row lo hi u (j.val + 2) := by
  have h := sum_tridiag (a := a) (d := d) (c := c) N j.val j.isLt (fun k => if h : k < N then u ⟨k, h⟩ else 0)
  have e : (tridiag N a d c).mulVec u j = ∑ i : Fin N, tridiag N a d c ⟨j.val, j.isLt⟩ i *
      (fun k => if h : k < N then u ⟨k, h⟩ else 0) i.val := by
    simp [Matrix.mulVec, dotProduct]
  rw [e, h]
  have hj := j.isLt
  have e0 : (if j.val = 0 then (0:ℝ) else a * (if h : j.val - 1 < N then u ⟨j.val - 1, h⟩ else 0)) +
      (if j.val = 0 then a * lo else 0) = a * row lo hi u j.val := by
    unfold row
    by_cases h0 : j.val = 0
    · simp [h0]
    · rw [if_neg h0, if_neg h0, if_neg h0, dif_pos (by omega), dif_pos (by omega), add_zero]
  have e2 : (if j.val + 1 < N then c * (if h : j.val + 1 < N then u ⟨j.val + 1, h⟩ else 0) else 0) +
      (if j.val = N - 1 then c * hi else 0) = c * row lo hi u (j.val + 2) := by
    unfold row
    rw [if_neg (by omega : ¬ j.val + 2 = 0)]
    by_cases h0 : j.val + 1 < N
    · rw [if_pos h0, if_neg (by omega), dif_pos h0, dif_pos (by omega), add_zero]; rfl
    · rw [if_neg h0, if_pos (by omega), dif_neg (by omega), zero_add]
  have e1 : (if h : j.val < N then u ⟨j.val, h⟩ else 0) = u j := by rw [dif_pos hj]
  simp only [e1]
  linarith

theorem boundaryVec_eq (o : FdPricer) (h3 : 3 ≤ o.priceSteps) (a c : ℝ) (t : ℕ) (j : Fin (o.priceSteps - 1)) :
    o.boundaryVec a c t j = (if j.val = 0 then a * o.lowerEdge (t * o.dt) else 0) +
      (if j.val = o.priceSteps - 1 - 1 then c * o.upperEdge (t * o.dt) else 0) := by
  unfold boundaryVec lowerEdge upperEdge callBoundary putBoundary
  cases o.typeFlag
  · simp [Nat.sub_sub]
  · simp

/-- Every method is one and the same scheme: up to the comparison with immediate exercise, the new values `w` and the
old values `u` satisfy `(w - u)/dt = θ A w + (1 - θ) A u` at every inner node, where `A` is the Black-Scholes operator
with central differences, `θ` is 0 for the explicit, 1 for the implicit and 1/2 for the Crank-Nicolson method, and the
values at the two ends are those of the new time for both levels. -/
theorem C82_scheme (o : FdPricer) (h : o.Ok) (h3 : 3 ≤ o.priceSteps) (s : Scheme) (t : ℕ)
    (u : Fin (o.priceSteps - 1) → ℝ) :
    ∃ w, s.step o t (List.ofFn u) = some (List.ofFn (o.exerVec t w)) ∧
      ∀ j, (w j - u j) / o.dt =
        s.theta * o.generator (row (o.lowerEdge (t * o.dt)) (o.upperEdge (t * o.dt)) w) j +
        (1 - s.theta) * o.generator (row (o.lowerEdge (t * o.dt)) (o.upperEdge (t * o.dt)) u) j := by
  have hdt := h.dt_pos
  cases s with
  | explicit =>
    refine ⟨_, C48_explicit_step o h3 t u, fun j => ?_⟩
    simp only [Scheme.theta, zero_mul, zero_add, sub_zero, one_mul]
    rw [div_eq_iff hdt.ne', mul_comm _ o.dt, dt_generator, row_succ, Pi.add_apply, boundaryVec_eq o h3]
    have := tridiag_row (o.cx - o.cy) (1 - 2 * o.cx) (o.cx + o.cy) (o.lowerEdge (t * o.dt))
      (o.upperEdge (t * o.dt)) u j
    linarith
  | implicit =>
    obtain ⟨w, hw, hiff⟩ := C48_implicit_step o h h3 t u
    refine ⟨w, hw, fun j => ?_⟩
    have he := congrFun ((hiff w).mpr rfl) j
    simp only [Scheme.theta, one_mul, sub_self, zero_mul, add_zero]
    rw [div_eq_iff hdt.ne', mul_comm _ o.dt, dt_generator, row_succ]
    rw [Pi.add_apply, boundaryVec_eq o h3] at he
    have := tridiag_row (-o.cx + o.cy) (1 + 2 * o.cx) (-o.cx - o.cy) (o.lowerEdge (t * o.dt))
      (o.upperEdge (t * o.dt)) w j
    split_ifs at he this <;> linarith
  | crankNicolson =>
    obtain ⟨w, hw, hiff⟩ := C48_crank_nicolson_step o h h3 t u
    refine ⟨w, hw, fun j => ?_⟩
    have he := congrFun ((hiff w).mpr rfl) j
    simp only [Scheme.theta]
    rw [div_eq_iff hdt.ne', mul_comm _ o.dt, mul_add, mul_left_comm, mul_left_comm o.dt, dt_generator, dt_generator,
      row_succ, row_succ]
    rw [Pi.add_apply, boundaryVec_eq o h3] at he
    have h1 := tridiag_row (-(1 / 2 * (o.cx - o.cy))) (1 + o.cx) (-(1 / 2 * (o.cx + o.cy))) (o.lowerEdge (t * o.dt))
      (o.upperEdge (t * o.dt)) w j
    have h2 := tridiag_row (1 / 2 * (o.cx - o.cy)) (1 - o.cx) (1 / 2 * (o.cx + o.cy)) (o.lowerEdge (t * o.dt))
      (o.upperEdge (t * o.dt)) u j
    split_ifs at he h1 h2 <;> linarith

/-! ### Stability -/

theorem Ok.dx_eq {o : FdPricer} : o.dx = 10 * o.volatility * √o.T / o.priceSteps := by
  unfold dx xMax xMin; ring

theorem Ok.cx_eq {o : FdPricer} (h : o.Ok) : o.cx = (o.priceSteps : ℝ) ^ 2 / (200 * o.timeSteps) := by
  have hT := h.T; have hv := h.v; have hn := h.n; have hm := h.m
  have hs : 0 < √o.T := by positivity
  have h2 : √o.T ^ 2 = o.T := Real.sq_sqrt hT.le
  have hm' : (0:ℝ) < o.timeSteps := by exact_mod_cast hm
  have hn' : (0:ℝ) < o.priceSteps := by exact_mod_cast hn
  rw [cx, dt, Ok.dx_eq, div_pow, mul_pow, h2]
  field_simp
  ring

theorem Ok.cy_eq {o : FdPricer} (h : o.Ok) :
    o.cy = (o.riskFreeRate - 1 / 2 * o.volatility ^ 2) * √o.T * o.priceSteps / (20 * o.volatility * o.timeSteps) := by
  have hT := h.T; have hv := h.v; have hn := h.n; have hm := h.m
  have hs : 0 < √o.T := by positivity
  have h2 : √o.T ^ 2 = o.T := Real.sq_sqrt hT.le
  have hm' : (0:ℝ) < o.timeSteps := by exact_mod_cast hm
  have hn' : (0:ℝ) < o.priceSteps := by exact_mod_cast hn
  rw [cy, dt, Ok.dx_eq]
  have : o.T = √o.T * √o.T := by rw [← sq, h2]
  rw [this]
  have e : √(√o.T * √o.T) = √o.T := by rw [← sq, h2]
  rw [e]
  field_simp
  ring

/-- The numbers of steps that keep the schemes stable. The bound on the time step does not depend on prices, rates,
volatility or expiry: the explicit method needs `price_steps² ≤ 100 time_steps`, the Crank-Nicolson method half as
many, the implicit method none. All of them need enough price steps for the drift. -/
theorem C82_stability (o : FdPricer) (h : o.Ok) :
    (|o.cy| ≤ o.cx ↔ 10 * |o.riskFreeRate - o.volatility ^ 2 / 2| * √o.T ≤ o.volatility * o.priceSteps) ∧
    ∀ s : Scheme, (1 - s.theta) * (2 * o.cx) ≤ 1 ↔ (1 - s.theta) * (o.priceSteps : ℝ) ^ 2 ≤ 100 * o.timeSteps := by
  have hT := h.T; have hv := h.v; have hn := h.n; have hm := h.m
  have hm' : (0:ℝ) < o.timeSteps := by exact_mod_cast hm
  have hn' : (0:ℝ) < o.priceSteps := by exact_mod_cast hn
  constructor
  · rw [h.cx_eq, h.cy_eq, abs_div, abs_mul, abs_mul, abs_of_pos (by positivity : 0 < 20 * o.volatility * o.timeSteps),
      abs_of_pos hn', abs_of_nonneg (Real.sqrt_nonneg _), div_le_div_iff₀ (by positivity) (by positivity),
      show o.riskFreeRate - 1 / 2 * o.volatility ^ 2 = o.riskFreeRate - o.volatility ^ 2 / 2 by ring]
    have hp : (0:ℝ) < 20 * o.priceSteps * o.timeSteps := by positivity
    rw [show |o.riskFreeRate - o.volatility ^ 2 / 2| * √o.T * o.priceSteps * (200 * o.timeSteps) =
        20 * o.priceSteps * o.timeSteps * (10 * |o.riskFreeRate - o.volatility ^ 2 / 2| * √o.T) by ring,
      show (o.priceSteps : ℝ) ^ 2 * (20 * o.volatility * o.timeSteps) =
        20 * o.priceSteps * o.timeSteps * (o.volatility * o.priceSteps) by ring, mul_le_mul_iff_right₀ hp]
  · intro s
    rw [h.cx_eq, show (1 - s.theta) * (2 * ((o.priceSteps : ℝ) ^ 2 / (200 * o.timeSteps))) =
      (1 - s.theta) * (o.priceSteps : ℝ) ^ 2 / (100 * o.timeSteps) by field_simp; ring,
      div_le_one (by positivity)]

/-! ### Error bounds -/

theorem Scheme.theta_mem (s : Scheme) : 0 ≤ s.theta ∧ s.theta ≤ 1 := by
  cases s <;> simp [Scheme.theta] <;> norm_num

theorem price_eq (o : FdPricer) (h : o.Ok) (h3 : 3 ≤ o.priceSteps) (s : Scheme) :
    ∃ v : ℕ → Fin (o.priceSteps - 1) → ℝ, v 0 = o.init ∧
      s.price o = some (exp (-o.riskFreeRate * o.T) * o.mid h3 (v o.timeSteps)) ∧
      ∀ t, ∃ w, v (t + 1) = o.exerVec (t + 1) w ∧ ∀ j, (w j - v t j) / o.dt =
        s.theta * o.generator (row (o.lowerEdge ((t + 1 : ℕ) * o.dt)) (o.upperEdge ((t + 1 : ℕ) * o.dt)) w) j +
        (1 - s.theta) *
          o.generator (row (o.lowerEdge ((t + 1 : ℕ) * o.dt)) (o.upperEdge ((t + 1 : ℕ) * o.dt)) (v t)) j := by
  choose w hw hrel using C82_scheme o h h3 s
  refine ⟨fun t => iterVec (fun t u => o.exerVec t (w t u)) t o.init, rfl, ?_, fun t => ⟨_, rfl, hrel (t + 1) _⟩⟩
  have := run_ofFn o h3 (s.step o) _ hw
  cases s <;> exact this

/-- The reading at the spot price: the middle grid point, or the mean of the two points beside the middle. -/
noncomputable def atSpot (o : FdPricer) (V : ℕ → ℝ) : ℝ :=
  if o.priceSteps % 2 = 0 then V (o.priceSteps / 2)
  else (V ((o.priceSteps + 1) / 2) + V ((o.priceSteps - 1) / 2)) / 2

theorem mid_sub (o : FdPricer) (h3 : 3 ≤ o.priceSteps) (u : Fin (o.priceSteps - 1) → ℝ) (V : ℕ → ℝ) (B y c : ℝ)
    (hy : 0 ≤ y) (hy1 : y ≤ 1) (hc : 0 ≤ c)
    (hb : ∀ j, |u j - V (j.val + 1)| ≤ B + c * (y ^ (o.priceSteps - (j.val + 1)) + y ^ (j.val + 1))) :
    |o.mid h3 u - o.atSpot V| ≤ B + 2 * c * y ^ (o.priceSteps / 2) := by
  have hpow : ∀ k, o.priceSteps / 2 ≤ k → y ^ k ≤ y ^ (o.priceSteps / 2) := fun k hk =>
    pow_le_pow_of_le_one hy hy1 hk
  unfold mid atSpot
  split_ifs with hp
  · have := hb ⟨(o.priceSteps - 1) / 2, by omega⟩
    simp only [show (o.priceSteps - 1) / 2 + 1 = o.priceSteps / 2 by omega] at this
    have h1 := mul_le_mul_of_nonneg_left
      (add_le_add (hpow (o.priceSteps - o.priceSteps / 2) (by omega)) (hpow _ le_rfl)) hc
    linarith
  · have a1 := hb ⟨(o.priceSteps - 1) / 2, by omega⟩
    have a2 := hb ⟨(o.priceSteps - 3) / 2, by omega⟩
    simp only [show (o.priceSteps - 1) / 2 + 1 = (o.priceSteps + 1) / 2 by omega] at a1
    simp only [show (o.priceSteps - 3) / 2 + 1 = (o.priceSteps - 1) / 2 by omega] at a2
    have h1 := mul_le_mul_of_nonneg_left (add_le_add (hpow (o.priceSteps - (o.priceSteps + 1) / 2) (by omega))
      (hpow ((o.priceSteps + 1) / 2) (by omega))) hc
    have h2 := mul_le_mul_of_nonneg_left (add_le_add (hpow (o.priceSteps - (o.priceSteps - 1) / 2) (by omega))
      (hpow ((o.priceSteps - 1) / 2) (by omega))) hc
    rw [abs_le] at *
    constructor <;> linarith [a1.1, a1.2, a2.1, a2.2]

theorem dominating (a c θ y Λ ε₀ η δ : ℝ) (hy : 0 < y) (hΛ : 1 ≤ Λ) (hη : 0 ≤ η)
    (hg1 : (θ * Λ + (1 - θ)) * (c * (1 / y - 1) + a * (y - 1)) ≤ Λ - 1)
    (hg2 : (θ * Λ + (1 - θ)) * (a * (1 / y - 1) + c * (y - 1)) ≤ Λ - 1) (t i q : ℕ) :
    θ * (a * (ε₀ + ((t:ℝ) + 1) * δ + η * Λ ^ (t + 1) * (y ^ (q + 2) + y ^ i)) +
        c * (ε₀ + ((t:ℝ) + 1) * δ + η * Λ ^ (t + 1) * (y ^ q + y ^ (i + 2)))) +
      ((1 - (1 - θ) * (a + c)) * (ε₀ + (t:ℝ) * δ + η * Λ ^ t * (y ^ (q + 1) + y ^ (i + 1))) +
        (1 - θ) * (a * (ε₀ + (t:ℝ) * δ + η * Λ ^ t * (y ^ (q + 2) + y ^ i)) +
          c * (ε₀ + (t:ℝ) * δ + η * Λ ^ t * (y ^ q + y ^ (i + 2))))) + δ ≤
      (1 + θ * (a + c)) * (ε₀ + ((t:ℝ) + 1) * δ + η * Λ ^ (t + 1) * (y ^ (q + 1) + y ^ (i + 1))) := by
  have hQ : 0 ≤ η * Λ ^ t * y ^ (q + 1) := by positivity
  have hI : 0 ≤ η * Λ ^ t * y ^ (i + 1) := by positivity
  have k1 := mul_le_mul_of_nonneg_left hg1 hQ
  have k2 := mul_le_mul_of_nonneg_left hg2 hI
  have yq : y ^ (q + 1) * (1 / y) = y ^ q := by rw [pow_succ]; field_simp
  have yi : y ^ (i + 1) * (1 / y) = y ^ i := by rw [pow_succ]; field_simp
  have e1 : η * Λ ^ t * y ^ (q + 1) * ((θ * Λ + (1 - θ)) * (c * (1 / y - 1) + a * (y - 1))) =
      η * Λ ^ t * ((θ * Λ + (1 - θ)) * (c * (y ^ q - y ^ (q + 1)) + a * (y ^ (q + 2) - y ^ (q + 1)))) := by
    rw [← yq]; ring
  have e2 : η * Λ ^ t * y ^ (i + 1) * ((θ * Λ + (1 - θ)) * (a * (1 / y - 1) + c * (y - 1))) =
      η * Λ ^ t * ((θ * Λ + (1 - θ)) * (a * (y ^ i - y ^ (i + 1)) + c * (y ^ (i + 2) - y ^ (i + 1)))) := by
    rw [← yi]; ring
  rw [e1] at k1
  rw [e2] at k2
  rw [← sub_nonneg] at k1 k2 ⊢
  refine (add_nonneg k1 k2).trans (le_of_eq ?_)
  rw [pow_succ Λ t]
  generalize y ^ q = A, y ^ (q + 1) = B, y ^ (q + 2) = C, y ^ i = D, y ^ (i + 1) = F, y ^ (i + 2) = H, Λ ^ t = L
  ring

/-- Discrete error bound for European options: any array `W` on the grid that satisfies the scheme up to `ε`, the
payoff up to `ε₀` and the values at the two ends up to `η` determines the price up to `ε₀ + T ε` plus a multiple of `η`.
The multiple is `2 Λ^time_steps y^(price_steps/2)` for every `0 < y ≤ 1` and growth factor `Λ ≥ 1` that dominates the
growth of the grid functions `y^(-k)` and `y^k`; with `y = Λ = 1` it is 2, smaller `y` show how the ends are damped. -/
theorem C82_discrete_error (o : FdPricer) (h : o.Ok) (h3 : 3 ≤ o.priceSteps) (s : Scheme)
    (hE : o.exerciseFlag ≠ .american dateMin dateMax)
    (hdrift : 10 * |o.riskFreeRate - o.volatility ^ 2 / 2| * √o.T ≤ o.volatility * o.priceSteps)
    (htime : (1 - s.theta) * (o.priceSteps : ℝ) ^ 2 ≤ 100 * o.timeSteps)
    (W : ℕ → ℕ → ℝ) (ε₀ η ε y Λ : ℝ) (hε : 0 ≤ ε) (hη : 0 ≤ η) (hy : 0 < y) (hy1 : y ≤ 1) (hΛ : 1 ≤ Λ)
    (hgrow : ∀ e : ℝ, e = 1 ∨ e = -1 → (s.theta * Λ + (1 - s.theta)) * (o.dt * (o.volatility ^ 2 / 2 *
      ((1 / y - 2 + y) / o.dx ^ 2) + e * (o.riskFreeRate - o.volatility ^ 2 / 2) * ((1 / y - y) / (2 * o.dx)))) ≤ Λ - 1)
    (h0 : ∀ k, 1 ≤ k → k < o.priceSteps → |o.payoff (exp (o.xMin + k * o.dx)) - W 0 k| ≤ ε₀)
    (hlo : ∀ t < o.timeSteps,
      |o.lowerEdge ((t + 1 : ℕ) * o.dt) - (s.theta * W (t + 1) 0 + (1 - s.theta) * W t 0)| ≤ η)
    (hhi : ∀ t < o.timeSteps, |o.upperEdge ((t + 1 : ℕ) * o.dt) -
      (s.theta * W (t + 1) o.priceSteps + (1 - s.theta) * W t o.priceSteps)| ≤ η)
    (hW : ∀ t < o.timeSteps, ∀ j, j + 2 ≤ o.priceSteps → |(W (t + 1) (j + 1) - W t (j + 1)) / o.dt -
      (s.theta * o.generator (W (t + 1)) j + (1 - s.theta) * o.generator (W t) j)| ≤ ε) :
    ∃ p, s.price o = some p ∧ |p - exp (-o.riskFreeRate * o.T) * o.atSpot (W o.timeSteps)| ≤
      exp (-o.riskFreeRate * o.T) * (ε₀ + o.T * ε + 2 * η * Λ ^ o.timeSteps * y ^ (o.priceSteps / 2)) := by
  obtain ⟨v, hv0, hp, hv⟩ := price_eq o h h3 s
  obtain ⟨hθ, hθ1⟩ := s.theta_mem
  have hdt := h.dt_pos
  have hst := C82_stability o h
  have hxy := abs_le.mp (hst.1.mpr hdrift)
  have hcx := (hst.2 s).mpr htime
  set θ := s.theta
  -- the dominating function
  let Φ : ℕ → ℕ → ℝ := fun t k => ε₀ + t * (o.dt * ε) + η * Λ ^ t * (y ^ (o.priceSteps - k) + y ^ k)
  have hg1 : (θ * Λ + (1 - θ)) * ((o.cx + o.cy) * (1 / y - 1) + (o.cx - o.cy) * (y - 1)) ≤ Λ - 1 := by
    have := hgrow 1 (Or.inl rfl)
    refine le_trans (le_of_eq ?_) this
    congr 1
    unfold cx cy; ring
  have hg2 : (θ * Λ + (1 - θ)) * ((o.cx - o.cy) * (1 / y - 1) + (o.cx + o.cy) * (y - 1)) ≤ Λ - 1 := by
    have := hgrow (-1) (Or.inr rfl)
    refine le_trans (le_of_eq ?_) this
    congr 1
    unfold cx cy; ring
  have hε0 : 0 ≤ ε₀ := (abs_nonneg _).trans (h0 1 le_rfl (by omega))
  have hedge : ∀ t, η ≤ Φ t 0 ∧ η ≤ Φ t o.priceSteps := by
    intro t
    have h1 : 1 ≤ Λ ^ t := one_le_pow₀ hΛ
    have h2 : 0 ≤ y ^ o.priceSteps := by positivity
    have h3 : 0 ≤ (t:ℝ) * (o.dt * ε) := by positivity
    have h4 : η * 1 * 1 ≤ η * Λ ^ t * (y ^ o.priceSteps + 1) := by
      apply mul_le_mul (mul_le_mul_of_nonneg_left h1 hη) (by linarith) zero_le_one (by positivity)
    simp only [Φ, Nat.sub_zero, Nat.sub_self, pow_zero]
    constructor <;> linarith
  have key : ∀ t ≤ o.timeSteps, ∀ j : Fin (o.priceSteps - 1), |v t j - W t (j.val + 1)| ≤ Φ t (j.val + 1) := by
    intro t
    induction t with
    | zero =>
      intro _ j
      have := h0 (j.val + 1) (by omega) (by have := j.isLt; omega)
      rw [hv0]
      simp only [init, node, Φ]
      push_cast at this
      have h2 : 0 ≤ η * Λ ^ 0 * (y ^ (o.priceSteps - (j.val + 1)) + y ^ (j.val + 1)) := by positivity
      simp only [Nat.cast_zero, zero_mul, add_zero]
      linarith
    | succ t ih =>
      intro ht j
      have ih := ih (by omega)
      obtain ⟨w, hw, hrel⟩ := hv t
      have hww : v (t + 1) = w := by
        rw [hw]; funext i; simp only [exerVec]; rw [if_neg hE]
      rw [hww]
      set gl := o.lowerEdge ((t + 1 : ℕ) * o.dt) - (θ * W (t + 1) 0 + (1 - θ) * W t 0) with hgl
      set gh := o.upperEdge ((t + 1 : ℕ) * o.dt) - (θ * W (t + 1) o.priceSteps + (1 - θ) * W t o.priceSteps) with hgh
      have bgl : |gl| ≤ η := hlo t (by omega)
      have bgh : |gh| ≤ η := hhi t (by omega)
      let E : ℕ → ℝ := row gl gh (fun i : Fin (o.priceSteps - 1) => v t i - W t (i.val + 1))
      let E' : ℕ → ℝ := row gl gh (fun i : Fin (o.priceSteps - 1) => w i - W (t + 1) (i.val + 1))
      have hEb : ∀ k ≤ o.priceSteps - 1 + 1, |E k| ≤ Φ t k := by
        intro k hk
        rcases Nat.eq_zero_or_pos k with hz | hz
        · subst hz; exact bgl.trans (hedge t).1
        rcases Nat.eq_or_lt_of_le hk with hz' | hz'
        · subst hz'
          simp only [E, row_last]
          rw [show o.priceSteps - 1 + 1 = o.priceSteps by omega]
          exact bgh.trans (hedge t).2
        · obtain ⟨i, rfl⟩ : ∃ i, k = i + 1 := ⟨k - 1, by omega⟩
          have := ih ⟨i, by omega⟩
          have e := row_succ gl gh (fun i : Fin (o.priceSteps - 1) => v t i - W t (i.val + 1)) ⟨i, by omega⟩
          simp only at e
          simp only [E, e]
          exact this
      have hE0 : |E' 0| ≤ Φ (t + 1) 0 := bgl.trans (hedge (t + 1)).1
      have hEn : |E' (o.priceSteps - 1 + 1)| ≤ Φ (t + 1) (o.priceSteps - 1 + 1) := by
        simp only [E', row_last]
        rw [show o.priceSteps - 1 + 1 = o.priceSteps by omega]
        exact bgh.trans (hedge (t + 1)).2
      -- the error equation
      have hmix : ∀ k ≤ o.priceSteps - 1 + 1, θ * E' k + (1 - θ) * E k =
          θ * (row (o.lowerEdge ((t + 1 : ℕ) * o.dt)) (o.upperEdge ((t + 1 : ℕ) * o.dt)) w k - W (t + 1) k) +
          (1 - θ) * (row (o.lowerEdge ((t + 1 : ℕ) * o.dt)) (o.upperEdge ((t + 1 : ℕ) * o.dt)) (v t) k - W t k) := by
        intro k hk
        rcases Nat.eq_zero_or_pos k with hz | hz
        · subst hz; simp only [E, E', row_zero, hgl]; ring
        rcases Nat.eq_or_lt_of_le hk with hz' | hz'
        · subst hz'
          simp only [E, E', row_last, hgh]
          rw [show o.priceSteps - 1 + 1 = o.priceSteps by omega]; ring
        · obtain ⟨i, rfl⟩ : ∃ i, k = i + 1 := ⟨k - 1, by omega⟩
          have e := fun lo hi (u : Fin (o.priceSteps - 1) → ℝ) => row_succ lo hi u ⟨i, by omega⟩
          simp only at e
          simp only [E, E', e]
      have herr : ∀ i < o.priceSteps - 1, |(1 + θ * (2 * o.cx)) * E' (i + 1) -
          (θ * ((o.cx - o.cy) * E' i + (o.cx + o.cy) * E' (i + 2)) + ((1 - (1 - θ) * (2 * o.cx)) * E (i + 1) +
            (1 - θ) * ((o.cx - o.cy) * E i + (o.cx + o.cy) * E (i + 2))))| ≤ o.dt * ε := by
        intro i hi
        have hr := hrel ⟨i, hi⟩
        have hres := hW t (by omega) i (by omega)
        rw [div_eq_iff hdt.ne', mul_comm _ o.dt, mul_add, mul_left_comm, mul_left_comm o.dt, dt_generator,
          dt_generator] at hr
        have m0 := hmix i (by omega)
        have m2 := hmix (i + 2) (by omega)
        have e := fun lo hi (u : Fin (o.priceSteps - 1) → ℝ) => row_succ lo hi u ⟨i, by omega⟩
        simp only at e
        simp only [e] at hr
        have eE : E (i + 1) = v t ⟨i, hi⟩ - W t (i + 1) := e _ _ _
        have eE' : E' (i + 1) = w ⟨i, hi⟩ - W (t + 1) (i + 1) := e _ _ _
        have hres2 : |(W (t + 1) (i + 1) - W t (i + 1)) -
            (θ * ((o.cx - o.cy) * W (t + 1) i - 2 * o.cx * W (t + 1) (i + 1) + (o.cx + o.cy) * W (t + 1) (i + 2)) +
            (1 - θ) * ((o.cx - o.cy) * W t i - 2 * o.cx * W t (i + 1) + (o.cx + o.cy) * W t (i + 2)))| ≤ o.dt * ε := by
          rw [← dt_generator, ← dt_generator]
          have : (W (t + 1) (i + 1) - W t (i + 1)) -
            (θ * (o.dt * o.generator (W (t + 1)) i) + (1 - θ) * (o.dt * o.generator (W t) i)) =
            o.dt * ((W (t + 1) (i + 1) - W t (i + 1)) / o.dt -
              (θ * o.generator (W (t + 1)) i + (1 - θ) * o.generator (W t) i)) := by
            field_simp
          rw [this, abs_mul, abs_of_pos hdt]
          exact mul_le_mul_of_nonneg_left hres hdt.le
        rw [← abs_neg] at hres2
        refine le_trans (le_of_eq ?_) hres2
        congr 1
        rw [eE, eE']
        linear_combination hr - (o.cx - o.cy) * m0 - (o.cx + o.cy) * m2
      -- the dominating function satisfies the scheme with a surplus
      have hΦ : ∀ i < o.priceSteps - 1, θ * ((o.cx - o.cy) * Φ (t + 1) i + (o.cx + o.cy) * Φ (t + 1) (i + 2)) +
          ((1 - (1 - θ) * (2 * o.cx)) * Φ t (i + 1) +
            (1 - θ) * ((o.cx - o.cy) * Φ t i + (o.cx + o.cy) * Φ t (i + 2))) + o.dt * ε ≤
          (1 + θ * (2 * o.cx)) * Φ (t + 1) (i + 1) := by
        intro i hi
        obtain ⟨q, hq⟩ : ∃ q, o.priceSteps = i + 2 + q := ⟨o.priceSteps - i - 2, by omega⟩
        have p0 : o.priceSteps - i = q + 2 := by omega
        have p1 : o.priceSteps - (i + 1) = q + 1 := by omega
        have p2 : o.priceSteps - (i + 2) = q := by omega
        simp only [Φ, p0, p1, p2]
        have := dominating (o.cx - o.cy) (o.cx + o.cy) θ y Λ ε₀ η (o.dt * ε) hy hΛ hη hg1 hg2 t i q
        rw [show o.cx - o.cy + (o.cx + o.cy) = 2 * o.cx by ring] at this
        push_cast
        exact this
      have h2c : o.cx - o.cy + (o.cx + o.cy) = 2 * o.cx := by ring
      have fin : ∀ sg : ℝ, sg = 1 ∨ sg = -1 → ∀ k ≤ o.priceSteps - 1 + 1, 0 ≤ Φ (t + 1) k - sg * E' k := by
        intro sg hsg
        have habs : ∀ x B : ℝ, |x| ≤ B → 0 ≤ B - sg * x := by
          intro x B hx
          have := abs_le.mp hx
          rcases hsg with rfl | rfl <;> linarith
        refine theta_min (a := o.cx - o.cy) (c := o.cx + o.cy) (G := fun k => Φ t k - sg * E k)
          (G' := fun k => Φ (t + 1) k - sg * E' k) hθ hθ1 (by linarith) (by linarith)
          (by rw [h2c]; exact hcx) (fun k hk => habs _ _ (hEb k hk)) (habs _ _ hE0) (habs _ _ hEn) ?_
        intro i hi
        have a1 := hΦ i hi
        have a2 := habs _ _ (herr i hi)
        rw [h2c]
        linarith
      have e' : E' (j.val + 1) = w j - W (t + 1) (j.val + 1) := row_succ _ _ _ j
      rw [← e', abs_le]
      have f1 := fin 1 (Or.inl rfl) (j.val + 1) (by have := j.isLt; omega)
      have f2 := fin (-1) (Or.inr rfl) (j.val + 1) (by have := j.isLt; omega)
      constructor <;> linarith
  refine ⟨_, hp, ?_⟩
  rw [← mul_sub, abs_mul, abs_of_pos (exp_pos _)]
  refine mul_le_mul_of_nonneg_left ?_ (exp_pos _).le
  have hm : (o.timeSteps : ℝ) * o.dt = o.T := by
    rw [dt]; have : (o.timeSteps:ℝ) ≠ 0 := by exact_mod_cast h.m.ne'
    field_simp
  have := mid_sub o h3 (v o.timeSteps) (W o.timeSteps) (ε₀ + o.timeSteps * (o.dt * ε)) y (η * Λ ^ o.timeSteps)
    hy.le hy1 (by positivity) (fun j => key _ le_rfl j)
  refine this.trans (le_of_eq ?_)
  rw [← mul_assoc (o.timeSteps : ℝ), hm]
  ring

/-- `w` solves the Black-Scholes equation for the undiscounted value on `[0, T] × [x_min, x_max]`, and `M₂`, `M₃`, `M₄`
bound its second derivative in time and its third and fourth derivatives in the logarithm of the price. -/
structure Solution (o : FdPricer) (w : ℝ → ℝ → ℝ) (M₂ M₃ M₄ : ℝ) where
  wt : ℝ → ℝ → ℝ
  wtt : ℝ → ℝ → ℝ
  wx : ℝ → ℝ → ℝ
  wxx : ℝ → ℝ → ℝ
  wxxx : ℝ → ℝ → ℝ
  wxxxx : ℝ → ℝ → ℝ
  hwt : ∀ τ ∈ Set.Icc 0 o.T, ∀ x ∈ Set.Icc o.xMin o.xMax, HasDerivAt (fun τ => w τ x) (wt τ x) τ
  hwtt : ∀ τ ∈ Set.Icc 0 o.T, ∀ x ∈ Set.Icc o.xMin o.xMax, HasDerivAt (fun τ => wt τ x) (wtt τ x) τ
  hwx : ∀ τ ∈ Set.Icc 0 o.T, ∀ x ∈ Set.Icc o.xMin o.xMax, HasDerivAt (w τ) (wx τ x) x
  hwxx : ∀ τ ∈ Set.Icc 0 o.T, ∀ x ∈ Set.Icc o.xMin o.xMax, HasDerivAt (wx τ) (wxx τ x) x
  hwxxx : ∀ τ ∈ Set.Icc 0 o.T, ∀ x ∈ Set.Icc o.xMin o.xMax, HasDerivAt (wxx τ) (wxxx τ x) x
  hwxxxx : ∀ τ ∈ Set.Icc 0 o.T, ∀ x ∈ Set.Icc o.xMin o.xMax, HasDerivAt (wxxx τ) (wxxxx τ x) x
  pde : ∀ τ ∈ Set.Icc 0 o.T, ∀ x ∈ Set.Icc o.xMin o.xMax,
    wt τ x = o.volatility ^ 2 / 2 * wxx τ x + (o.riskFreeRate - o.volatility ^ 2 / 2) * wx τ x
  h₂ : ∀ τ ∈ Set.Icc 0 o.T, ∀ x ∈ Set.Icc o.xMin o.xMax, |wtt τ x| ≤ M₂
  h₃ : ∀ τ ∈ Set.Icc 0 o.T, ∀ x ∈ Set.Icc o.xMin o.xMax, |wxxx τ x| ≤ M₃
  h₄ : ∀ τ ∈ Set.Icc 0 o.T, ∀ x ∈ Set.Icc o.xMin o.xMax, |wxxxx τ x| ≤ M₄

theorem xMax_eq (o : FdPricer) (h : o.Ok) : o.xMin + o.priceSteps * o.dx = o.xMax := by
  have : (o.priceSteps : ℝ) ≠ 0 := by exact_mod_cast h.n.ne'
  unfold dx; field_simp; ring

theorem grid_mem (o : FdPricer) (h : o.Ok) (k : ℕ) (hk : k ≤ o.priceSteps) :
    o.xMin + k * o.dx ∈ Set.Icc o.xMin o.xMax := by
  have hdx := h.dx_pos
  have : (k : ℝ) ≤ o.priceSteps := by exact_mod_cast hk
  rw [← xMax_eq o h]
  constructor <;> nlinarith [mul_nonneg (Nat.cast_nonneg (α := ℝ) k) hdx.le]

theorem time_mem (o : FdPricer) (h : o.Ok) (t : ℕ) (ht : t ≤ o.timeSteps) : (t : ℝ) * o.dt ∈ Set.Icc 0 o.T := by
  have hdt := h.dt_pos
  have hm : (o.timeSteps : ℝ) * o.dt = o.T := by
    rw [dt]; have : (o.timeSteps:ℝ) ≠ 0 := by exact_mod_cast h.m.ne'
    field_simp
  have : (t : ℝ) ≤ o.timeSteps := by exact_mod_cast ht
  rw [← hm]
  exact ⟨by positivity, by nlinarith⟩

/-- The central-difference operator approximates the Black-Scholes operator to second order in the grid width. -/
theorem C82_consistent (o : FdPricer) (h : o.Ok) (w : ℝ → ℝ → ℝ) (M₂ M₃ M₄ : ℝ) (S : Solution o w M₂ M₃ M₄)
    (τ : ℝ) (hτ : τ ∈ Set.Icc 0 o.T) (j : ℕ) (hj : j + 2 ≤ o.priceSteps) :
    |o.generator (fun k => w τ (o.xMin + k * o.dx)) j - S.wt τ (o.xMin + (j + 1 : ℕ) * o.dx)| ≤
      o.dx ^ 2 * (o.volatility ^ 2 * M₄ / 24 + |o.riskFreeRate - o.volatility ^ 2 / 2| * M₃ / 6) := by
  have hdx := h.dx_pos
  set x := o.xMin + (j + 1 : ℕ) * o.dx with hx
  have xp : o.xMin + (j + 2 : ℕ) * o.dx = x + o.dx := by rw [hx]; push_cast; ring
  have xm : o.xMin + (j : ℕ) * o.dx = x - o.dx := by rw [hx]; push_cast; ring
  have m0 := grid_mem o h j (by omega)
  have m1 := grid_mem o h (j + 1) (by omega)
  have m2 := grid_mem o h (j + 2) hj
  rw [xm] at m0; rw [xp] at m2; rw [← hx] at m1
  have sub : ∀ y ∈ Set.Icc (x - o.dx) (x + o.dx), y ∈ Set.Icc o.xMin o.xMax := fun y hy =>
    ⟨m0.1.trans hy.1, hy.2.trans m2.2⟩
  have A := second_difference hdx.le (fun y hy => S.hwx τ hτ y (sub y hy)) (fun y hy => S.hwxx τ hτ y (sub y hy))
    (fun y hy => S.hwxxx τ hτ y (sub y hy)) (fun y hy => S.hwxxxx τ hτ y (sub y hy))
    (fun y hy => S.h₄ τ hτ y (sub y hy))
  have B := central_difference hdx.le (fun y hy => S.hwx τ hτ y (sub y hy)) (fun y hy => S.hwxx τ hτ y (sub y hy))
    (fun y hy => S.hwxxx τ hτ y (sub y hy)) (fun y hy => S.h₃ τ hτ y (sub y hy))
  rw [S.pde τ hτ x m1]
  unfold generator
  simp only [xp, xm, ← hx]
  have e : o.volatility ^ 2 / 2 * ((w τ (x + o.dx) - 2 * w τ x + w τ (x - o.dx)) / o.dx ^ 2) +
      (o.riskFreeRate - o.volatility ^ 2 / 2) * ((w τ (x + o.dx) - w τ (x - o.dx)) / (2 * o.dx)) -
      (o.volatility ^ 2 / 2 * S.wxx τ x + (o.riskFreeRate - o.volatility ^ 2 / 2) * S.wx τ x) =
      o.volatility ^ 2 / 2 / o.dx ^ 2 *
        (w τ (x + o.dx) - 2 * w τ x + w τ (x - o.dx) - o.dx ^ 2 * S.wxx τ x) +
      (o.riskFreeRate - o.volatility ^ 2 / 2) / (2 * o.dx) *
        (w τ (x + o.dx) - w τ (x - o.dx) - 2 * o.dx * S.wx τ x) := by
    field_simp
    ring
  rw [e]
  refine (abs_add_le _ _).trans ?_
  rw [abs_mul, abs_mul, abs_of_nonneg (by positivity : 0 ≤ o.volatility ^ 2 / 2 / o.dx ^ 2), abs_div,
    abs_of_pos (by positivity : 0 < 2 * o.dx)]
  have i1 := mul_le_mul_of_nonneg_left A (by positivity : 0 ≤ o.volatility ^ 2 / 2 / o.dx ^ 2)
  have i2 := mul_le_mul_of_nonneg_left B
    (by positivity : 0 ≤ |o.riskFreeRate - o.volatility ^ 2 / 2| / (2 * o.dx))
  refine (add_le_add i1 i2).trans (le_of_eq ?_)
  field_simp
  ring

/-- The spot reading of a function of the logarithm of the price. -/
noncomputable def spotValue (o : FdPricer) (f : ℝ → ℝ) : ℝ :=
  if o.priceSteps % 2 = 0 then f (log o.initialPrice)
  else (f (log o.initialPrice + o.dx / 2) + f (log o.initialPrice - o.dx / 2)) / 2

theorem atSpot_grid (o : FdPricer) (h : o.Ok) (f : ℝ → ℝ) :
    o.atSpot (fun k => f (o.xMin + k * o.dx)) = o.spotValue f := by
  have hn : (o.priceSteps : ℝ) ≠ 0 := by exact_mod_cast h.n.ne'
  have hx : ∀ k : ℕ, o.xMin + k * o.dx = log o.initialPrice + (2 * k - o.priceSteps) * (o.dx / 2) := by
    intro k
    have : (o.priceSteps : ℝ) * o.dx = 2 * (log o.initialPrice - o.xMin) := by
      unfold dx xMax xMin; field_simp; ring
    linarith
  unfold atSpot spotValue
  split_ifs with hp
  · simp only
    rw [hx]
    have : (2 * (o.priceSteps / 2 : ℕ) : ℝ) = o.priceSteps := by exact_mod_cast (by omega)
    rw [this]; simp
  · simp only
    rw [hx, hx]
    have e1 : (2 * ((o.priceSteps + 1) / 2 : ℕ) : ℝ) = o.priceSteps + 1 := by exact_mod_cast (by omega)
    have e2 : (2 * ((o.priceSteps - 1) / 2 : ℕ) : ℝ) = o.priceSteps - 1 := by
      have : 2 * ((o.priceSteps - 1) / 2) + 1 = o.priceSteps := by omega
      have : (2 * ((o.priceSteps - 1) / 2 : ℕ) : ℝ) + 1 = o.priceSteps := by exact_mod_cast this
      linarith
    rw [e1, e2]
    congr 2
    · congr 1; ring
    · congr 1; ring

theorem error_of_time (o : FdPricer) (h : o.Ok) (h3 : 3 ≤ o.priceSteps) (s : Scheme)
    (hE : o.exerciseFlag ≠ .american dateMin dateMax)
    (hdrift : 10 * |o.riskFreeRate - o.volatility ^ 2 / 2| * √o.T ≤ o.volatility * o.priceSteps)
    (htime : (1 - s.theta) * (o.priceSteps : ℝ) ^ 2 ≤ 100 * o.timeSteps)
    (w : ℝ → ℝ → ℝ) (M₂ M₃ M₄ : ℝ) (S : Solution o w M₂ M₃ M₄) (ε₀ η y Λ κ : ℝ) (hκ : 0 ≤ κ)
    (hy : 0 < y) (hy1 : y ≤ 1) (hΛ : 1 ≤ Λ)
    (hgrow : ∀ e : ℝ, e = 1 ∨ e = -1 → (s.theta * Λ + (1 - s.theta)) * (o.dt * (o.volatility ^ 2 / 2 *
      ((1 / y - 2 + y) / o.dx ^ 2) + e * (o.riskFreeRate - o.volatility ^ 2 / 2) * ((1 / y - y) / (2 * o.dx)))) ≤ Λ - 1)
    (h0 : ∀ x ∈ Set.Icc o.xMin o.xMax, |o.payoff (exp x) - w 0 x| ≤ ε₀)
    (hlo : ∀ τ ∈ Set.Icc 0 o.T, ∀ τ' ∈ Set.Icc 0 o.T, |τ - τ'| ≤ o.dt → |o.lowerEdge τ - w τ' o.xMin| ≤ η)
    (hhi : ∀ τ ∈ Set.Icc 0 o.T, ∀ τ' ∈ Set.Icc 0 o.T, |τ - τ'| ≤ o.dt → |o.upperEdge τ - w τ' o.xMax| ≤ η)
    (hstep : ∀ t < o.timeSteps, ∀ x ∈ Set.Icc o.xMin o.xMax,
      |w ((t : ℝ) * o.dt + o.dt) x - w (t * o.dt) x -
        o.dt * (s.theta * S.wt ((t : ℝ) * o.dt + o.dt) x + (1 - s.theta) * S.wt (t * o.dt) x)| ≤ o.dt * κ) :
    ∃ p, s.price o = some p ∧ |p - exp (-o.riskFreeRate * o.T) * o.spotValue (w o.T)| ≤
      exp (-o.riskFreeRate * o.T) * (ε₀ + o.T * (κ + o.dx ^ 2 * (o.volatility ^ 2 * M₄ / 24 +
        |o.riskFreeRate - o.volatility ^ 2 / 2| * M₃ / 6)) + 2 * η * Λ ^ o.timeSteps * y ^ (o.priceSteps / 2)) := by
  have hdt := h.dt_pos
  have hdx := h.dx_pos
  obtain ⟨hθ, hθ1⟩ := s.theta_mem
  have t0 : (0:ℝ) ∈ Set.Icc 0 o.T := ⟨le_rfl, h.T.le⟩
  have x0 : o.xMin ∈ Set.Icc o.xMin o.xMax := by simpa using grid_mem o h 0 (by omega)
  have hM3 : 0 ≤ M₃ := (abs_nonneg _).trans (S.h₃ 0 t0 o.xMin x0)
  have hM4 : 0 ≤ M₄ := (abs_nonneg _).trans (S.h₄ 0 t0 o.xMin x0)
  have hη : 0 ≤ η := (abs_nonneg _).trans (hlo 0 t0 0 t0 (by simpa using hdt.le))
  have succ : ∀ t : ℕ, ((t + 1 : ℕ) : ℝ) * o.dt = t * o.dt + o.dt := fun t => by push_cast; ring
  have mix : ∀ (b : ℝ → ℝ) (x : ℝ), (∀ τ ∈ Set.Icc 0 o.T, ∀ τ' ∈ Set.Icc 0 o.T, |τ - τ'| ≤ o.dt →
      |b τ - w τ' x| ≤ η) → ∀ t < o.timeSteps, |b ((t + 1 : ℕ) * o.dt) -
        (s.theta * w ((t + 1 : ℕ) * o.dt) x + (1 - s.theta) * w (t * o.dt) x)| ≤ η := by
    intro b x hb t ht
    have a1 := hb _ (time_mem o h (t + 1) (by omega)) _ (time_mem o h (t + 1) (by omega)) (by simpa using hdt.le)
    have a2 := hb _ (time_mem o h (t + 1) (by omega)) _ (time_mem o h t (by omega))
      (by rw [succ, add_sub_cancel_left, abs_of_pos hdt])
    rw [abs_le] at *
    constructor
    · nlinarith [mul_le_mul_of_nonneg_left a1.1 hθ, mul_le_mul_of_nonneg_left a2.1 (sub_nonneg.mpr hθ1)]
    · nlinarith [mul_le_mul_of_nonneg_left a1.2 hθ, mul_le_mul_of_nonneg_left a2.2 (sub_nonneg.mpr hθ1)]
  have hm : (o.timeSteps : ℝ) * o.dt = o.T := by
    rw [dt]; have : (o.timeSteps:ℝ) ≠ 0 := by exact_mod_cast h.m.ne'
    field_simp
  obtain ⟨p, hp, hb⟩ := C82_discrete_error o h h3 s hE hdrift htime
    (fun t k => w (t * o.dt) (o.xMin + k * o.dx)) ε₀ η
    (κ + o.dx ^ 2 * (o.volatility ^ 2 * M₄ / 24 + |o.riskFreeRate - o.volatility ^ 2 / 2| * M₃ / 6)) y Λ
    (by positivity) hη hy hy1 hΛ hgrow
    (fun k _ hk => by simpa using h0 _ (grid_mem o h k hk.le))
    (fun t ht => by simpa using mix o.lowerEdge o.xMin hlo t ht)
    (fun t ht => by simpa [xMax_eq o h] using mix o.upperEdge o.xMax hhi t ht)
    (fun t ht j hj => by
      have mx := grid_mem o h (j + 1) (by omega)
      have A := hstep t ht _ mx
      have B1 := C82_consistent o h w M₂ M₃ M₄ S _ (time_mem o h (t + 1) (by omega)) j hj
      have B2 := C82_consistent o h w M₂ M₃ M₄ S _ (time_mem o h t (by omega)) j hj
      rw [← succ] at A
      set C := o.dx ^ 2 * (o.volatility ^ 2 * M₄ / 24 + |o.riskFreeRate - o.volatility ^ 2 / 2| * M₃ / 6)
      set g1 := o.generator (fun k => w ((t + 1 : ℕ) * o.dt) (o.xMin + k * o.dx)) j
      set g0 := o.generator (fun k => w (t * o.dt) (o.xMin + k * o.dx)) j
      set d1 := S.wt ((t + 1 : ℕ) * o.dt) (o.xMin + (j + 1 : ℕ) * o.dx)
      set d0 := S.wt (t * o.dt) (o.xMin + (j + 1 : ℕ) * o.dx)
      set W1 := w ((t + 1 : ℕ) * o.dt) (o.xMin + (j + 1 : ℕ) * o.dx)
      set W0 := w (t * o.dt) (o.xMin + (j + 1 : ℕ) * o.dx)
      have A' : |(W1 - W0) / o.dt - (s.theta * d1 + (1 - s.theta) * d0)| ≤ κ := by
        have : (W1 - W0) / o.dt - (s.theta * d1 + (1 - s.theta) * d0) =
            (W1 - W0 - o.dt * (s.theta * d1 + (1 - s.theta) * d0)) / o.dt := by field_simp
        rw [this, abs_div, abs_of_pos hdt, div_le_iff₀ hdt]
        exact A.trans (le_of_eq (mul_comm _ _))
      rw [abs_le] at *
      constructor
      · nlinarith [A'.1, mul_le_mul_of_nonneg_left B1.2 hθ, mul_le_mul_of_nonneg_left B2.2 (sub_nonneg.mpr hθ1)]
      · nlinarith [A'.2, mul_le_mul_of_nonneg_left B1.1 hθ, mul_le_mul_of_nonneg_left B2.1 (sub_nonneg.mpr hθ1)])
  refine ⟨p, hp, ?_⟩
  simp only [hm] at hb
  rwa [atSpot_grid o h (w o.T)] at hb

/-- Error of the three methods for European options, in the units of the inputs. Let `w` solve the Black-Scholes
equation on the grid's range, differ from the payoff at expiry by at most `ε₀` and from the values the code puts at the
two ends by at most `η`. If the grid is stable, the price differs from the discounted value of `w` at the spot price by
at most the discounted sum of `ε₀`, `2 η` and the truncation error, which is of first order in the time step and of
second order in the grid width. -/
theorem C82_error (o : FdPricer) (h : o.Ok) (h3 : 3 ≤ o.priceSteps) (s : Scheme)
    (hE : o.exerciseFlag ≠ .american dateMin dateMax)
    (hdrift : 10 * |o.riskFreeRate - o.volatility ^ 2 / 2| * √o.T ≤ o.volatility * o.priceSteps)
    (htime : (1 - s.theta) * (o.priceSteps : ℝ) ^ 2 ≤ 100 * o.timeSteps)
    (w : ℝ → ℝ → ℝ) (M₂ M₃ M₄ : ℝ) (S : Solution o w M₂ M₃ M₄) (ε₀ η : ℝ)
    (h0 : ∀ x ∈ Set.Icc o.xMin o.xMax, |o.payoff (exp x) - w 0 x| ≤ ε₀)
    (hlo : ∀ τ ∈ Set.Icc 0 o.T, ∀ τ' ∈ Set.Icc 0 o.T, |τ - τ'| ≤ o.dt → |o.lowerEdge τ - w τ' o.xMin| ≤ η)
    (hhi : ∀ τ ∈ Set.Icc 0 o.T, ∀ τ' ∈ Set.Icc 0 o.T, |τ - τ'| ≤ o.dt → |o.upperEdge τ - w τ' o.xMax| ≤ η) :
    ∃ p, s.price o = some p ∧ |p - exp (-o.riskFreeRate * o.T) * o.spotValue (w o.T)| ≤
      exp (-o.riskFreeRate * o.T) * (ε₀ + o.T * (o.dt * M₂ / 2 + o.dx ^ 2 * (o.volatility ^ 2 * M₄ / 24 +
        |o.riskFreeRate - o.volatility ^ 2 / 2| * M₃ / 6)) + 2 * η) := by
  have hdt := h.dt_pos
  obtain ⟨hθ, hθ1⟩ := s.theta_mem
  have t0 : (0:ℝ) ∈ Set.Icc 0 o.T := ⟨le_rfl, h.T.le⟩
  have x0 : o.xMin ∈ Set.Icc o.xMin o.xMax := by simpa using grid_mem o h 0 (by omega)
  have hM2 : 0 ≤ M₂ := (abs_nonneg _).trans (S.h₂ 0 t0 o.xMin x0)
  obtain ⟨p, hp, hb⟩ := error_of_time o h h3 s hE hdrift htime w M₂ M₃ M₄ S ε₀ η 1 1 (o.dt * M₂ / 2) (by positivity)
    one_pos le_rfl le_rfl (by rintro e _; norm_num) h0 hlo hhi (fun t ht x hx => by
      have m0 := time_mem o h t ht.le
      have m1 := time_mem o h (t + 1) ht
      have sub : ∀ y ∈ Set.Icc ((t : ℝ) * o.dt) (t * o.dt + o.dt), y ∈ Set.Icc 0 o.T := fun y hy =>
        ⟨m0.1.trans hy.1, hy.2.trans (by have := m1.2; push_cast at this; linarith)⟩
      have := time_difference hdt.le hθ hθ1 (fun y hy => S.hwt y (sub y hy) x hx)
        (fun y hy => S.hwtt y (sub y hy) x hx) (fun y hy => S.h₂ y (sub y hy) x hx)
      refine this.trans (le_of_eq ?_)
      ring)
  refine ⟨p, hp, hb.trans (le_of_eq ?_)⟩
  simp

/-- The Crank-Nicolson method is of second order in the time step too, when the third derivative in time is bounded. -/
theorem C82_crank_nicolson (o : FdPricer) (h : o.Ok) (h3 : 3 ≤ o.priceSteps)
    (hE : o.exerciseFlag ≠ .american dateMin dateMax)
    (hdrift : 10 * |o.riskFreeRate - o.volatility ^ 2 / 2| * √o.T ≤ o.volatility * o.priceSteps)
    (htime : (o.priceSteps : ℝ) ^ 2 ≤ 200 * o.timeSteps)
    (w : ℝ → ℝ → ℝ) (M₂ M₃ M₄ M₅ : ℝ) (S : Solution o w M₂ M₃ M₄) (wttt : ℝ → ℝ → ℝ)
    (h₅ : ∀ τ ∈ Set.Icc 0 o.T, ∀ x ∈ Set.Icc o.xMin o.xMax,
      HasDerivAt (fun τ => S.wtt τ x) (wttt τ x) τ ∧ |wttt τ x| ≤ M₅) (ε₀ η : ℝ)
    (h0 : ∀ x ∈ Set.Icc o.xMin o.xMax, |o.payoff (exp x) - w 0 x| ≤ ε₀)
    (hlo : ∀ τ ∈ Set.Icc 0 o.T, ∀ τ' ∈ Set.Icc 0 o.T, |τ - τ'| ≤ o.dt → |o.lowerEdge τ - w τ' o.xMin| ≤ η)
    (hhi : ∀ τ ∈ Set.Icc 0 o.T, ∀ τ' ∈ Set.Icc 0 o.T, |τ - τ'| ≤ o.dt → |o.upperEdge τ - w τ' o.xMax| ≤ η) :
    ∃ p, o.crankNicolson = some p ∧ |p - exp (-o.riskFreeRate * o.T) * o.spotValue (w o.T)| ≤
      exp (-o.riskFreeRate * o.T) * (ε₀ + o.T * (o.dt ^ 2 * M₅ / 12 + o.dx ^ 2 * (o.volatility ^ 2 * M₄ / 24 +
        |o.riskFreeRate - o.volatility ^ 2 / 2| * M₃ / 6)) + 2 * η) := by
  have hdt := h.dt_pos
  have t0 : (0:ℝ) ∈ Set.Icc 0 o.T := ⟨le_rfl, h.T.le⟩
  have x0 : o.xMin ∈ Set.Icc o.xMin o.xMax := by simpa using grid_mem o h 0 (by omega)
  have hM5 : 0 ≤ M₅ := (abs_nonneg _).trans (h₅ 0 t0 o.xMin x0).2
  obtain ⟨p, hp, hb⟩ := error_of_time o h h3 .crankNicolson hE hdrift (by simp only [Scheme.theta]; linarith)
    w M₂ M₃ M₄ S ε₀ η 1 1 (o.dt ^ 2 * M₅ / 12) (by positivity)
    one_pos le_rfl le_rfl (by rintro e _; norm_num) h0 hlo hhi (fun t ht x hx => by
      have m0 := time_mem o h t ht.le
      have m1 := time_mem o h (t + 1) ht
      have sub : ∀ y ∈ Set.Icc ((t : ℝ) * o.dt) (t * o.dt + o.dt), y ∈ Set.Icc 0 o.T := fun y hy =>
        ⟨m0.1.trans hy.1, hy.2.trans (by have := m1.2; push_cast at this; linarith)⟩
      have := trapezoid_difference hdt.le (fun y hy => S.hwt y (sub y hy) x hx)
        (fun y hy => S.hwtt y (sub y hy) x hx) (fun y hy => (h₅ y (sub y hy) x hx).1)
        (fun y hy => (h₅ y (sub y hy) x hx).2)
      refine this.trans (le_of_eq ?_)
      ring)
  refine ⟨p, hp, hb.trans (le_of_eq ?_)⟩
  simp

theorem sinh_le_mul_cosh {u : ℝ} (hu : 0 ≤ u) : sinh u ≤ u * cosh u := by
  have := abs_le_of_deriv (f := sinh) (f' := cosh) (h := u) (C := cosh u) 0 Real.sinh_zero
    (fun s _ => Real.hasDerivAt_sinh s) (fun s hs => by
      rw [pow_zero, mul_one, abs_of_pos (Real.cosh_pos s), Real.cosh_le_cosh, abs_of_nonneg hs.1, abs_of_nonneg hu]
      exact hs.2) u ⟨hu, le_rfl⟩
  norm_num at this
  have := le_abs_self (sinh u)
  linarith

theorem cosh_sub_one_le (u : ℝ) : cosh u - 1 ≤ u ^ 2 / 2 * cosh u := by
  have hs := Real.sinh_sq u
  have h1 := Real.one_le_cosh u
  have h2 := Real.cosh_sq (u / 2)
  have h3 : cosh u = 1 + 2 * sinh (u / 2) ^ 2 := by
    have := Real.cosh_two_mul (u / 2)
    rw [show 2 * (u / 2) = u by ring] at this
    rw [this, h2]; ring
  have h4 : sinh (u / 2) ^ 2 ≤ (u / 2) ^ 2 * cosh (u / 2) ^ 2 := by
    have : |sinh (u / 2)| ≤ |u / 2| * cosh (u / 2) := by
      rcases le_total 0 (u / 2) with hu | hu
      · rw [abs_of_nonneg (Real.sinh_nonneg_iff.mpr hu), abs_of_nonneg hu]; exact sinh_le_mul_cosh hu
      · rw [abs_of_nonpos (Real.sinh_nonpos_iff.mpr hu), abs_of_nonpos hu, ← Real.sinh_neg, ← Real.cosh_neg (u / 2)]
        exact sinh_le_mul_cosh (by linarith)
    rw [← sq_abs (sinh (u / 2)), ← sq_abs (u / 2), ← mul_pow]
    exact pow_le_pow_left₀ (abs_nonneg _) this 2
  have h5 : cosh (u / 2) ^ 2 ≤ cosh u := by rw [h3, h2]; nlinarith [sq_nonneg (sinh (u / 2))]
  nlinarith [mul_le_mul_of_nonneg_left h5 (sq_nonneg (u / 2))]

/-- How little the two ends of the grid matter, for the three methods: a wrong value `η` at the ends enters the price
multiplied by `2 exp(Q / (1 - θ Q / time_steps)) exp(-10 a / price_steps) ^ (price_steps / 2)`, for every `a ≥ 0`. -/
theorem ends_damped_scheme (o : FdPricer) (h : o.Ok) (h3 : 3 ≤ o.priceSteps) (s : Scheme)
    (hE : o.exerciseFlag ≠ .american dateMin dateMax)
    (hdrift : 10 * |o.riskFreeRate - o.volatility ^ 2 / 2| * √o.T ≤ o.volatility * o.priceSteps)
    (htime : (1 - s.theta) * (o.priceSteps : ℝ) ^ 2 ≤ 100 * o.timeSteps)
    (w : ℝ → ℝ → ℝ) (M₂ M₃ M₄ : ℝ) (S : Solution o w M₂ M₃ M₄) (ε₀ η a Q : ℝ) (ha : 0 ≤ a)
    (hQ : Q = (a ^ 2 / 2 + a * |o.riskFreeRate - o.volatility ^ 2 / 2| * √o.T / o.volatility) *
      cosh (10 * a / o.priceSteps)) (hθQ : s.theta * Q < o.timeSteps)
    (h0 : ∀ x ∈ Set.Icc o.xMin o.xMax, |o.payoff (exp x) - w 0 x| ≤ ε₀)
    (hlo : ∀ τ ∈ Set.Icc 0 o.T, ∀ τ' ∈ Set.Icc 0 o.T, |τ - τ'| ≤ o.dt → |o.lowerEdge τ - w τ' o.xMin| ≤ η)
    (hhi : ∀ τ ∈ Set.Icc 0 o.T, ∀ τ' ∈ Set.Icc 0 o.T, |τ - τ'| ≤ o.dt → |o.upperEdge τ - w τ' o.xMax| ≤ η) :
    ∃ p, s.price o = some p ∧ |p - exp (-o.riskFreeRate * o.T) * o.spotValue (w o.T)| ≤
      exp (-o.riskFreeRate * o.T) * (ε₀ + o.T * (o.dt * M₂ / 2 + o.dx ^ 2 * (o.volatility ^ 2 * M₄ / 24 +
        |o.riskFreeRate - o.volatility ^ 2 / 2| * M₃ / 6)) + 2 * η *
          exp (Q / (1 - s.theta * (Q / o.timeSteps))) * exp (-(10 * a / o.priceSteps)) ^ (o.priceSteps / 2)) := by
  have hdt := h.dt_pos
  have hdx := h.dx_pos
  have hT := h.T
  have hv := h.v
  have hs : 0 < √o.T := by positivity
  have h2 : √o.T ^ 2 = o.T := Real.sq_sqrt hT.le
  have hm' : (0:ℝ) < o.timeSteps := by exact_mod_cast h.m
  have hn' : (0:ℝ) < o.priceSteps := by exact_mod_cast h.n
  have t0 : (0:ℝ) ∈ Set.Icc 0 o.T := ⟨le_rfl, h.T.le⟩
  have x0 : o.xMin ∈ Set.Icc o.xMin o.xMax := by simpa using grid_mem o h 0 (by omega)
  have hM2 : 0 ≤ M₂ := (abs_nonneg _).trans (S.h₂ 0 t0 o.xMin x0)
  have hη : 0 ≤ η := (abs_nonneg _).trans (hlo 0 t0 0 t0 (by simpa using hdt.le))
  set u := 10 * a / o.priceSteps with hu
  have hu0 : 0 ≤ u := by positivity
  set b := |o.riskFreeRate - o.volatility ^ 2 / 2| with hb
  have hc := Real.cosh_pos u
  have hQ0 : 0 ≤ Q := by rw [hQ]; positivity
  have hdxu : o.dx * a = u * (o.volatility * √o.T) := by rw [Ok.dx_eq, hu]; field_simp
  have hyi : 1 / exp (-u) = exp u := by rw [one_div, ← exp_neg, neg_neg]
  have hcs : exp u + exp (-u) = 2 * cosh u := by rw [Real.cosh_eq]; ring
  have hss : exp u - exp (-u) = 2 * sinh u := by rw [Real.sinh_eq]; ring
  have hrate : o.dt * (o.volatility ^ 2 / 2 * (u ^ 2 * cosh u / o.dx ^ 2) + b * (u * cosh u / o.dx)) =
      Q / o.timeSteps := by
    have e1 : u = o.dx * a / (o.volatility * √o.T) := by rw [hdxu]; field_simp
    have e2 : u ^ 2 = o.dx ^ 2 * (a ^ 2 / (o.volatility ^ 2 * o.T)) := by rw [e1, div_pow, mul_pow, mul_pow, h2]; ring
    have e3 : u * cosh u / o.dx = a / (o.volatility * √o.T) * cosh u := by
      rw [div_eq_iff hdx.ne']
      nth_rw 1 [e1]
      ring
    rw [e2, e3, hQ, dt]
    have hTT : o.T = √o.T * √o.T := by rw [← sq, h2]
    have e4 : b * (a / (o.volatility * √o.T) * cosh u) * o.T = a * b * √o.T / o.volatility * cosh u := by
      nth_rw 2 [hTT]
      field_simp
    have e5 : o.volatility ^ 2 / 2 * (o.dx ^ 2 * (a ^ 2 / (o.volatility ^ 2 * o.T)) * cosh u / o.dx ^ 2) * o.T =
        a ^ 2 / 2 * cosh u := by
      field_simp
    rw [div_mul_eq_mul_div, mul_add, mul_comm o.T, e5, mul_comm o.T, e4]
    ring
  obtain ⟨hθ, hθ1⟩ := s.theta_mem
  set q := Q / o.timeSteps with hq
  have hq0 : 0 ≤ q := by positivity
  have hθq : 0 < 1 - s.theta * q := by
    rw [hq, ← mul_div_assoc, sub_pos, div_lt_one hm']
    exact hθQ
  have hmix : s.theta * (1 + q / (1 - s.theta * q)) + (1 - s.theta) = 1 / (1 - s.theta * q) := by
    field_simp
    ring
  obtain ⟨p, hp, hbd⟩ := error_of_time o h h3 s hE hdrift htime
    w M₂ M₃ M₄ S ε₀ η (exp (-u)) (1 + q / (1 - s.theta * q)) (o.dt * M₂ / 2) (by positivity)
    (exp_pos _) (exp_le_one_iff.mpr (by linarith)) (by have : 0 ≤ q / (1 - s.theta * q) := by positivity
                                                       linarith)
    (by
      intro e hee
      rw [hmix, add_sub_cancel_left, div_mul_eq_mul_div, one_mul]
      refine div_le_div_of_nonneg_right ?_ hθq.le
      rw [← hrate]
      refine mul_le_mul_of_nonneg_left (add_le_add ?_ ?_) hdt.le
      · refine mul_le_mul_of_nonneg_left (div_le_div_of_nonneg_right ?_ (by positivity)) (by positivity)
        rw [hyi]
        have := cosh_sub_one_le u
        linarith
      · rw [hyi, hss]
        have hsu : 0 ≤ sinh u := Real.sinh_nonneg_iff.mpr hu0
        have i1 : e * (o.riskFreeRate - o.volatility ^ 2 / 2) ≤ b := by
          rcases hee with rfl | rfl
          · rw [one_mul]; exact le_abs_self _
          · rw [neg_one_mul]; exact neg_le_abs _
        calc e * (o.riskFreeRate - o.volatility ^ 2 / 2) * (2 * sinh u / (2 * o.dx))
            ≤ b * (2 * sinh u / (2 * o.dx)) := mul_le_mul_of_nonneg_right i1 (by positivity)
          _ ≤ b * (u * cosh u / o.dx) := by
            refine mul_le_mul_of_nonneg_left ?_ (abs_nonneg _)
            rw [mul_div_mul_left _ _ two_ne_zero]
            exact div_le_div_of_nonneg_right (sinh_le_mul_cosh hu0) hdx.le)
    h0 hlo hhi (fun t ht x hx => by
      have m0 := time_mem o h t ht.le
      have m1 := time_mem o h (t + 1) ht
      have sub : ∀ y ∈ Set.Icc ((t : ℝ) * o.dt) (t * o.dt + o.dt), y ∈ Set.Icc 0 o.T := fun y hy =>
        ⟨m0.1.trans hy.1, hy.2.trans (by have := m1.2; push_cast at this; linarith)⟩
      have := time_difference hdt.le hθ hθ1
        (fun y hy => S.hwt y (sub y hy) x hx)
        (fun y hy => S.hwtt y (sub y hy) x hx) (fun y hy => S.h₂ y (sub y hy) x hx)
      refine this.trans (le_of_eq ?_)
      ring)
  refine ⟨p, hp, ?_⟩
  refine hbd.trans (mul_le_mul_of_nonneg_left (add_le_add le_rfl ?_) (exp_pos _).le)
  have hL : (1 + q / (1 - s.theta * q)) ^ o.timeSteps ≤ exp (Q / (1 - s.theta * q)) := by
    have := pow_le_pow_left₀ (by positivity) (add_one_le_exp (q / (1 - s.theta * q))) o.timeSteps
    have e : (o.timeSteps : ℝ) * (q / (1 - s.theta * q)) = Q / (1 - s.theta * q) := by
      rw [mul_div_assoc', show (o.timeSteps : ℝ) * q = Q by rw [hq]; field_simp]
    rw [← exp_nat_mul, e] at this
    rwa [add_comm] at this
  exact mul_le_mul_of_nonneg_right (mul_le_mul_of_nonneg_left hL (by positivity)) (by positivity)

/-- How little the two ends of the grid matter: for the explicit method on an even number of price steps, a wrong value
`η` at the ends enters the price multiplied by `2 exp(Q - 5a)`, for every `a ≥ 0`, where `Q` is about `a²/2` on a fine
grid. (With `a = 4`, no drift and 400 price steps this is about `2 e^(-12)`.) -/
theorem C82_ends_damped (o : FdPricer) (h : o.Ok) (h3 : 3 ≤ o.priceSteps) (he : o.priceSteps % 2 = 0)
    (hE : o.exerciseFlag ≠ .american dateMin dateMax)
    (hdrift : 10 * |o.riskFreeRate - o.volatility ^ 2 / 2| * √o.T ≤ o.volatility * o.priceSteps)
    (htime : (o.priceSteps : ℝ) ^ 2 ≤ 100 * o.timeSteps)
    (w : ℝ → ℝ → ℝ) (M₂ M₃ M₄ : ℝ) (S : Solution o w M₂ M₃ M₄) (ε₀ η a : ℝ) (ha : 0 ≤ a)
    (h0 : ∀ x ∈ Set.Icc o.xMin o.xMax, |o.payoff (exp x) - w 0 x| ≤ ε₀)
    (hlo : ∀ τ ∈ Set.Icc 0 o.T, ∀ τ' ∈ Set.Icc 0 o.T, |τ - τ'| ≤ o.dt → |o.lowerEdge τ - w τ' o.xMin| ≤ η)
    (hhi : ∀ τ ∈ Set.Icc 0 o.T, ∀ τ' ∈ Set.Icc 0 o.T, |τ - τ'| ≤ o.dt → |o.upperEdge τ - w τ' o.xMax| ≤ η) :
    ∃ p, o.explicit = some p ∧ |p - exp (-o.riskFreeRate * o.T) * w o.T (log o.initialPrice)| ≤
      exp (-o.riskFreeRate * o.T) * (ε₀ + o.T * (o.dt * M₂ / 2 + o.dx ^ 2 * (o.volatility ^ 2 * M₄ / 24 +
        |o.riskFreeRate - o.volatility ^ 2 / 2| * M₃ / 6)) + 2 * η *
          exp ((a ^ 2 / 2 + a * |o.riskFreeRate - o.volatility ^ 2 / 2| * √o.T / o.volatility) *
            cosh (10 * a / o.priceSteps) - 5 * a)) := by
  have hm' : (0:ℝ) < o.timeSteps := by exact_mod_cast h.m
  have hn' : (0:ℝ) < o.priceSteps := by exact_mod_cast h.n
  obtain ⟨p, hp, hbd⟩ := ends_damped_scheme o h h3 .explicit hE hdrift (by simp only [Scheme.theta]; linarith)
    w M₂ M₃ M₄ S ε₀ η a _ ha rfl (by simpa [Scheme.theta] using hm') h0 hlo hhi
  refine ⟨p, hp, ?_⟩
  rw [spotValue, if_pos he] at hbd
  refine hbd.trans (le_of_eq ?_)
  have hy5 : exp (-(10 * a / o.priceSteps)) ^ (o.priceSteps / 2) = exp (-(5 * a)) := by
    rw [← exp_nat_mul]
    congr 1
    have : ((o.priceSteps / 2 : ℕ) : ℝ) = o.priceSteps / 2 := by
      have : (2 * (o.priceSteps / 2 : ℕ) : ℝ) = o.priceSteps := by exact_mod_cast (by omega)
      linarith
    rw [this]
    field_simp
    ring
  rw [hy5]
  simp only [Scheme.theta, zero_mul, sub_zero, div_one]
  rw [mul_assoc (2 * η), ← exp_add, ← sub_eq_add_neg]

/-! ### Concrete cases -/

/-- The forward contract `e^(x + rτ) - K` solves the equation, on every grid. -/
noncomputable def forwardSolution (o : FdPricer) (h : o.Ok) : Solution o
    (fun τ x => exp (x + o.riskFreeRate * τ) - o.strikePrice)
    (o.riskFreeRate ^ 2 * exp (o.xMax + o.riskFreeRate * o.T)) (exp (o.xMax + o.riskFreeRate * o.T))
    (exp (o.xMax + o.riskFreeRate * o.T)) where
  wt τ x := o.riskFreeRate * exp (x + o.riskFreeRate * τ)
  wtt τ x := o.riskFreeRate ^ 2 * exp (x + o.riskFreeRate * τ)
  wx τ x := exp (x + o.riskFreeRate * τ)
  wxx τ x := exp (x + o.riskFreeRate * τ)
  wxxx τ x := exp (x + o.riskFreeRate * τ)
  wxxxx τ x := exp (x + o.riskFreeRate * τ)
  hwt τ _ x _ := ((((hasDerivAt_id τ).const_mul o.riskFreeRate).const_add x).exp.sub_const _).congr_deriv
    (by simp; ring)
  hwtt τ _ x _ := ((((hasDerivAt_id τ).const_mul o.riskFreeRate).const_add x).exp.const_mul _).congr_deriv
    (by simp; ring)
  hwx τ _ x _ := (((hasDerivAt_id x).add_const _).exp.sub_const _).congr_deriv (by simp)
  hwxx τ _ x _ := ((hasDerivAt_id x).add_const _).exp.congr_deriv (by simp)
  hwxxx τ _ x _ := ((hasDerivAt_id x).add_const _).exp.congr_deriv (by simp)
  hwxxxx τ _ x _ := ((hasDerivAt_id x).add_const _).exp.congr_deriv (by simp)
  pde τ _ x _ := by ring
  h₂ τ hτ x hx := by
    rw [abs_mul, abs_of_pos (exp_pos _), abs_of_nonneg (sq_nonneg _)]
    refine mul_le_mul_of_nonneg_left (exp_le_exp.mpr (add_le_add hx.2 ?_)) (sq_nonneg _)
    exact mul_le_mul_of_nonneg_left hτ.2 h.r.le
  h₃ τ hτ x hx := by
    rw [abs_of_pos (exp_pos _)]
    exact exp_le_exp.mpr (add_le_add hx.2 (mul_le_mul_of_nonneg_left hτ.2 h.r.le))
  h₄ τ hτ x hx := by
    rw [abs_of_pos (exp_pos _)]
    exact exp_le_exp.mpr (add_le_add hx.2 (mul_le_mul_of_nonneg_left hτ.2 h.r.le))

/-- How far the payoff and the values at the ends are from the forward contract when the strike lies below the grid. -/
theorem forward_ends (o : FdPricer) (h : o.Ok) (h3 : 3 ≤ o.priceSteps) (hf : o.typeFlag = .call)
    (hK : o.strikePrice ≤ exp o.xMin) :
    (∀ x ∈ Set.Icc o.xMin o.xMax, |o.payoff (exp x) - (exp (x + o.riskFreeRate * 0) - o.strikePrice)| ≤ 0) ∧
    (∀ τ ∈ Set.Icc 0 o.T, ∀ τ' ∈ Set.Icc 0 o.T, |τ - τ'| ≤ o.dt →
      |o.lowerEdge τ - (exp (o.xMin + o.riskFreeRate * τ') - o.strikePrice)| ≤
        exp (o.xMax + o.riskFreeRate * o.T) - o.strikePrice) ∧
    ∀ τ ∈ Set.Icc 0 o.T, ∀ τ' ∈ Set.Icc 0 o.T, |τ - τ'| ≤ o.dt →
      |o.upperEdge τ - (exp (o.xMax + o.riskFreeRate * τ') - o.strikePrice)| ≤
        exp (o.xMax + o.riskFreeRate * o.T) - o.strikePrice := by
  have hr := h.r
  have hmm : o.xMin ≤ o.xMax := by
    have := grid_mem o h 0 (by omega)
    exact this.1.trans this.2
  have hmm' := exp_le_exp.mpr hmm
  have hq : ∀ τ ∈ Set.Icc 0 o.T, 1 ≤ exp (o.riskFreeRate * τ) ∧ exp (o.riskFreeRate * τ) ≤ exp (o.riskFreeRate * o.T) ∧
      exp (-o.riskFreeRate * τ) ≤ 1 ∧ 2 - exp (o.riskFreeRate * o.T) ≤ exp (-o.riskFreeRate * τ) := by
    intro τ hτ
    have a0 : 0 ≤ o.riskFreeRate * τ := mul_nonneg hr.le hτ.1
    have a1 : o.riskFreeRate * τ ≤ o.riskFreeRate * o.T := mul_le_mul_of_nonneg_left hτ.2 hr.le
    refine ⟨one_le_exp a0, exp_le_exp.mpr a1, exp_le_one_iff.mpr (by linarith), ?_⟩
    have e1 := add_one_le_exp (o.riskFreeRate * o.T)
    have e2 := add_one_le_exp (-o.riskFreeRate * τ)
    linarith
  refine ⟨?_, ?_, ?_⟩
  · exact fun x hx => by
      have : exp o.xMin ≤ exp x := exp_le_exp.mpr hx.1
      simp only [payoff, hf, mul_zero, add_zero]
      rw [max_eq_left (by linarith), sub_self, abs_zero]
  · exact fun τ hτ τ' hτ' _ => by
      obtain ⟨q1, q2, q3, q4⟩ := hq τ' hτ'
      simp only [lowerEdge, hf, zero_sub, abs_neg]
      rw [exp_add, exp_add]
      have hp1 := exp_pos o.xMin
      have hp2 := exp_pos o.xMax
      rw [abs_of_nonneg (by nlinarith)]
      have := mul_le_mul hmm' q2 (by linarith) hp2.le
      linarith
  · exact fun τ hτ τ' hτ' _ => by
      obtain ⟨q1, q2, q3, q4⟩ := hq τ' hτ'
      obtain ⟨r1, r2, r3, r4⟩ := hq τ hτ
      simp only [upperEdge, hf]
      rw [exp_add, exp_add]
      have hp2 := exp_pos o.xMax
      have hKp := h.K
      have hKM : o.strikePrice ≤ exp o.xMax := hK.trans hmm'
      have g1 := mul_le_mul_of_nonneg_left q2 hp2.le
      have g2 := mul_le_mul_of_nonneg_left q1 hp2.le
      have g3 := mul_le_mul_of_nonneg_left r3 hKp.le
      have g4 := mul_le_mul_of_nonneg_left r4 hKp.le
      rw [abs_le]
      constructor
      · linarith
      · nlinarith

/-- A European call whose strike lies below the grid is a forward contract on the grid: the explicit price is that of the
forward, `S - K e^(-rT)`, up to the truncation error and the damped error of the wrong values at the ends. -/
theorem C82_deep_call (o : FdPricer) (h : o.Ok) (h3 : 3 ≤ o.priceSteps) (he : o.priceSteps % 2 = 0)
    (hf : o.typeFlag = .call) (hE : o.exerciseFlag ≠ .american dateMin dateMax) (hK : o.strikePrice ≤ exp o.xMin)
    (hdrift : 10 * |o.riskFreeRate - o.volatility ^ 2 / 2| * √o.T ≤ o.volatility * o.priceSteps)
    (htime : (o.priceSteps : ℝ) ^ 2 ≤ 100 * o.timeSteps) (a : ℝ) (ha : 0 ≤ a) :
    ∃ p, o.explicit = some p ∧ |p - (o.initialPrice - o.strikePrice * exp (-o.riskFreeRate * o.T))| ≤
      exp (-o.riskFreeRate * o.T) * (0 + o.T * (o.dt * (o.riskFreeRate ^ 2 * exp (o.xMax + o.riskFreeRate * o.T)) / 2 +
        o.dx ^ 2 * (o.volatility ^ 2 * exp (o.xMax + o.riskFreeRate * o.T) / 24 +
          |o.riskFreeRate - o.volatility ^ 2 / 2| * exp (o.xMax + o.riskFreeRate * o.T) / 6)) +
        2 * (exp (o.xMax + o.riskFreeRate * o.T) - o.strikePrice) *
          exp ((a ^ 2 / 2 + a * |o.riskFreeRate - o.volatility ^ 2 / 2| * √o.T / o.volatility) *
            cosh (10 * a / o.priceSteps) - 5 * a)) := by
  obtain ⟨e0, el, eh⟩ := forward_ends o h h3 hf hK
  obtain ⟨p, hp, hb⟩ := C82_ends_damped o h h3 he hE hdrift htime _ _ _ _ (forwardSolution o h) 0
    (exp (o.xMax + o.riskFreeRate * o.T) - o.strikePrice) a ha e0 el eh
  refine ⟨p, hp, le_trans (le_of_eq ?_) hb⟩
  congr 2
  rw [exp_add, exp_log h.S]
  have hEE : exp (-o.riskFreeRate * o.T) * exp (o.riskFreeRate * o.T) = 1 := by rw [← exp_add]; simp
  linear_combination (-o.initialPrice) * hEE

/-- The hypotheses are met by a pricer accepted by `new`: a call with strike `e^(-5)` on a grid of four price steps. -/
example : ∃ p, (sample (exp (-5)) .call (.european 0) 4).explicit = some p ∧
    |p - (1 - exp (-5) * exp (-(1 / 2)))| ≤ exp (-(1 / 2)) * (0 + 1 * ((1 : ℝ) * ((1 / 2) ^ 2 * exp (5 + 1 / 2)) / 2 +
      (10 / 4) ^ 2 * (1 ^ 2 * exp (5 + 1 / 2) / 24)) + 2 * (exp (5 + 1 / 2) - exp (-5)) * exp 0) := by
  obtain ⟨p, hp, hb⟩ := C82_deep_call (sample (exp (-5)) .call (.european 0) 4)
    (sample_ok _ (exp_pos _) _ _ _ (by norm_num)) (by simp [sample]) (by simp [sample]) rfl (by simp [sample])
    (by simp [sample, xMin]) (by simp [sample]) (by simp [sample]; norm_num) 0 le_rfl
  refine ⟨p, hp, ?_⟩
  have e1 : (sample (exp (-5)) .call (.european 0) 4).dx = 10 / 4 := by
    rw [Ok.dx_eq]; simp [sample]
  have e2 : (sample (exp (-5)) .call (.european 0) 4).dt = 1 := by simp [dt, sample]
  have e3 : (sample (exp (-5)) .call (.european 0) 4).xMax = 5 := by simp [xMax, sample]
  have e4 : |(sample (exp (-5)) .call (.european 0) 4).riskFreeRate -
      (sample (exp (-5)) .call (.european 0) 4).volatility ^ 2 / 2| = 0 := by simp [sample]
  rw [e1, e2, e3, e4] at hb
  simp only [sample] at hb
  norm_num at hb ⊢
  exact hb

/-- The hypotheses of the other bounds are met by the same pricer and solution. -/
example := C82_scheme _ (sample_ok 1 one_pos .put (.european 0) 4 (by norm_num)) (by simp [sample]) .crankNicolson 1

example := C82_stability _ (sample_ok 1 one_pos .put (.european 0) 4 (by norm_num))

example := C82_consistent _ (sample_ok 1 one_pos .put (.european 0) 4 (by norm_num)) _ _ _ _
  (forwardSolution _ (sample_ok 1 one_pos .put (.european 0) 4 (by norm_num))) (1 / 2) (by norm_num [sample]) 1
  (by norm_num [sample])

example (s : Scheme) :=
  have hok : (sample (exp (-5)) .call (.european 0) 4).Ok := sample_ok _ (exp_pos _) _ _ _ (by norm_num)
  have hends := forward_ends _ hok (by simp [sample]) rfl (by simp [sample, xMin])
  C82_error _ hok (by simp [sample]) s (by simp [sample]) (by simp [sample])
    (by cases s <;> simp [sample, Scheme.theta] <;> norm_num) _ _ _ _ (forwardSolution _ hok) _ _ hends.1 hends.2.1
    hends.2.2

example :=
  have hok : (sample (exp (-5)) .call (.european 0) 4).Ok := sample_ok _ (exp_pos _) _ _ _ (by norm_num)
  have hends := forward_ends _ hok (by simp [sample]) rfl (by simp [sample, xMin])
  C82_crank_nicolson _ hok (by simp [sample]) (by simp [sample]) (by simp [sample]) (by simp [sample]; norm_num) _ _ _ _
    ((1 / 2) ^ 3 * exp (5 + 1 / 2)) (forwardSolution _ hok) (fun τ x => (1 / 2) ^ 3 * exp (x + 1 / 2 * τ))
    (fun τ hτ x hx => by
      refine ⟨((((hasDerivAt_id τ).const_mul (1 / 2 : ℝ)).const_add x).exp.const_mul ((1 / 2 : ℝ) ^ 2)).congr_deriv
        (by simp; ring), ?_⟩
      rw [abs_of_pos (by positivity)]
      refine mul_le_mul_of_nonneg_left (exp_le_exp.2 ?_) (by norm_num)
      have h1 := hx.2
      have h2 := hτ.2
      simp only [sample, xMax] at h1 h2
      norm_num at h1
      linarith) _ _ hends.1 hends.2.1 hends.2.2

end Verif.Options.FdPricer
