import Verif.Options.Payoffs
import Mathlib.LinearAlgebra.Matrix.NonsingularInverse
import Mathlib.Analysis.SpecialFunctions.Exp
import Mathlib.Analysis.Real.Sqrt

/-!
# Model of the Longstaff-Schwartz pricer

Source: `crates/RustQuant_instruments/src/options/longstaff_schwartz.rs`. `f64` is an exact real. A vector of one entry
for each simulation is a function on `Fin n`, `n` being `num_simulations`; other `Vec`s are lists. The random
generators are parameters. `qr().solve` of a square system is exact: it fails exactly when the matrix is singular.
-/

namespace Verif.Options

open Real Matrix

/-- The generators. `normals s k`: the `k`-th standard normal drawn from `StdRng::seed_from_u64(s)`. `entropy t`: the
`u64` of `rand::random()` where the generator for time step `t` is made (`0` for the end points).
See longstaff_schwartz.rs 166-172 and 199-211. -/
structure LsEnv where
  normals : ℕ → ℕ → ℝ
  entropy : ℕ → ℕ

/-- longstaff_schwartz.rs 9-30, the two dates replaced by the year fraction between them (`year_fraction`, lines
216-221). -/
structure LsPricer where
  initialPrice : ℝ
  strikePrice : ℝ
  riskFreeRate : ℝ
  volatility : ℝ
  T : ℝ
  timeSteps : ℕ
  typeFlag : TypeFlag
  n : ℕ
  seed : Option ℕ

namespace LsPricer

open Classical in
/-- `new` (longstaff_schwartz.rs 35-70): seven assertions. Simplified: the one on the dates (lines 47-50) is `0 < T`, the
`Actual_365_25` factor being the number of days between them over 365.25. -/
noncomputable def new (initialPrice strikePrice riskFreeRate volatility T : ℝ) (timeSteps : ℕ) (typeFlag : TypeFlag)
    (n : ℕ) (seed : Option ℕ) : Option LsPricer :=
  if 0 < T ∧ 0 < initialPrice ∧ 0 < strikePrice ∧ 0 < riskFreeRate ∧ 0 < volatility ∧ 0 < timeSteps ∧ 0 < n then
    some ⟨initialPrice, strikePrice, riskFreeRate, volatility, T, timeSteps, typeFlag, n, seed⟩
  else none

variable (env : LsEnv) (o : LsPricer)

/-- `delta_t` (longstaff_schwartz.rs 75). -/
noncomputable def deltaT : ℝ := o.T / o.timeSteps

/-- `discount` (longstaff_schwartz.rs 161-163). -/
noncomputable def discount : ℝ := exp (-o.riskFreeRate * o.deltaT)

/-- The seed of the generator of a time step (longstaff_schwartz.rs 199-202), and of the end points as step `0` (line
166, where a `u64` seed is used as it is). -/
def seedAt (t : ℕ) : ℕ :=
  match o.seed with
  | some s => (s + t) % 2 ^ 64
  | none => env.entropy t

/-- `generate_end_points` (longstaff_schwartz.rs 165-176). -/
noncomputable def endPoints : Fin o.n → ℝ := fun i =>
  (o.riskFreeRate - 0.5 * o.volatility * o.volatility) * o.T
    + o.volatility * √o.T * env.normals (o.seedAt env 0) i

/-- `backwards_time_induction` (longstaff_schwartz.rs 193-214). -/
noncomputable def stepBack (chain : Fin o.n → ℝ) (t : ℕ) : Fin o.n → ℝ := fun i =>
  let now := (t : ℝ) * o.deltaT
  chain i * now / (now + o.deltaT)
    + o.volatility * √(now * o.deltaT / (now + o.deltaT)) * env.normals (o.seedAt env t) i

/-- `calculate_asset_prices` (longstaff_schwartz.rs 178-184). -/
noncomputable def prices (chain : Fin o.n → ℝ) : Fin o.n → ℝ := fun i => o.initialPrice * exp (chain i)

/-- `calculate_payoff` (longstaff_schwartz.rs 186-191). -/
noncomputable def payoff (s : ℝ) : ℝ :=
  match o.typeFlag with
  | .call => max (s - o.strikePrice) 0
  | .put => max (o.strikePrice - s) 0

open Classical in
/-- The indices returned by `in_the_money_assets` (longstaff_schwartz.rs 223-240). -/
noncomputable def itmIndices (S : Fin o.n → ℝ) : List (Fin o.n) :=
  (List.finRange o.n).filter fun i => 0 < o.payoff (S i)

/-- The numbers returned by `in_the_money_assets` (longstaff_schwartz.rs 223-240): the payoffs, not the prices. -/
noncomputable def itmAssets (S : Fin o.n → ℝ) : List ℝ := (o.itmIndices S).map fun i => o.payoff (S i)

/-- One row of `create_laguerre_matrix` (longstaff_schwartz.rs 145-156). -/
noncomputable def laguerre (x : ℝ) : ℕ → ℝ
  | 0 => 1
  | 1 => 1 - x
  | j + 2 => ((2 * ((j : ℝ) + 1) + 1 - x) * laguerre x (j + 1) - ((j : ℝ) + 1) * laguerre x j) / ((j : ℝ) + 2)

/-- `create_laguerre_matrix` (longstaff_schwartz.rs 142-159). -/
noncomputable def laguerreMatrix (a : List ℝ) : Matrix (Fin a.length) (Fin 5) ℝ :=
  Matrix.of fun i j => laguerre a[i] j

open Classical in
/-- The payoffs kept for the regression, discounted by one step (longstaff_schwartz.rs 90-100, 103-104). -/
noncomputable def itmPayoffs (S values : Fin o.n → ℝ) : List ℝ :=
  ((List.finRange o.n).filterMap fun i => if i ∈ o.itmIndices S then some (values i) else none).map
    fun v => o.discount * v

open Classical in
/-- The regression and `continuation_value` (longstaff_schwartz.rs 102, 105-113); `none` if the system is singular. -/
noncomputable def continuation (a b : List ℝ) : Option (ℕ → ℝ) :=
  let L := laguerreMatrix a
  if (Lᵀ * L).det = 0 then none
  else
    let c := L *ᵥ ((Lᵀ * L)⁻¹ *ᵥ (Lᵀ *ᵥ fun i => b.getD i 0))
    some fun k => if h : k < a.length then c ⟨k, h⟩ else 0

open Classical in
/-- The loop over the simulations (longstaff_schwartz.rs 114-130), `k` being `regression_index + 1`. -/
noncomputable def exerciseLoop (S : Fin o.n → ℝ) (cont : ℕ → ℝ) :
    List (Fin o.n) → ℕ → (Fin o.n → ℝ) → (Fin o.n → ℝ)
  | [], _, values => values
  | i :: l, k, values =>
    if i ∈ o.itmIndices S then
      exerciseLoop S cont l (k + 1) (Function.update values i
        (if o.payoff (S i) > cont k then o.payoff (S i) else o.discount * values i))
    else exerciseLoop S cont l k (Function.update values i (o.discount * values i))

/-- The loop body after the prices are known (longstaff_schwartz.rs 87-137). -/
noncomputable def exerciseStep (S values : Fin o.n → ℝ) : Fin o.n → ℝ :=
  match continuation (o.itmAssets S) (o.itmPayoffs S values) with
  | some cont => o.exerciseLoop S cont (List.finRange o.n) 0 values
  | none => fun i => o.discount * values i

/-- The loop over the time steps `t, t - 1, …, 1` (longstaff_schwartz.rs 84-138). -/
noncomputable def backward : ℕ → (Fin o.n → ℝ) → (Fin o.n → ℝ) → (Fin o.n → ℝ)
  | 0, _, values => values
  | t + 1, chain, values =>
    let chain' := o.stepBack env chain (t + 1)
    backward t chain' (o.exerciseStep (o.prices chain') values)

/-- `generate_price` (longstaff_schwartz.rs 73-140). -/
noncomputable def generatePrice : ℝ :=
  let chain := o.endPoints env
  (∑ i, o.backward env (o.timeSteps - 1) chain (fun i => o.payoff (o.prices chain i)) i) / o.n

end LsPricer

end Verif.Options
