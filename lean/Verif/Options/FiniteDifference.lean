import Verif.Options.Payoffs
import Verif.Time.Date
import Mathlib.Analysis.SpecialFunctions.Log.Basic
import Mathlib.Analysis.SpecialFunctions.Exp
import Mathlib.Analysis.Real.Sqrt

/-!
# Model of the finite-difference option pricer

Source: `crates/RustQuant_instruments/src/options/finite_difference_pricer.rs`. `f64` is an exact real, `Vec` a list.
A panic (index out of range, unsigned subtraction below zero, failed assertion) is `none`. The year fraction between
evaluation and expiration date (`year_fraction`, lines 217-222) is the field `T`.
-/

namespace Verif.Options

open Real Verif.Time

/-- `time::Date::MIN` (1 January -9999), as a day number. Written at finite_difference_pricer.rs 279, 317 and 361. -/
def dateMin : ℤ := (Date.mk (-9999) 1 1 (by decide)).dayNum

/-- `time::Date::MAX` (31 December 9999), as a day number. Written at finite_difference_pricer.rs 280, 318 and 362. -/
def dateMax : ℤ := (Date.mk 9999 12 31 (by decide)).dayNum

/-- finite_difference_pricer.rs 20-44, the two dates replaced by the year fraction `T`. -/
structure FdPricer where
  initialPrice : ℝ
  strikePrice : ℝ
  riskFreeRate : ℝ
  volatility : ℝ
  T : ℝ
  timeSteps : ℕ
  priceSteps : ℕ
  typeFlag : TypeFlag
  exerciseFlag : ExerciseFlag

namespace FdPricer

open Classical in
/-- `new` (finite_difference_pricer.rs 53-84): six assertions. -/
noncomputable def new (initialPrice strikePrice riskFreeRate volatility T : ℝ) (timeSteps priceSteps : ℕ)
    (typeFlag : TypeFlag) (exerciseFlag : ExerciseFlag) : Option FdPricer :=
  if 0 < initialPrice ∧ 0 < strikePrice ∧ 0 < riskFreeRate ∧ 0 < volatility ∧ 0 < timeSteps ∧ 0 < priceSteps then
    some ⟨initialPrice, strikePrice, riskFreeRate, volatility, T, timeSteps, priceSteps, typeFlag, exerciseFlag⟩
  else none

/-- `tridiagonal_matrix_multiply_vector` (finite_difference_pricer.rs 86-104): panics on vectors shorter than 2. -/
def tridiagMul (sub diag sup : ℝ) (v : List ℝ) : Option (List ℝ) :=
  if v.length < 2 then none
  else some ([diag * v.getD 0 0 + sup * v.getD 1 0]
    ++ (List.range' 1 (v.length - 1 - 1)).map (fun (i : ℕ) =>
        sub * v.getD (i - 1) 0 + diag * v.getD i 0 + sup * v.getD (i + 1) 0)
    ++ [sub * v.getD (v.length - 2) 0 + diag * v.getD (v.length - 1) 0])

/-- `general_matrix_multiply_vector` (finite_difference_pricer.rs 106-119). -/
def matMul (A : List (List ℝ)) (v : List ℝ) : List ℝ :=
  A.map fun row => (row.zip v).foldl (fun value ab => value + ab.1 * ab.2) 0

/-- The vector `theta` before the `pop` (finite_difference_pricer.rs 127-136). -/
def thetaVec (sub diag sup : ℝ) (n : ℕ) : List ℝ :=
  (List.range' 2 (n - 2)).foldl
    (fun th i => th ++ [diag * th.getD i 0 - sup * sub * th.getD (i - 1) 0])
    [1, diag, diag * diag - sup * sub]

/-- The vector `phi` before the `pop` (finite_difference_pricer.rs 138-144). -/
def phiVec (sub diag sup : ℝ) (n : ℕ) : List ℝ :=
  (List.range' 1 (n - 1)).foldl
    (fun ph i => ph ++ [diag * ph.getD i 0 - sup * sub * ph.getD (i - 1) 0])
    [1, diag]

/-- One entry of the inverse (finite_difference_pricer.rs 156-176), `theta` and `phi` after `pop` and `reverse`. -/
noncomputable def invEntry (sub diag sup : ℝ) (n : ℕ) (theta phi : List ℝ) (thetaN : ℝ) (i j : ℕ) : ℝ :=
  if i < j then
    (List.range' i (j - i)).foldl (fun value k => value * (if k = n - 1 then diag else sup)) ((-1) ^ (i + j))
      * (theta.getD i 0 * phi.getD j 0 / thetaN)
  else if i = j then (-1) ^ (i + j) * (theta.getD i 0 * phi.getD i 0 / thetaN)
  else
    (List.range' (j + 1) (i - j)).foldl (fun value _ => value * sub) ((-1) ^ (i + j))
      * (theta.getD j 0 * phi.getD i 0 / thetaN)

/-- `invert_tridiagonal_matrix` (finite_difference_pricer.rs 121-183) for the system size `n = price_steps - 1`. -/
noncomputable def invTridiag (sub diag sup : ℝ) (n : ℕ) : List (List ℝ) :=
  let theta := thetaVec sub diag sup n
  let thetaN := theta.getLastD 0
  let phi := (phiVec sub diag sup n).dropLast.reverse
  (List.range n).map fun i => (List.range n).map fun j => invEntry sub diag sup n theta.dropLast phi thetaN i j

/-- `payoff` (finite_difference_pricer.rs 185-190). -/
noncomputable def payoff (o : FdPricer) (s : ℝ) : ℝ :=
  match o.typeFlag with
  | .call => max (s - o.strikePrice) 0
  | .put => max (o.strikePrice - s) 0

/-- `american_time_stop_step` (finite_difference_pricer.rs 192-201). -/
noncomputable def americanStep (o : FdPricer) (v : List ℝ) (tau xMin dx : ℝ) : List ℝ :=
  (List.range' 1 (o.priceSteps - 1)).map fun (i : ℕ) =>
    max (v.getD (i - 1) 0) (exp (o.riskFreeRate * tau) * o.payoff (exp (xMin + i * dx)))

/-- `initial_condition` (finite_difference_pricer.rs 203-207). -/
noncomputable def initialCondition (o : FdPricer) (xMin dx : ℝ) : List ℝ :=
  (List.range' 1 (o.priceSteps - 1)).map fun (i : ℕ) => o.payoff (exp (xMin + i * dx))

/-- `call_boundary` (finite_difference_pricer.rs 209-211). -/
noncomputable def callBoundary (o : FdPricer) (tau xMax : ℝ) : ℝ :=
  exp xMax - o.strikePrice * exp (-o.riskFreeRate * tau)

/-- `put_boundary` (finite_difference_pricer.rs 213-215). -/
noncomputable def putBoundary (o : FdPricer) (tau xMin : ℝ) : ℝ :=
  o.strikePrice * exp (-o.riskFreeRate * tau) - exp xMin

/-- `return_price` (finite_difference_pricer.rs 224-233); out-of-range indices panic. -/
noncomputable def returnPrice (o : FdPricer) (u : List ℝ) : Option ℝ :=
  if o.priceSteps % 2 = 0 then
    if o.priceSteps < 1 then none else u[(o.priceSteps - 1) / 2]?
  else if o.priceSteps < 3 then none
  else u[(o.priceSteps - 1) / 2]?.bind fun a => u[(o.priceSteps - 3) / 2]?.map fun b => (a + b) / 2

/-- `delta_t` of `grid` (finite_difference_pricer.rs 235-243). -/
noncomputable def dt (o : FdPricer) : ℝ := o.T / o.timeSteps

/-- `x_min` of `grid` (finite_difference_pricer.rs 238). -/
noncomputable def xMin (o : FdPricer) : ℝ := log o.initialPrice - 5 * o.volatility * √o.T

/-- The upper end of the grid (finite_difference_pricer.rs 239, 270, 306, 350). -/
noncomputable def xMax (o : FdPricer) : ℝ := log o.initialPrice + 5 * o.volatility * √o.T

/-- `delta_x` of `grid` (finite_difference_pricer.rs 239-240). -/
noncomputable def dx (o : FdPricer) : ℝ := (o.xMax - o.xMin) / o.priceSteps

/-- First of the `coefficients` (finite_difference_pricer.rs 245-250). -/
noncomputable def cx (o : FdPricer) : ℝ := 1 / 2 * o.dt * o.volatility ^ 2 / o.dx ^ 2

/-- Second of the `coefficients` (finite_difference_pricer.rs 245-250). -/
noncomputable def cy (o : FdPricer) : ℝ :=
  o.dt * (o.riskFreeRate - 1 / 2 * o.volatility ^ 2) / (2 * o.dx)

/-- `v[i] += e` / `v[i] -= -e`: panics when out of range.
See finite_difference_pricer.rs 267, 274, 303, 310, 346 and 354. -/
noncomputable def addAt (v : List ℝ) (i : ℕ) (e : ℝ) : Option (List ℝ) :=
  if i < v.length then some (v.set i (v.getD i 0 + e)) else none

/-- The boundary terms of one time step (finite_difference_pricer.rs 265-276, 301-312, 344-357): `lo` and `hi` are
the factors in front of the put and the call boundary. `price_steps - 2` panics below 2. -/
noncomputable def boundary (o : FdPricer) (lo hi : ℝ) (t : ℕ) (v : List ℝ) : Option (List ℝ) :=
  match o.typeFlag with
  | .call => if o.priceSteps < 2 then none
      else addAt v (o.priceSteps - 2) (hi * o.callBoundary (t * o.dt) o.xMax)
  | .put => addAt v 0 (lo * o.putBoundary (t * o.dt) o.xMin)

/-- The early-exercise step (finite_difference_pricer.rs 278-284, 316-322, 360-366): taken only when the flag is
American with exactly the dates `Date::MIN` and `Date::MAX`. -/
noncomputable def exercise (o : FdPricer) (t : ℕ) (v : List ℝ) : List ℝ :=
  if o.exerciseFlag = .american dateMin dateMax then o.americanStep v (t * o.dt) o.xMin o.dx else v

/-- One time step of `explicit` (finite_difference_pricer.rs 262-285). -/
noncomputable def explicitStep (o : FdPricer) (t : ℕ) (v : List ℝ) : Option (List ℝ) :=
  (tridiagMul (o.cx - o.cy) (1 - 2 * o.cx) (o.cx + o.cy) v).bind fun w =>
    (o.boundary (o.cx - o.cy) (o.cx + o.cy) t w).map fun w => o.exercise t w

/-- One time step of `implicit` (finite_difference_pricer.rs 300-323). -/
noncomputable def implicitStep (o : FdPricer) (t : ℕ) (v : List ℝ) : Option (List ℝ) :=
  (o.boundary (-(-o.cx + o.cy)) (-(-o.cx - o.cy)) t v).map fun w =>
    o.exercise t
      (matMul (invTridiag (-o.cx + o.cy) (1 + 2 * o.cx) (-o.cx - o.cy) (o.priceSteps - 1)) w)

/-- One time step of `crank_nicolson` (finite_difference_pricer.rs 341-368). -/
noncomputable def cnStep (o : FdPricer) (t : ℕ) (v : List ℝ) : Option (List ℝ) :=
  (tridiagMul (1 / 2 * (o.cx - o.cy)) (1 - o.cx) (1 / 2 * (o.cx + o.cy)) v).bind fun w =>
    (o.boundary (2 * (1 / 2 * (o.cx - o.cy))) (2 * (1 / 2 * (o.cx + o.cy))) t w).map fun w =>
      o.exercise t
        (matMul (invTridiag (-(1 / 2 * (o.cx - o.cy))) (1 + o.cx) (-(1 / 2 * (o.cx + o.cy)))
          (o.priceSteps - 1)) w)

/-- `for t in 1..(time_steps + 1)` (finite_difference_pricer.rs 262, 300, 341). -/
def loop (step : ℕ → List ℝ → Option (List ℝ)) : ℕ → List ℝ → Option (List ℝ)
  | 0, v => some v
  | m + 1, v => (loop step m v).bind (step (m + 1))

/-- A whole run: initial condition, time loop, discounting (finite_difference_pricer.rs 253-288). -/
noncomputable def run (o : FdPricer) (step : ℕ → List ℝ → Option (List ℝ)) : Option ℝ :=
  (loop step o.timeSteps (o.initialCondition o.xMin o.dx)).bind fun v =>
    (o.returnPrice v).map fun u => exp (-o.riskFreeRate * o.T) * u

/-- `explicit` (finite_difference_pricer.rs 252-290). -/
noncomputable def explicit (o : FdPricer) : Option ℝ := o.run o.explicitStep

/-- `implicit` (finite_difference_pricer.rs 291-326). -/
noncomputable def implicit (o : FdPricer) : Option ℝ := o.run o.implicitStep

/-- `crank_nicolson` (finite_difference_pricer.rs 329-370). -/
noncomputable def crankNicolson (o : FdPricer) : Option ℝ := o.run o.cnStep

end FdPricer

end Verif.Options
