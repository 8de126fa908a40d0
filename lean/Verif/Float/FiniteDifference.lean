import Verif.Float.Extended
import Verif.Options.FiniteDifference

/-!
# The finite-difference pricer on `f64` values, with infinities and NaN

Source: `crates/RustQuant_instruments/src/options/finite_difference_pricer.rs`. `none` is a panic (index out of range). The year
fraction between evaluation and expiration date (lines 217-222) is the field `T`.
-/

namespace Verif.Float.Fd

open Verif.Options (TypeFlag ExerciseFlag dateMin dateMax)

/-- The platform's `f64::exp`, `f64::ln` and `f64::sqrt`: a parameter.
Called at crates/RustQuant_instruments/src/options/finite_difference_pricer.rs 238-239. -/
structure Libm where
  exp : X64 → X64
  ln : X64 → X64
  sqrt : X64 → X64

/-- finite_difference_pricer.rs 20-44, the two dates replaced by the year fraction `T`. -/
structure Pricer where
  initialPrice : X64
  strikePrice : X64
  riskFreeRate : X64
  volatility : X64
  T : X64
  timeSteps : ℕ
  priceSteps : ℕ
  typeFlag : TypeFlag
  exerciseFlag : ExerciseFlag

/-- A constant of the source. The literals of crates/RustQuant_instruments/src/options/finite_difference_pricer.rs. -/
def c (q : ℚ) : X64 := .ofQ q

/-- `tridiagonal_matrix_multiply_vector` (finite_difference_pricer.rs 86-104): panics on vectors shorter than 2. -/
def tridiagMul (sub diag sup : X64) (v : List X64) : Option (List X64) :=
  if v.length < 2 then none
  else some ([(diag.mul (v.getD 0 .nan)).add (sup.mul (v.getD 1 .nan))]
    ++ (List.range' 1 (v.length - 1 - 1)).map (fun (i : ℕ) =>
        ((sub.mul (v.getD (i - 1) .nan)).add (diag.mul (v.getD i .nan))).add (sup.mul (v.getD (i + 1) .nan)))
    ++ [(sub.mul (v.getD (v.length - 2) .nan)).add (diag.mul (v.getD (v.length - 1) .nan))])

/-- `general_matrix_multiply_vector` (finite_difference_pricer.rs 106-119). -/
def matMul (A : List (List X64)) (v : List X64) : List X64 :=
  A.map fun row => (row.zip v).foldl (fun value ab => value.add (ab.1.mul ab.2)) (c 0)

/-- The vector `theta` before the `pop` (finite_difference_pricer.rs 127-136). -/
def thetaVec (sub diag sup : X64) (n : ℕ) : List X64 :=
  (List.range' 2 (n - 2)).foldl
    (fun th i => th ++ [(diag.mul (th.getD i .nan)).sub ((sup.mul sub).mul (th.getD (i - 1) .nan))])
    [c 1, diag, (diag.mul diag).sub (sup.mul sub)]

/-- The vector `phi` before the `pop` (finite_difference_pricer.rs 138-144). -/
def phiVec (sub diag sup : X64) (n : ℕ) : List X64 :=
  (List.range' 1 (n - 1)).foldl
    (fun ph i => ph ++ [(diag.mul (ph.getD i .nan)).sub ((sup.mul sub).mul (ph.getD (i - 1) .nan))])
    [c 1, diag]

/-- One entry of the inverse (finite_difference_pricer.rs 156-176), `theta` and `phi` after `pop` and `reverse`. The power of
`-1.0` is exact. -/
def invEntry (sub diag sup : X64) (n : ℕ) (theta phi : List X64) (thetaN : X64) (i j : ℕ) : X64 :=
  if i < j then
    ((List.range' i (j - i)).foldl (fun value k => value.mul (if k = n - 1 then diag else sup)) (c ((-1) ^ (i + j)))).mul
      (((theta.getD i .nan).mul (phi.getD j .nan)).div thetaN)
  else if i = j then (c ((-1) ^ (i + j))).mul (((theta.getD i .nan).mul (phi.getD i .nan)).div thetaN)
  else
    ((List.range' (j + 1) (i - j)).foldl (fun value _ => value.mul sub) (c ((-1) ^ (i + j)))).mul
      (((theta.getD j .nan).mul (phi.getD i .nan)).div thetaN)

/-- `invert_tridiagonal_matrix` (finite_difference_pricer.rs 121-183) for the system size `n = price_steps - 1`. -/
def invTridiag (sub diag sup : X64) (n : ℕ) : List (List X64) :=
  let theta := thetaVec sub diag sup n
  let thetaN := theta.getLastD .nan
  let phi := (phiVec sub diag sup n).dropLast.reverse
  (List.range n).map fun i => (List.range n).map fun j => invEntry sub diag sup n theta.dropLast phi thetaN i j

namespace Pricer

variable (m : Libm) (o : Pricer)

/-- `payoff` (finite_difference_pricer.rs 185-190). -/
def payoff (s : X64) : X64 :=
  match o.typeFlag with
  | .call => (s.sub o.strikePrice).max (c 0)
  | .put => (o.strikePrice.sub s).max (c 0)

/-- The early-exercise value in `american_time_stop_step` (finite_difference_pricer.rs 196-197). -/
def exerciseValue (tau xMin dx : X64) (i : ℕ) : X64 :=
  (m.exp (o.riskFreeRate.mul tau)).mul (o.payoff (m.exp (xMin.add ((X64.ofNat i).mul dx))))

/-- `american_time_stop_step` (finite_difference_pricer.rs 192-201). -/
def americanStep (v : List X64) (tau xMin dx : X64) : List X64 :=
  (List.range' 1 (o.priceSteps - 1)).map fun (i : ℕ) => (v.getD (i - 1) .nan).max (o.exerciseValue m tau xMin dx i)

/-- `initial_condition` (finite_difference_pricer.rs 203-207). -/
def initialCondition (xMin dx : X64) : List X64 :=
  (List.range' 1 (o.priceSteps - 1)).map fun (i : ℕ) => o.payoff (m.exp (xMin.add ((X64.ofNat i).mul dx)))

/-- `call_boundary` (finite_difference_pricer.rs 209-211). -/
def callBoundary (tau xMax : X64) : X64 := (m.exp xMax).sub (o.strikePrice.mul (m.exp (o.riskFreeRate.neg.mul tau)))

/-- `put_boundary` (finite_difference_pricer.rs 213-215). -/
def putBoundary (tau xMin : X64) : X64 := (o.strikePrice.mul (m.exp (o.riskFreeRate.neg.mul tau))).sub (m.exp xMin)

/-- `return_price` (finite_difference_pricer.rs 224-233); out-of-range indices panic. -/
def returnPrice (u : List X64) : Option X64 :=
  if o.priceSteps % 2 = 0 then
    if o.priceSteps < 1 then none else u[(o.priceSteps - 1) / 2]?
  else if o.priceSteps < 3 then none
  else do return ((← u[(o.priceSteps - 1) / 2]?).add (← u[(o.priceSteps - 3) / 2]?)).div (c 2)

/-- `delta_t` of `grid` (finite_difference_pricer.rs 237). -/
def dt : X64 := o.T.div (X64.ofNat o.timeSteps)

/-- `5.0 * self.volatility * T.sqrt()` (finite_difference_pricer.rs 238, 239). -/
def width : X64 := ((c 5).mul o.volatility).mul (m.sqrt o.T)

/-- `x_min` of `grid` (finite_difference_pricer.rs 238). -/
def xMin : X64 := (m.ln o.initialPrice).sub (o.width m)

/-- The upper end of the grid (finite_difference_pricer.rs 239, 270, 306, 350). -/
def xMax : X64 := (m.ln o.initialPrice).add (o.width m)

/-- `delta_x` of `grid` (finite_difference_pricer.rs 239-240). -/
def dx : X64 := ((o.xMax m).sub (o.xMin m)).div (X64.ofNat o.priceSteps)

/-- First of the `coefficients` (finite_difference_pricer.rs 247). -/
def cx : X64 := (((c (1 / 2)).mul o.dt).mul (o.volatility.mul o.volatility)).div ((o.dx m).mul (o.dx m))

/-- Second of the `coefficients` (finite_difference_pricer.rs 248). -/
def cy : X64 :=
  (o.dt.mul (o.riskFreeRate.sub ((c (1 / 2)).mul (o.volatility.mul o.volatility)))).div ((c 2).mul (o.dx m))

/-- `v[i] += e`: panics when out of range.
crates/RustQuant_instruments/src/options/finite_difference_pricer.rs 267, 274, 303, 310, 346 and 354. -/
def addAt (v : List X64) (i : ℕ) (e : X64) : Option (List X64) :=
  if i < v.length then some (v.set i ((v.getD i .nan).add e)) else none

/-- The boundary terms of one time step of `explicit` and `crank_nicolson` (finite_difference_pricer.rs 265-276, 344-356): `lo`
and `hi` are the factors in front of the put and the call boundary. `price_steps - 2` panics below 2. -/
def boundary (lo hi : X64) (t : ℕ) (v : List X64) : Option (List X64) :=
  match o.typeFlag with
  | .call => if o.priceSteps < 2 then none
      else addAt v (o.priceSteps - 2) (hi.mul (o.callBoundary m ((X64.ofNat t).mul o.dt) (o.xMax m)))
  | .put => addAt v 0 (lo.mul (o.putBoundary m ((X64.ofNat t).mul o.dt) (o.xMin m)))

/-- The boundary terms of one time step of `implicit` (finite_difference_pricer.rs 301-312): the product is subtracted. -/
def boundarySub (lo hi : X64) (t : ℕ) (v : List X64) : Option (List X64) :=
  match o.typeFlag with
  | .call => if o.priceSteps < 2 then none
      else addAt v (o.priceSteps - 2) (hi.mul (o.callBoundary m ((X64.ofNat t).mul o.dt) (o.xMax m))).neg
  | .put => addAt v 0 (lo.mul (o.putBoundary m ((X64.ofNat t).mul o.dt) (o.xMin m))).neg

/-- The early-exercise step (finite_difference_pricer.rs 278-284, 316-322, 360-366): taken only when the flag is
American with exactly the dates `Date::MIN` and `Date::MAX`. -/
def exercise (t : ℕ) (v : List X64) : List X64 :=
  if o.exerciseFlag = .american dateMin dateMax then o.americanStep m v ((X64.ofNat t).mul o.dt) (o.xMin m) (o.dx m) else v

/-- `for t in 1..(time_steps + 1)` (finite_difference_pricer.rs 262, 300, 341). -/
def loop (step : ℕ → List X64 → Option (List X64)) : ℕ → List X64 → Option (List X64)
  | 0, v => some v
  | k + 1, v => (loop step k v).bind (step (k + 1))

/-- A whole run: initial condition, time loop, discounting (finite_difference_pricer.rs 253-288). -/
def run (step : ℕ → List X64 → Option (List X64)) : Option X64 := do
  let v ← loop step o.timeSteps (o.initialCondition m (o.xMin m) (o.dx m))
  return (m.exp (o.riskFreeRate.neg.mul o.T)).mul (← o.returnPrice v)

/-- One time step of `explicit` (finite_difference_pricer.rs 255-285). -/
def explicitStep (t : ℕ) (v : List X64) : Option (List X64) := do
  let x := o.cx m
  let y := o.cy m
  let w ← tridiagMul (x.sub y) ((c 1).sub ((c 2).mul x)) (x.add y) v
  return o.exercise m t (← o.boundary m (x.sub y) (x.add y) t w)

/-- `explicit` (finite_difference_pricer.rs 252-288). -/
def explicit : Option X64 := o.run m (o.explicitStep m)

/-- One time step of `implicit` (finite_difference_pricer.rs 293-323). -/
def implicitStep (t : ℕ) (v : List X64) : Option (List X64) := do
  let x := o.cx m
  let y := o.cy m
  let w ← o.boundarySub m (x.neg.add y) (x.neg.sub y) t v
  return o.exercise m t
    (matMul (invTridiag (x.neg.add y) ((c 1).add ((c 2).mul x)) (x.neg.sub y) (o.priceSteps - 1)) w)

/-- `implicit` (finite_difference_pricer.rs 290-326). -/
def implicit : Option X64 := o.run m (o.implicitStep m)

/-- One time step of `crank_nicolson` (finite_difference_pricer.rs 331-367). -/
def cnStep (t : ℕ) (v : List X64) : Option (List X64) := do
  let x := o.cx m
  let y := o.cy m
  let lo := (c (1 / 2)).mul (x.sub y)
  let hi := (c (1 / 2)).mul (x.add y)
  let w ← tridiagMul lo ((c 1).sub x) hi v
  let w ← o.boundary m ((c 2).mul lo) ((c 2).mul hi) t w
  return o.exercise m t (matMul (invTridiag lo.neg ((c 1).add x) hi.neg (o.priceSteps - 1)) w)

/-- `crank_nicolson` (finite_difference_pricer.rs 328-370). -/
def crankNicolson : Option X64 := o.run m (o.cnStep m)

end Pricer

end Verif.Float.Fd
