import Verif.Float.NanPayoffs

/-!
# Bisection, Brent, Newton-Raphson and gradient descent on all values of `f64`

Sources: `bisection.rs`, `brent.rs`, `newton_raphson.rs` and `rootfinder.rs` of `crates/RustQuant_math/src/rootfinding`, and
`crates/RustQuant_math/src/optimization/gradient_descent.rs`. Every operation rounds; infinities and NaN are carried on. The
objective, its derivative and its gradient are any functions. The sentinels `f64::MIN` and `f64::MAX` of the private fields are
overwritten before they are read.
-/

namespace Verif.Float.Solve

open X64
open Nan (zero le)

/-- `x.abs()`. Used at brent.rs 74. -/
def abs : X64 → X64
  | fin a => ofQ |a.val|
  | inf _ => inf false
  | nan => nan

/-- `x == y`: false when either is NaN. Used at rootfinder.rs 129. -/
def eq : X64 → X64 → Bool
  | fin a, fin b => decide (a.val = b.val)
  | inf s, inf t => s == t
  | _, _ => false

/-- `f64::EPSILON`. Used at rootfinder.rs 135. -/
def epsilon : X64 := ofQ (2 ^ (-52 : ℤ))

/-- `42 as f64 * f64::EPSILON` (rootfinder.rs 133-135). -/
def tolerance : X64 := (X64.ofNat 42).mul epsilon

/-- `RootfinderData::close` (rootfinder.rs 128-143). `powi(_, 2)` is a product. -/
def close (x y : X64) : Bool :=
  if eq x y then true
  else
    let diff := abs (x.sub y)
    if eq (x.mul y) zero then diff.lt (tolerance.mul tolerance)
    else le diff (tolerance.mul (abs x)) && le diff (tolerance.mul (abs y))

/-- The user's configuration, `RootfinderData` (rootfinder.rs 36-58, `new` 79-98). -/
structure Config where
  accuracy : X64
  stepsize : X64
  lower : X64
  upper : X64
  enforced : Bool

/-- `enforce_bounds` (rootfinder.rs 100-109). -/
def Config.bound (c : Config) (x : X64) : X64 :=
  if c.enforced && x.lt c.lower then c.lower
  else if c.enforced && c.upper.lt x then c.upper
  else x

/-- How a search ends: the accuracy assertion fails, the iterations run out, or a point is returned. See bisection.rs 79-153. -/
inductive Ret
  | panic
  | gaveUp
  | found (x : X64)

/-- The number the caller receives, unless there is a panic: `0.0` after the last iteration (bisection.rs 76 and 152, brent.rs 144
and 220, newton_raphson.rs 109 and 185). -/
def Ret.value : Ret → Option X64
  | .panic => none
  | .gaveUp => some zero
  | .found x => some x

/-- `MAX_ITERATIONS` (rootfinder.rs 19). -/
def maxIterations : ℕ := 1000

/-- The bracket kept by `solve`. The fields at rootfinder.rs 53-56. -/
structure Bracket where
  xMin : X64
  xMax : X64
  yMin : X64
  yMax : X64

/-- `x + growth_factor * (x - y)` (bisection.rs 126, 131, 136, 143, and the same in brent.rs and newton_raphson.rs). -/
def grow (x y : X64) : X64 := x.add ((ofQ (16 / 10)).mul (x.sub y))

/-- The lower end moved out (bisection.rs 125-128, 135-138; brent.rs 193-196, 203-206; newton_raphson.rs 158-161, 168-171). -/
def Bracket.down (f : X64 → X64) (c : Config) (b : Bracket) : Bracket :=
  { b with xMin := c.bound (grow b.xMin b.xMax), yMin := f (c.bound (grow b.xMin b.xMax)) }

/-- The upper end moved out (bisection.rs 130-133, 142-145; brent.rs 198-201, 210-213; newton_raphson.rs 163-166, 175-178). -/
def Bracket.up (f : X64 → X64) (c : Config) (b : Bracket) : Bracket :=
  { b with xMax := c.bound (grow b.xMax b.xMin), yMax := f (c.bound (grow b.xMax b.xMin)) }

/-- What a pass of the loop of `solve` decides. See bisection.rs 109-150. -/
inductive Next
  | stop (r : Ret)
  | refine
  | again (flip : Bool) (b : Bracket)
  | skip (b : Bracket)

/-- One pass of the loop of `solve` (bisection.rs 111-147, brent.rs 179-215, newton_raphson.rs 144-180). `flip` is
`flipflop == 1`. -/
def pass (f : X64 → X64) (c : Config) (flip : Bool) (b : Bracket) : Next :=
  if le (b.yMin.mul b.yMax) zero then
    if close b.yMin zero then .stop (.found b.xMin)
    else if close b.yMax zero then .stop (.found b.xMax)
    else .refine
  else if (abs b.yMin).lt (abs b.yMax) then .again flip (b.down f c)
  else if (abs b.yMax).lt (abs b.yMin) then .again flip (b.up f c)
  else if flip = false then .skip (b.down f c)
  else .again false (b.up f c)

/-- The loop of `solve` (bisection.rs 109-152, brent.rs 177-220, newton_raphson.rs 142-185) around a pass; the number is how many
more values of `iteration_count` are allowed. After `Next.skip` (`flipflop == -1`) the count goes up by two. -/
def search (pass : Bool → Bracket → Next) (impl : Bracket → ℕ → Ret) : ℕ → Bool → Bracket → Ret
  | 0, _, _ => .gaveUp
  | n + 1, flip, b =>
    match pass flip b with
    | .stop r => r
    | .refine => impl b (n + 1)
    | .again flip b => search pass impl n flip b
    | .skip b =>
      match n with
      | 0 => .gaveUp
      | n + 1 => search pass impl n true b

/-- The starting bracket (bisection.rs 92-105, brent.rs 160-173, newton_raphson.rs 125-138). -/
def start (f : X64 → X64) (c : Config) (guess : X64) : Bracket :=
  if zero.lt (f guess) then
    ⟨c.bound (guess.sub c.stepsize), guess, f (c.bound (guess.sub c.stepsize)), f guess⟩
  else ⟨guess, c.bound (guess.add c.stepsize), f guess, f (c.bound (guess.add c.stepsize))⟩

/-- `solve` (bisection.rs 79-153, brent.rs 147-221, newton_raphson.rs 112-186); `impl` is `solve_impl`, given the effective
accuracy, the bracket and the number of iterations left. -/
def solve (f : X64 → X64) (c : Config) (guess : X64) (impl : X64 → Bracket → ℕ → Ret) : Ret :=
  if zero.lt c.accuracy then
    if close (f guess) zero then .found guess
    else search (pass f c) (impl (c.accuracy.max epsilon)) (maxIterations - 1) false (start f c guess)
  else .panic

/-! ## Bisection -/

/-- The loop of `Bisection::solve_impl` (bisection.rs 62-76). -/
def bisectLoop (f : X64 → X64) (acc : X64) : ℕ → X64 → X64 → Ret
  | 0, _, _ => .gaveUp
  | n + 1, root, dx =>
    let dx := dx.div (X64.ofNat 2)
    let xMid := root.add dx
    let fMid := f xMid
    let root := if le fMid zero then xMid else root
    if (abs dx).lt acc || close fMid zero then .found root else bisectLoop f acc n root dx

/-- `Bisection::solve_impl` (bisection.rs 48-77). -/
def bisectImpl (f : X64 → X64) (acc : X64) (b : Bracket) (left : ℕ) : Ret :=
  if b.yMin.lt zero then bisectLoop f acc left b.xMin (b.xMax.sub b.xMin)
  else bisectLoop f acc left b.xMax (b.xMin.sub b.xMax)

/-- `Bisection::solve` (bisection.rs 79-153). -/
def bisection (f : X64 → X64) (c : Config) (guess : X64) : Ret := solve f c guess (bisectImpl f)

/-! ## Newton-Raphson -/

/-- The loop of `NewtonRaphson::solve_impl` (newton_raphson.rs 78-109). -/
def newtonLoop (f f' : X64 → X64) (acc : X64) : ℕ → (root xl xh dx dxold : X64) → Ret
  | 0, _, _, _, _, _ => .gaveUp
  | n + 1, root, xl, xh, dx, dxold =>
    let froot := f root
    let dfroot := f' root
    let check1 := ((root.sub xh).mul dfroot).sub froot
    let check2 := ((root.sub xl).mul dfroot).sub froot
    let check3 := (abs (dxold.mul dfroot)).lt (abs ((X64.ofNat 2).mul froot))
    let bisect := zero.lt (check1.mul check2) || check3
    let dxold := dx
    let dx := if bisect then (xh.sub xl).div (X64.ofNat 2) else froot.div dfroot
    let root := if bisect then xl.add dx else root.sub dx
    if (abs dx).lt acc then .found root
    else if (f root).lt zero then newtonLoop f f' acc n root root xh dx dxold
    else newtonLoop f f' acc n root xl root dx dxold

/-- The middle of the bracket (newton_raphson.rs 151). -/
def Bracket.middle (b : Bracket) : X64 := (ofQ (1 / 2)).mul (b.xMax.add b.xMin)

/-- `NewtonRaphson::solve_impl` (newton_raphson.rs 53-110): one evaluation is counted before the loop (76). -/
def newtonImpl (f f' : X64 → X64) (acc : X64) (b : Bracket) (left : ℕ) : Ret :=
  if b.yMin.lt zero then newtonLoop f f' acc (left - 1) b.middle b.xMin b.xMax (b.xMax.sub b.xMin) (b.xMax.sub b.xMin)
  else newtonLoop f f' acc (left - 1) b.middle b.xMax b.xMin (b.xMax.sub b.xMin) (b.xMax.sub b.xMin)

/-- `NewtonRaphson::solve` (newton_raphson.rs 112-186). -/
def newton (f f' : X64 → X64) (c : Config) (guess : X64) : Ret := solve f c guess (newtonImpl f f')

/-! ## Brent -/

/-- The state of the loop of `Brent::solve_impl`. See brent.rs 49-64. -/
structure Brent where
  xMin : X64
  yMin : X64
  xMax : X64
  yMax : X64
  root : X64
  froot : X64
  d : X64
  e : X64

/-- brent.rs 67-72: the bracket is renewed when the iterate and its far end have the same sign. -/
def Brent.rebracket (s : Brent) : Brent :=
  if (zero.lt s.froot && zero.lt s.yMax) || (s.froot.lt zero && s.yMax.lt zero) then
    { s with xMax := s.xMin, yMax := s.yMin, e := s.root.sub s.xMin, d := s.root.sub s.xMin }
  else s

/-- brent.rs 74-84: the end with the smaller value becomes the iterate. -/
def Brent.swap (s : Brent) : Brent :=
  if (abs s.yMax).lt (abs s.froot) then
    { s with xMin := s.root, root := s.xMax, xMax := s.root, yMin := s.froot, froot := s.yMax, yMax := s.froot }
  else s

/-- brent.rs 86: the tolerance at a point. -/
def near (acc root : X64) : X64 := (((X64.ofNat 2).mul epsilon).mul (abs root)).add ((ofQ (1 / 2)).mul acc)

/-- brent.rs 87: half of the way to the far end. -/
def half (far root : X64) : X64 := (ofQ (1 / 2)).mul (far.sub root)

/-- brent.rs 94-130: the new step and the previous one `(d, e)`. -/
def Brent.step (s : Brent) (xAcc1 xMid : X64) : X64 × X64 :=
  if le xAcc1 (abs s.e) && (abs s.froot).lt s.yMin then
    let t := s.froot.div s.yMin
    let pq : X64 × X64 :=
      if close s.xMin s.xMax then (((X64.ofNat 2).mul xMid).mul t, (X64.ofNat 1).sub t)
      else
        let q := s.yMin.div s.yMax
        let r := s.froot.div s.yMax
        (t.mul (((((X64.ofNat 2).mul xMid).mul q).mul (q.sub r)).sub ((s.root.sub s.xMin).mul (r.sub (X64.ofNat 1)))),
          ((q.sub (X64.ofNat 1)).mul (r.sub (X64.ofNat 1))).mul (t.sub (X64.ofNat 1)))
    let q := if zero.lt pq.1 then pq.2.neg else pq.2
    let p := abs pq.1
    let min1 := (((X64.ofNat 3).mul xMid).mul q).sub (abs (xAcc1.mul q))
    let min2 := abs (s.e.mul q)
    let ternary := if min1.lt min2 then min1 else min2
    if ((X64.ofNat 2).mul p).lt ternary then (p.div q, s.d) else (xMid, xMid)
  else (xMid, xMid)

/-- `RootfinderData::nrsign` (rootfinder.rs 117-126). -/
def nrsign (a b : X64) : X64 :=
  let t1 := if le zero a then a else a.neg
  let t2 := if le zero a then a.neg else a
  if le zero b then t1 else t2

/-- The loop of `Brent::solve_impl` (brent.rs 66-144). -/
def brentLoop (f : X64 → X64) (acc : X64) : ℕ → Brent → Ret
  | 0, _ => .gaveUp
  | n + 1, s =>
    let s := s.rebracket.swap
    let xAcc1 := near acc s.root
    let xMid := half s.xMax s.root
    if le (abs xMid) xAcc1 || close s.froot zero then .found s.root
    else
      let de := s.step xAcc1 xMid
      let root := if xAcc1.lt (abs de.1) then s.root.add de.1 else s.root.add (nrsign xAcc1 xMid)
      brentLoop f acc n
        { s with xMin := s.root, yMin := s.froot, root := root, froot := f root, d := de.1, e := de.2 }

/-- `Brent::solve_impl` (brent.rs 48-145). -/
def brentImpl (f : X64 → X64) (acc : X64) (b : Bracket) (left : ℕ) : Ret :=
  brentLoop f acc left ⟨b.xMin, b.yMin, b.xMax, b.yMax, b.xMax, b.yMax, zero, zero⟩

/-- `Brent::solve` (brent.rs 147-221). -/
def brent (f : X64 → X64) (c : Config) (guess : X64) : Ret := solve f c guess (brentImpl f)

/-! ## Gradient descent -/

/-- `GradientDescentResult` without the time (gradient_descent.rs 101-113). -/
structure Descent where
  minimizer : List X64
  minimum : X64
  iterations : ℕ

/-- `is_stationary` (gradient_descent.rs 137-139); `sqrt` is the platform's. A sum of floats starts from zero. -/
def isStationary (sqrt : X64 → X64) (gradient : List X64) (tol : X64) : Bool :=
  (sqrt ((gradient.map fun x => x.mul x).foldl X64.add zero)).lt tol

/-- One update of the point (gradient_descent.rs 187-191): coordinates without a partner in the gradient stay. -/
def update (rate : X64) (x gradient : List X64) : List X64 :=
  List.zipWith (fun xi gi => xi.sub (rate.mul gi)) x gradient ++ x.drop gradient.length

/-- The loop of `optimize` (gradient_descent.rs 169-214), given the values of the objective and of its gradient. The first number
is how many iterations are left, the second how many are done. `f(&location)` (193) is the value before the update. -/
def descend (sqrt : X64 → X64) (f : List X64 → X64) (grad : List X64 → List X64) (rate tol : X64) : ℕ → ℕ → Descent → Descent
  | 0, _, r => r
  | n + 1, k, r =>
    let gradient := grad r.minimizer
    if isStationary sqrt gradient tol then { r with iterations := k + 1 }
    else descend sqrt f grad rate tol n (k + 1) ⟨update rate r.minimizer gradient, f r.minimizer, k + 1⟩

/-- `GradientDescent::new` and `optimize` (gradient_descent.rs 122-132 and 154-218): `none` is the panic of the assertion. The
default tolerance is the square root of `f64::EPSILON`, exactly `2^-26`. -/
def optimize (sqrt : X64 → X64) (f : List X64 → X64) (grad : List X64 → List X64) (rate : X64) (maxIterations : ℕ)
    (tol : Option X64) (x0 : List X64) : Option Descent :=
  match tol with
  | some t => if zero.lt t then some (descend sqrt f grad rate t maxIterations 0 ⟨x0, zero, 0⟩) else none
  | none => some (descend sqrt f grad rate (ofQ (2 ^ (-26 : ℤ))) maxIterations 0 ⟨x0, zero, 0⟩)

end Verif.Float.Solve
