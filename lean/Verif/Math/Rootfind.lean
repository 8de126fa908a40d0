import Mathlib.Data.Real.Basic
import Mathlib.Tactic.Common

/-!
# Model of `RustQuant_math::rootfinding`: Bisection, Brent, Newton-Raphson

`f64` is `ℝ`; the objective is any function `ℝ → ℝ`. The initial sentinels `f64::MIN`/`f64::MAX` of the private fields
are never read before being overwritten and are not modelled. A failed search returns `0.0` in the code; the model keeps
the distinction (`Ret.gaveUp`) and `Ret.value` is what the caller sees. `none` is the panic of the accuracy assertion.
-/

namespace Verif.Math.Rootfind

/-- `f64::EPSILON`. Written at rootfinder.rs 66 and 135, bisection.rs 82. -/
noncomputable def eps : ℝ := 1 / 2 ^ 52

/-- `42 * f64::EPSILON` (crates/RustQuant_math/src/rootfinding/rootfinder.rs 133-135). -/
noncomputable def closeTol : ℝ := 42 * eps

/-- `RootfinderData::close` (rootfinder.rs 128-143). -/
def close (x y : ℝ) : Prop :=
  x = y ∨ (x * y = 0 ∧ |x - y| < closeTol ^ 2) ∨
    (x * y ≠ 0 ∧ |x - y| ≤ closeTol * |x| ∧ |x - y| ≤ closeTol * |y|)

/-- `MAX_ITERATIONS` (rootfinder.rs 19). -/
def maxIterations : ℕ := 1000

/-- The user's configuration, `RootfinderData` (rootfinder.rs 36-58, `new` 79-98). -/
structure Config where
  accuracy : ℝ
  stepsize : ℝ
  lower : ℝ
  upper : ℝ
  enforced : Bool

open Classical in
/-- `enforce_bounds` (rootfinder.rs 100-109). -/
noncomputable def Config.bound (c : Config) (x : ℝ) : ℝ :=
  if c.enforced = true ∧ x < c.lower then c.lower
  else if c.enforced = true ∧ x > c.upper then c.upper
  else x

/-- What a solver returns. See bisection.rs 79-153, newton_raphson.rs 112-186 and brent.rs 147-221. -/
inductive Ret
  | found (x : ℝ)
  | gaveUp

/-- The number the caller receives: a failed search returns `0.0`. See brent.rs 144. -/
def Ret.value : Ret → ℝ
  | .found x => x
  | .gaveUp => 0

/-- The bracket kept by `solve`. The fields at rootfinder.rs 53-56. -/
structure Bracket where
  xMin : ℝ
  xMax : ℝ
  yMin : ℝ
  yMax : ℝ

open Classical in
/-- The loop of `solve`, identical in bisection.rs 109-150, brent.rs 177-218 and newton_raphson.rs 142-183. `flip` is
`flipflop == 1`; `impl` is `solve_impl`, given the bracket and the iteration count. -/
noncomputable def bracketLoop (f : ℝ → ℝ) (c : Config) (impl : Bracket → ℕ → Ret) (it : ℕ) (flip : Bool)
    (b : Bracket) : Ret :=
  if maxIterations < it then .gaveUp
  else if b.yMin * b.yMax ≤ 0 then
    if close b.yMin 0 then .found b.xMin
    else if close b.yMax 0 then .found b.xMax
    else impl b it
  else
    let xlo := c.bound (b.xMin + 1.6 * (b.xMin - b.xMax))
    let xhi := c.bound (b.xMax + 1.6 * (b.xMax - b.xMin))
    let lo : Bracket := { b with xMin := xlo, yMin := f xlo }
    let hi : Bracket := { b with xMax := xhi, yMax := f xhi }
    if |b.yMin| < |b.yMax| then bracketLoop f c impl (it + 1) flip lo
    else if |b.yMin| > |b.yMax| then bracketLoop f c impl (it + 1) flip hi
    else if flip = false then bracketLoop f c impl (it + 2) true lo
    else bracketLoop f c impl (it + 1) false hi
termination_by maxIterations + 1 - it
decreasing_by all_goals (simp only [maxIterations] at *; omega)

open Classical in
/-- `solve` (bisection.rs 79-153, brent.rs 147-221, newton_raphson.rs 112-186); `impl` additionally receives the
effective accuracy. -/
noncomputable def solve (f : ℝ → ℝ) (c : Config) (guess : ℝ) (impl : ℝ → Bracket → ℕ → Ret) : Option Ret :=
  if c.accuracy ≤ 0 then none
  else
    let acc := max c.accuracy eps
    let y := f guess
    if close y 0 then some (.found guess)
    else
      let b : Bracket :=
        if y > 0 then
          let x := c.bound (guess - c.stepsize)
          ⟨x, guess, f x, y⟩
        else
          let x := c.bound (guess + c.stepsize)
          ⟨guess, x, y, f x⟩
      some (bracketLoop f c (impl acc) 2 false b)

/-! ## Bisection -/

open Classical in
/-- The loop of `Bisection::solve_impl` (bisection.rs 62-74); the first argument is the number of iterations left. -/
noncomputable def bisectLoop (f : ℝ → ℝ) (acc : ℝ) : ℕ → ℝ → ℝ → Ret
  | 0, _, _ => .gaveUp
  | n + 1, root, dx =>
    let dx := dx / 2
    let xMid := root + dx
    let fMid := f xMid
    let root := if fMid ≤ 0 then xMid else root
    if |dx| < acc ∨ close fMid 0 then .found root else bisectLoop f acc n root dx

open Classical in
/-- `Bisection::solve_impl` (bisection.rs 48-77). -/
noncomputable def bisectImpl (f : ℝ → ℝ) (acc : ℝ) (b : Bracket) (it : ℕ) : Ret :=
  if b.yMin < 0 then bisectLoop f acc (maxIterations + 1 - it) b.xMin (b.xMax - b.xMin)
  else bisectLoop f acc (maxIterations + 1 - it) b.xMax (b.xMin - b.xMax)

/-- `Bisection::solve`. See bisection.rs 79-153. -/
noncomputable def bisection (f : ℝ → ℝ) (c : Config) (guess : ℝ) : Option Ret := solve f c guess (bisectImpl f)

/-! ## Newton-Raphson -/

open Classical in
/-- The loop of `NewtonRaphson::solve_impl` (newton_raphson.rs 78-107). If value and derivative are both zero at the
iterate, the code computes `0/0 = NaN`: every later comparison is false and the loop runs out, returning `0.0`; this is the
first case below. (If only the derivative is zero, the check sends it to bisection.) -/
noncomputable def newtonLoop (f f' : ℝ → ℝ) (acc : ℝ) : ℕ → (root xl xh dx dxold : ℝ) → Ret
  | 0, _, _, _, _, _ => .gaveUp
  | n + 1, root, xl, xh, dx, dxold =>
    let fr := f root
    let dfr := f' root
    let check1 := (root - xh) * dfr - fr
    let check2 := (root - xl) * dfr - fr
    if check1 * check2 > 0 ∨ |2 * fr| > |dxold * dfr| then
      let dxold := dx
      let dx := (xh - xl) / 2
      let root := xl + dx
      if |dx| < acc then .found root
      else if f root < 0 then newtonLoop f f' acc n root root xh dx dxold
      else newtonLoop f f' acc n root xl root dx dxold
    else if dfr = 0 then .gaveUp
    else
      let dxold := dx
      let dx := fr / dfr
      let root := root - dx
      if |dx| < acc then .found root
      else if f root < 0 then newtonLoop f f' acc n root root xh dx dxold
      else newtonLoop f f' acc n root xl root dx dxold

open Classical in
/-- `NewtonRaphson::solve_impl` (newton_raphson.rs 53-110): starts at the middle of the bracket (151), one evaluation is
counted before the loop (76). -/
noncomputable def newtonImpl (f f' : ℝ → ℝ) (acc : ℝ) (b : Bracket) (it : ℕ) : Ret :=
  let root := 0.5 * (b.xMax + b.xMin)
  let dx := b.xMax - b.xMin
  if b.yMin < 0 then newtonLoop f f' acc (maxIterations - it) root b.xMin b.xMax dx dx
  else newtonLoop f f' acc (maxIterations - it) root b.xMax b.xMin dx dx

/-- `NewtonRaphson::solve`. See newton_raphson.rs 112-186. -/
noncomputable def newton (f f' : ℝ → ℝ) (c : Config) (guess : ℝ) : Option Ret := solve f c guess (newtonImpl f f')

/-! ## Brent -/

/-- The state of the loop of `Brent::solve_impl`. See brent.rs 49-64. -/
structure Brent where
  xMin : ℝ
  yMin : ℝ
  xMax : ℝ
  yMax : ℝ
  root : ℝ
  froot : ℝ
  d : ℝ
  e : ℝ

open Classical in
/-- brent.rs 67-72: the bracket is renewed when the iterate and its far end have the same sign. -/
noncomputable def Brent.rebracket (s : Brent) : Brent :=
  if (s.froot > 0 ∧ s.yMax > 0) ∨ (s.froot < 0 ∧ s.yMax < 0) then
    { s with xMax := s.xMin, yMax := s.yMin, e := s.root - s.xMin, d := s.root - s.xMin }
  else s

open Classical in
/-- brent.rs 74-84: the end with the smaller value becomes the iterate. -/
noncomputable def Brent.swap (s : Brent) : Brent :=
  if |s.yMax| < |s.froot| then
    { s with xMin := s.root, root := s.xMax, xMax := s.root, yMin := s.froot, froot := s.yMax, yMax := s.froot }
  else s

open Classical in
/-- brent.rs 94-130: the new step and the previous one `(d, e)`; `xAcc1`, `xMid` as computed before. -/
noncomputable def Brent.step (s : Brent) (xAcc1 xMid : ℝ) : ℝ × ℝ :=
  if |s.e| ≥ xAcc1 ∧ s.yMin > |s.froot| then
    let t := s.froot / s.yMin
    let pq : ℝ × ℝ :=
      if close s.xMin s.xMax then (2 * xMid * t, 1 - t)
      else
        let q := s.yMin / s.yMax
        let r := s.froot / s.yMax
        (t * (2 * xMid * q * (q - r) - (s.root - s.xMin) * (r - 1)), (q - 1) * (r - 1) * (t - 1))
    let p := |pq.1|
    let q := if pq.1 > 0 then -pq.2 else pq.2
    let min1 := 3 * xMid * q - |xAcc1 * q|
    let min2 := |s.e * q|
    let ternary := if min1 < min2 then min1 else min2
    if 2 * p < ternary then (p / q, s.d) else (xMid, xMid)
  else (xMid, xMid)

open Classical in
/-- `RootfinderData::nrsign` (rootfinder.rs 117-126). -/
noncomputable def nrsign (a b : ℝ) : ℝ :=
  let t1 := if a ≥ 0 then a else -a
  let t2 := if a ≥ 0 then -a else a
  if b ≥ 0 then t1 else t2

open Classical in
/-- The loop of `Brent::solve_impl` (brent.rs 66-142). -/
noncomputable def brentLoop (f : ℝ → ℝ) (acc : ℝ) : ℕ → Brent → Ret
  | 0, _ => .gaveUp
  | n + 1, s =>
    let s := s.rebracket.swap
    let xAcc1 := 2 * eps * |s.root| + 0.5 * acc
    let xMid := 0.5 * (s.xMax - s.root)
    if |xMid| ≤ xAcc1 ∨ close s.froot 0 then .found s.root
    else
      let de := s.step xAcc1 xMid
      let root := if |de.1| > xAcc1 then s.root + de.1 else s.root + nrsign xAcc1 xMid
      brentLoop f acc n
        { s with xMin := s.root, yMin := s.froot, root := root, froot := f root, d := de.1, e := de.2 }

/-- `Brent::solve_impl` (brent.rs 48-145). -/
noncomputable def brentImpl (f : ℝ → ℝ) (acc : ℝ) (b : Bracket) (it : ℕ) : Ret :=
  brentLoop f acc (maxIterations + 1 - it) ⟨b.xMin, b.yMin, b.xMax, b.yMax, b.xMax, b.yMax, 0, 0⟩

/-- `Brent::solve`. See brent.rs 147-221. -/
noncomputable def brent (f : ℝ → ℝ) (c : Config) (guess : ℝ) : Option Ret := solve f c guess (brentImpl f)

end Verif.Math.Rootfind
