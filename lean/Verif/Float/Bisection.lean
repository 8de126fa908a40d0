import Verif.Float.Ops

/-!
# Bisection on `f64` values with their rounding

`Bisection` of `RustQuant_math::rootfinding` as it runs on binary64. The objective takes and returns finite numbers: what the
search does once a point or a value is infinite or NaN is not modelled (`Ret.nonfinite`).
-/

namespace Verif.Float.Bisect

/-- What `solve` does: it panics, leaves the finite numbers, gives up (the caller receives `0.0`) or returns a point.
See bisection.rs 79-153. -/
inductive Ret
  | panic
  | nonfinite
  | gaveUp
  | found (x : F64)
  deriving DecidableEq

/-- `powi(42 * f64::EPSILON, 2)` (crates/RustQuant_math/src/rootfinding/rootfinder.rs 133-140), an exact product. -/
def tol : ℚ := (42 * 2 ^ (-52 : ℤ)) ^ 2

/-- `RootfinderData::close(x, 0.0)` (rootfinder.rs 128-143): the product `x * y` is zero, so the third test is not reached. -/
def closeZero (x : F64) : Prop := x.val = 0 ∨ |x.val| < tol

instance (x : F64) : Decidable (closeZero x) := inferInstanceAs (Decidable (_ ∨ _))

/-- The user's configuration, `RootfinderData` (rootfinder.rs 36-58, `new` 79-98). -/
structure Config where
  accuracy : F64
  stepsize : F64
  lower : F64
  upper : F64
  enforced : Bool

/-- `enforce_bounds` (rootfinder.rs 100-109). -/
def Config.bound (c : Config) (x : F64) : F64 :=
  if c.enforced = true ∧ x.val < c.lower.val then c.lower
  else if c.enforced = true ∧ c.upper.val < x.val then c.upper
  else x

/-- `MAX_ITERATIONS` (rootfinder.rs 19). -/
def maxIterations : ℕ := 1000

/-- The literal `2.0`. See rootfinder.rs 139 and bisection.rs. -/
def two : F64 := ⟨2, ⟨2, 0, by norm_num, by norm_num, by norm_num⟩, by
  rw [abs_of_pos (by norm_num)]; exact lt_of_lt_of_eq (pow_lt_pow_right₀ (by norm_num) (show 2 < 1024 by norm_num) |>.trans_le' (by norm_num)) rfl⟩

/-- One pass of the loop of `solve_impl` (crates/RustQuant_math/src/rootfinding/bisection.rs 63-73): the point to return, or the
root and half-width to go on with. -/
def step (f : F64 → F64) (acc root dx : F64) : Ret ⊕ (F64 × F64) :=
  match dx.div two with
  | none => .inl .nonfinite
  | some dx =>
    match root.add dx with
    | none => .inl .nonfinite
    | some xMid =>
      let fMid := f xMid
      let root := if fMid.val ≤ 0 then xMid else root
      if |dx.val| < acc.val ∨ closeZero fMid then .inl (.found root) else .inr (root, dx)

/-- `while iteration_count <= MAX_ITERATIONS` around a pass, the counter going up by one in every pass; the first number is how
many passes are left. See bisection.rs 62 and 109. -/
def repeatWith (pass : F64 → F64 → Ret ⊕ (F64 × F64)) : ℕ → F64 → F64 → Ret
  | 0, _, _ => .gaveUp
  | n + 1, root, dx =>
    match pass root dx with
    | .inl r => r
    | .inr (root, dx) => repeatWith pass n root dx

/-- The loop of `solve_impl` (bisection.rs 62-76). -/
def loop (f : F64 → F64) (acc : F64) : ℕ → F64 → F64 → Ret := repeatWith (step f acc)

/-- The bracket kept by `solve`. The fields at rootfinder.rs 53-56. -/
structure Bracket where
  xMin : F64
  xMax : F64
  yMin : F64
  yMax : F64

/-- `solve_impl` (bisection.rs 48-77), given the number of iterations left. -/
def impl (f : F64 → F64) (acc : F64) (b : Bracket) (left : ℕ) : Ret :=
  if b.yMin.val < 0 then
    match b.xMax.sub b.xMin with
    | none => .nonfinite
    | some dx => loop f acc left b.xMin dx
  else
    match b.xMin.sub b.xMax with
    | none => .nonfinite
    | some dx => loop f acc left b.xMax dx

/-- `x + growth_factor * (x - y)` (bisection.rs 126, 131, 136, 143), with the literal `1.6` rounded. -/
def grow (x y : F64) : Option F64 := do
  let g ← toF64 (16 / 10)
  x.add (← g.mul (← x.sub y))

/-- The lower end moved out (bisection.rs 125-128, 135-138). -/
def Bracket.down (f : F64 → F64) (c : Config) (b : Bracket) : Option Bracket := do
  let x := c.bound (← grow b.xMin b.xMax)
  return { b with xMin := x, yMin := f x }

/-- The upper end moved out (bisection.rs 130-133, 142-145). -/
def Bracket.up (f : F64 → F64) (c : Config) (b : Bracket) : Option Bracket := do
  let x := c.bound (← grow b.xMax b.xMin)
  return { b with xMax := x, yMax := f x }

/-- What a pass of the loop of `solve` decides. See bisection.rs 109-150. -/
inductive Next
  | stop (r : Ret)
  | bisect
  | again (flip : Bool) (b : Bracket)
  | skip (b : Bracket)

/-- One pass of the loop of `solve` (bisection.rs 111-147). `flip` is `flipflop == 1`. The product of the values at the ends is
compared with zero after rounding; an infinite product compares as its sign does. -/
def pass (f : F64 → F64) (c : Config) (flip : Bool) (b : Bracket) : Next :=
  if rnd (b.yMin.val * b.yMax.val) ≤ 0 then
    if closeZero b.yMin then .stop (.found b.xMin)
    else if closeZero b.yMax then .stop (.found b.xMax)
    else .bisect
  else if |b.yMin.val| < |b.yMax.val| then
    match b.down f c with
    | none => .stop .nonfinite
    | some b => .again flip b
  else if |b.yMin.val| > |b.yMax.val| then
    match b.up f c with
    | none => .stop .nonfinite
    | some b => .again flip b
  else if flip = false then
    match b.down f c with
    | none => .stop .nonfinite
    | some b => .skip b
  else
    match b.up f c with
    | none => .stop .nonfinite
    | some b => .again false b

/-- The loop of `solve` (bisection.rs 109-152) around a pass; the number is how many more values of `iteration_count` are
allowed. After `Next.skip` (`flipflop == -1`) the count goes up by two and `flipflop` becomes 1. -/
def search (pass : Bool → Bracket → Next) (bisect : Bracket → ℕ → Ret) : ℕ → Bool → Bracket → Ret
  | 0, _, _ => .gaveUp
  | n + 1, flip, b =>
    match pass flip b with
    | .stop r => r
    | .bisect => bisect b (n + 1)
    | .again flip b => search pass bisect n flip b
    | .skip b =>
      match n with
      | 0 => .gaveUp
      | n + 1 => search pass bisect n true b

/-- `f64::EPSILON`. Written at bisection.rs 82 and rootfinder.rs 135. -/
def epsilon : F64 := ⟨2 ^ (-52 : ℤ), ⟨1, -52, by norm_num, by norm_num, by norm_num⟩, by
  rw [abs_of_pos (zpos _)]
  exact lt_of_lt_of_le (show (2 : ℚ) ^ (-52 : ℤ) < 1 by norm_num) (one_le_pow₀ (by norm_num))⟩

/-- The starting bracket (bisection.rs 92-105): from the guess, one step down if the value there is positive and one step up
otherwise. -/
def start (f : F64 → F64) (c : Config) (guess : F64) : Option Bracket := do
  if 0 < (f guess).val then
    let x := c.bound (← guess.sub c.stepsize)
    return ⟨x, guess, f x, f guess⟩
  else
    let x := c.bound (← guess.add c.stepsize)
    return ⟨guess, x, f guess, f x⟩

/-- `Bisection::solve` (bisection.rs 79-153). The count starts from 2, so 999 values are allowed. -/
def solve (f : F64 → F64) (c : Config) (guess : F64) : Ret :=
  if c.accuracy.val ≤ 0 then .panic
  else
    let acc := c.accuracy.max epsilon
    if closeZero (f guess) then .found guess
    else
      match start f c guess with
      | none => .nonfinite
      | some b => search (pass f c) (impl f acc) (maxIterations - 1) false b

end Verif.Float.Bisect
