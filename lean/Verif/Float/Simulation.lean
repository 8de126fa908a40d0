import Verif.Float.Model

/-!
# Simulated paths on `f64` values

Source: `crates/RustQuant_stochastics/src/simulation.rs` and the process files beside it. One path of the Euler-Maruyama scheme without
jumps; the noise (a generator or a fractional sample) is a parameter, and so is the platform's square root. `none` is a panic or a
result that is not finite.
-/

namespace Verif.Float.Sim

/-- `StochasticProcess` (process.rs 209-214): drift and diffusion as functions of value and time. -/
structure Process where
  drift : F64 → F64 → Option F64
  diffusion : F64 → F64 → Option F64

/-- The fields of `StochasticProcessConfig` (process.rs 124-148) that one path depends on. -/
structure Config where
  x0 : F64
  t0 : F64
  tn : F64
  nSteps : ℕ

/-- `dt` (simulation.rs 30). -/
def Config.dt (c : Config) : Option F64 := do
  let d ← c.tn.sub c.t0
  d.div (← ofNat c.nSteps)

/-- `t_0 + dt * (t as f64)` (simulation.rs 33). -/
def Config.time (c : Config) (dt : F64) (t : ℕ) : Option F64 := do
  c.t0.add (← dt.mul (← ofNat t))

/-- `times` (simulation.rs 32-34). -/
def Config.times (c : Config) (dt : F64) : Option (List F64) := (List.range (c.nSteps + 1)).mapM (c.time dt)

/-- One Euler-Maruyama step (simulation.rs 59-69): `path[t] + drift * dt + diffusion * scale * noise + 0.0`, from left to right. -/
def emStep (P : Process) (dt scale time z x : F64) : Option F64 := do
  let a ← P.drift x time
  let q ← x.add (← a.mul dt)
  let b ← P.diffusion x time
  let q ← q.add (← (← b.mul scale).mul z)
  q.add F64.zero

/-- `for t in 0..n_steps { path.push(..) }` (simulation.rs 58-70). -/
def runPath (P : Process) (dt scale : F64) (times : List F64) (noise : ℕ → F64) (x0 : F64) : ℕ → Option (List F64)
  | 0 => some [x0]
  | n + 1 => do
    let p ← runPath P dt scale times noise x0 n
    let y ← emStep P dt scale (← times[n]?) (noise n) (← p[n]?)
    return p ++ [y]

/-- Times and one path of `simulate_stochatic_process` (simulation.rs 28-70, 140-151): panics unless `t_0 < t_n`. -/
def simulate (P : Process) (sqrt : F64 → Option F64) (c : Config) (noise : ℕ → F64) : Option (List F64 × List F64) := do
  if c.t0.val < c.tn.val then
    let dt ← c.dt
    let times ← c.times dt
    let scale ← sqrt dt
    return (times, ← runPath P dt scale times noise c.x0 c.nSteps)
  else none

/-- `GeometricBrownianMotion` (geometric_brownian_motion.rs 45-54): `mu(t) * x` and `sigma(t) * x`; panics for a negative `sigma`. -/
def gbm (mu sigma : F64 → F64) : Process :=
  ⟨fun x t => (mu t).mul x, fun x t => if (sigma t).val < 0 then none else (sigma t).mul x⟩

/-- `ArithmeticBrownianMotion` (arithmetic_brownian_motion.rs 33-42). -/
def abm (mu sigma : F64 → F64) : Process :=
  ⟨fun _ t => some (mu t), fun _ t => if (sigma t).val < 0 then none else some (sigma t)⟩

/-- `OrnsteinUhlenbeck` (ornstein_uhlenbeck.rs 42-49): `theta(t) * (mu(t) - x)` and `sigma(t)`. -/
def ou (mu sigma theta : F64 → F64) : Process :=
  ⟨fun x t => do (theta t).mul (← (mu t).sub x), fun _ t => if (sigma t).val < 0 then none else some (sigma t)⟩

/-- `HullWhite` (hull_white.rs 41-47) and, with the same text, `ExtendedVasicek` (extended_vasicek.rs 41-47): `theta(t) - alpha(t) * x`
and `sigma(t)`. -/
def hullWhite (alpha sigma theta : F64 → F64) : Process :=
  ⟨fun x t => do (theta t).sub (← (alpha t).mul x), fun _ t => some (sigma t)⟩

/-- `HoLee` (ho_lee.rs 33-41); panics for a negative `theta` or `sigma`. -/
def hoLee (sigma theta : F64 → F64) : Process :=
  ⟨fun _ t => if (theta t).val < 0 then none else some (theta t), fun _ t => if (sigma t).val < 0 then none else some (sigma t)⟩

/-- `BrownianMotion` (brownian_motion.rs 31-37). -/
def bm : Process := ⟨fun _ _ => some F64.zero, fun _ _ => toF64 1⟩

end Verif.Float.Sim
