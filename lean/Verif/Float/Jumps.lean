import Verif.Float.Simulation

/-!
# Euler-Maruyama paths with jumps on `f64` values

Source: `crates/RustQuant_stochastics/src/simulation.rs` 28-72, 167-183 and `merton_jump_diffusion.rs` 57-78. One path; the noise, the
samples of the Poisson distribution (simulation.rs 40-45) and the sizes drawn by the process are parameters; the sizes may depend on the step
but not on the value (as for Merton's process, which ignores both arguments of `jump`). `none` is a panic or a result
that is not finite.
-/

namespace Verif.Float.Sim

/-- `calculate_jump` (simulation.rs 167-183) with the size returned by `process.jump(..)` at this step. -/
def calculateJump (size : Option F64) (jump : F64) : F64 :=
  match size with
  | some s => if 0 < jump.val then s else F64.zero
  | none => F64.zero

/-- The jump term of step `t` (simulation.rs 65-68): zero without a sample, and a panic beyond the end of it. -/
def jumpTerm (jumps : List F64) (sizes : ℕ → Option F64) (t : ℕ) : Option F64 :=
  if jumps.isEmpty then some F64.zero else (jumps[t]?).map (calculateJump (sizes t))

/-- One Euler-Maruyama step (simulation.rs 59-69): `path[t] + drift * dt + diffusion * scale * noise + jump`, from left to right. -/
def jumpStep (P : Process) (dt scale time z jump x : F64) : Option F64 := do
  let a ← P.drift x time
  let q ← x.add (← a.mul dt)
  let b ← P.diffusion x time
  let q ← q.add (← (← b.mul scale).mul z)
  q.add jump

/-- `for t in 0..n_steps { path.push(..) }` (simulation.rs 58-70). -/
def jumpPath (P : Process) (dt scale : F64) (times jumps : List F64) (noise : ℕ → F64) (sizes : ℕ → Option F64) (x0 : F64) :
    ℕ → Option (List F64)
  | 0 => some [x0]
  | n + 1 => do
    let p ← jumpPath P dt scale times jumps noise sizes x0 n
    let y ← jumpStep P dt scale (← times[n]?) (noise n) (← jumpTerm jumps sizes n) (← p[n]?)
    return p ++ [y]

/-- Times and one path of `simulate_stochatic_process` (simulation.rs 28-70, 140-151), given the sample `jumps`. -/
def simulateJumps (P : Process) (sqrt : F64 → Option F64) (c : Config) (jumps : List F64) (noise : ℕ → F64) (sizes : ℕ → Option F64) :
    Option (List F64 × List F64) := do
  if c.t0.val < c.tn.val then
    let dt ← c.dt
    let times ← c.times dt
    let scale ← sqrt dt
    return (times, ← jumpPath P dt scale times jumps noise sizes c.x0 c.nSteps)
  else none

/-- `MertonJumpDiffusion` (merton_jump_diffusion.rs 57-65): drift and diffusion. The size of a jump (lines 67-69) is a draw from a normal
distribution and is a parameter of the simulation. -/
def merton (mu sigma : F64 → F64) : Process :=
  ⟨fun x t => (mu t).mul x, fun x t => if (sigma t).val < 0 then none else (sigma t).mul x⟩

end Verif.Float.Sim
