import Verif.Float.Simulation

/-!
# The Milstein and Strang-splitting schemes on `f64` values

Source: `crates/RustQuant_stochastics/src/simulation.rs` 73-137. One path without jumps, as in `Simulation`; the noise is a parameter.
`none` is a panic or a result that is not finite.
-/

namespace Verif.Float.Sim

/-- One Milstein step (simulation.rs 89-104): `path[t] + drift * dt + diffusion * dw + 0.5 * (diffusion * ((diffusion(path[t] + 1e-5) -
diffusion(path[t] - 1e-5)) / 2.0 * 1e-5) * (dw * dw - dt)) + 0.0`, from left to right. -/
def milsteinStep (P : Process) (dt time dw x : F64) : Option F64 := do
  let q ← x.add (← (← P.drift x time).mul dt)
  let q ← q.add (← (← P.diffusion x time).mul dw)
  let e ← toF64 (1 / 100000)
  let up ← P.diffusion (← x.add e) time
  let down ← P.diffusion (← x.sub e) time
  let slope ← (← (← up.sub down).div (← toF64 2)).mul e
  let square ← (← dw.mul dw).sub dt
  let q ← q.add (← (← toF64 (1 / 2)).mul (← (← (← P.diffusion x time).mul slope).mul square))
  q.add F64.zero

/-- `0.5 * drift(path[t], times[t]) * dt` (simulation.rs 122, 124, 129). -/
def halfDrift (P : Process) (dt time x : F64) : Option F64 := do
  (← (← toF64 (1 / 2)).mul (← P.drift x time)).mul dt

/-- `times[t] + 0.5 * dt` (simulation.rs 125). -/
def midTime (dt time : F64) : Option F64 := do
  time.add (← (← toF64 (1 / 2)).mul dt)

/-- One Strang-splitting step (simulation.rs 120-134): `path[t] + 0.5 * drift * dt + diffusion(path[t] + 0.5 * drift * dt,
times[t] + 0.5 * dt) * noise + 0.5 * drift * dt + 0.0`, from left to right. -/
def strangStep (P : Process) (dt time z x : F64) : Option F64 := do
  let q ← x.add (← halfDrift P dt time x)
  let w ← x.add (← halfDrift P dt time x)
  let q ← q.add (← (← P.diffusion w (← midTime dt time)).mul z)
  let q ← q.add (← halfDrift P dt time x)
  q.add F64.zero

/-- `for t in 0..n_steps { path.push(..) }` with either step (simulation.rs 84-105, 119-135). -/
def runWith (step : F64 → F64 → F64 → Option F64) (times : List F64) (noise : ℕ → F64) (x0 : F64) : ℕ → Option (List F64)
  | 0 => some [x0]
  | n + 1 => do
    let p ← runWith step times noise x0 n
    let y ← step (← times[n]?) (noise n) (← p[n]?)
    return p ++ [y]

/-- Times and one path of `simulate_stochatic_process` (simulation.rs 28-34, 73-137, 140-151) for a scheme with the given step. `dt.sqrt()`
(line 38) is not used by these schemes and is left out. -/
def simulateWith (step : F64 → F64 → F64 → F64 → Option F64) (c : Config) (noise : ℕ → F64) : Option (List F64 × List F64) := do
  if c.t0.val < c.tn.val then
    let dt ← c.dt
    let times ← c.times dt
    return (times, ← runWith (step dt) times noise c.x0 c.nSteps)
  else none

/-- A path of the Milstein scheme (simulation.rs 73-107). -/
def milstein (P : Process) (c : Config) (noise : ℕ → F64) : Option (List F64 × List F64) := simulateWith (milsteinStep P) c noise

/-- A path of the Strang-splitting scheme (simulation.rs 108-137). -/
def strang (P : Process) (c : Config) (noise : ℕ → F64) : Option (List F64 × List F64) := simulateWith (strangStep P) c noise

end Verif.Float.Sim
