import Verif.Float.NanPayoffs

/-!
# Simulated paths on all values of `f64`

Source: `crates/RustQuant_stochastics/src/simulation.rs` 22-183 and the process files beside it. One path of each of the three schemes, with
jumps; results that are not finite are carried on. The noise, the sample of the Poisson distribution (simulation.rs 40-45), the sizes of jumps
and the platform's functions are parameters. `none` is a panic.
-/

namespace Verif.Float.Paths

open X64
open Verif.Float.Nan (zero le)

/-- `StochasticProcess` (process.rs 209-217): drift, diffusion and the size drawn at a step, as functions of value and time. -/
structure Process where
  drift : X64 → X64 → Option X64
  diffusion : X64 → X64 → Option X64
  jump : ℕ → X64 → X64 → Option X64

/-- `StochasticScheme` (process.rs 33-40). -/
inductive Scheme where
  | eulerMaruyama
  | milstein
  | strangSplitting

/-- The fields of `StochasticProcessConfig` (process.rs 124-148) that one path depends on. -/
structure Config where
  x0 : X64
  t0 : X64
  tn : X64
  nSteps : ℕ
  scheme : Scheme

/-- `calculate_jump` (simulation.rs 167-183) with the size returned by `process.jump(..)`. -/
def calculateJump (size : Option X64) (jump : X64) : X64 :=
  match size with
  | some s => if zero.lt jump then s else zero
  | none => zero

/-- The jump term of step `k` (simulation.rs 65-68, 100-103, 130-133): zero without a sample, and a panic beyond the end of it. -/
def jumpTerm (P : Process) (jumps : List X64) (k : ℕ) (time x : X64) : Option X64 :=
  if jumps.isEmpty then some zero else (jumps[k]?).map (calculateJump (P.jump k x time))

/-- One Euler-Maruyama step (simulation.rs 59-69), from left to right. -/
def emStep (P : Process) (dt scale z time x jump : X64) : Option X64 := do
  let q := x.add ((← P.drift x time).mul dt)
  let q := q.add (((← P.diffusion x time).mul scale).mul z)
  return q.add jump

/-- One Milstein step (simulation.rs 85-104), from left to right. -/
def milsteinStep (P : Process) (dt dw time x jump : X64) : Option X64 := do
  let e := ofQ (1 / 100000)
  let q := x.add ((← P.drift x time).mul dt)
  let q := q.add ((← P.diffusion x time).mul dw)
  let slope := (((← P.diffusion (x.add e) time).sub (← P.diffusion (x.sub e) time)).div (ofQ 2)).mul e
  let q := q.add ((ofQ (1 / 2)).mul (((← P.diffusion x time).mul slope).mul ((dw.mul dw).sub dt)))
  return q.add jump

/-- One Strang-splitting step (simulation.rs 120-134), from left to right. -/
def strangStep (P : Process) (dt z time x jump : X64) : Option X64 := do
  let half := ((ofQ (1 / 2)).mul (← P.drift x time)).mul dt
  let q := (x.add half).add ((← P.diffusion (x.add half) (time.add ((ofQ (1 / 2)).mul dt))).mul z)
  return (q.add half).add jump

/-- The step of the configured scheme (simulation.rs 47-138). -/
def step (s : Scheme) (P : Process) (dt scale : X64) (jumps : List X64) (noise : ℕ → X64) (k : ℕ) (time x : X64) : Option X64 := do
  let j ← jumpTerm P jumps k time x
  match s with
  | .eulerMaruyama => emStep P dt scale (noise k) time x j
  | .milstein => milsteinStep P dt (noise k) time x j
  | .strangSplitting => strangStep P dt (noise k) time x j

/-- `for t in 0..n_steps { path.push(..) }` (simulation.rs 58-70, 84-105, 119-135). -/
def run (f : ℕ → X64 → X64 → Option X64) (times : List X64) (x0 : X64) : ℕ → Option (List X64)
  | 0 => some [x0]
  | n + 1 => do
    let p ← run f times x0 n
    let y ← f n (← times[n]?) (← p[n]?)
    return p ++ [y]

/-- `dt` (simulation.rs 30). -/
def Config.dt (c : Config) : X64 := (c.tn.sub c.t0).div (X64.ofNat c.nSteps)

/-- `times` (simulation.rs 32-34). -/
def Config.times (c : Config) : List X64 := (List.range (c.nSteps + 1)).map fun t => c.t0.add (c.dt.mul (X64.ofNat t))

/-- Times and one path of `simulate_stochatic_process` (simulation.rs 28-70, 140-164): panics unless `t_0 < t_n`. -/
def simulate (sqrt : X64 → X64) (P : Process) (c : Config) (jumps : List X64) (noise : ℕ → X64) : Option (List X64 × List X64) :=
  if c.t0.lt c.tn then do
    return (c.times, ← run (step c.scheme P c.dt (sqrt c.dt) jumps noise) c.times c.x0 c.nSteps)
  else none

/-- `CoxIngersollRoss` (cox_ingersoll_ross.rs 43-54). -/
def cir (sqrt : X64 → X64) (mu sigma theta : X64 → X64) : Process :=
  ⟨fun x t => some ((theta t).mul ((mu t).sub x)), fun x t => if le zero (sigma t) then some ((sigma t).mul (sqrt x)) else none,
    fun _ _ _ => none⟩

/-- `ConstantElasticityOfVariance` (constant_elasticity_of_variance.rs 43-56). -/
def cev (powf : X64 → X64 → X64) (mu sigma elasticity : X64 → X64) : Process :=
  ⟨fun x t => some ((mu t).mul x), fun x t =>
    if le zero (sigma t) && (le zero (elasticity t) && le (elasticity t) (ofQ 1)) then some ((sigma t).mul (powf x (elasticity t))) else none,
    fun _ _ _ => none⟩

/-- `GeometricBrownianBridge` (geometric_brownian_bridge.rs 49-65). -/
def bridge (ln : X64 → X64) (mu sigma : X64 → X64) (endValue endTime : X64) : Process :=
  ⟨fun x t => some (((mu t).mul x).add ((((ln endValue).sub (ln x)).div (endTime.sub t)).mul x)),
    fun x t => if le zero (sigma t) then some ((sigma t).mul x) else none, fun _ _ _ => none⟩

/-- `t == 0.` (black_derman_toy.rs 53). -/
def isZero : X64 → Bool
  | fin a => decide (a.val = 0)
  | _ => false

/-- `diff` (black_derman_toy.rs 50-59); `root` stands for `f64::EPSILON.powf(1.0 / 3.0)`. -/
def diff (root : X64) (f : X64 → X64) (t : X64) : X64 :=
  let eps := if isZero t then root else root.mul t
  ((f (t.add eps)).sub (f (t.sub eps))).div ((ofQ 2).mul eps)

/-- `BlackDermanToy` (black_derman_toy.rs 32-43). -/
def blackDermanToy (root : X64) (sigma theta : X64 → X64) : Process :=
  ⟨fun x t => some ((theta t).add (((diff root sigma t).div (sigma t)).mul x)), fun _ t => some (sigma t), fun _ _ _ => none⟩

end Verif.Float.Paths
