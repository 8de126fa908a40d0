import Mathlib.Analysis.Real.Sqrt
import Mathlib.Analysis.SpecialFunctions.Pow.Real
import Mathlib.Analysis.SpecialFunctions.Log.Basic
import Mathlib.Algebra.BigOperators.Group.Finset.Basic

/-!
# Model of path simulation

Source: `crates/RustQuant_stochastics/src/{process,simulation,fractional_process,model_parameter}.rs` and the process
files of the same crate. `f64` is an exact real; `none` is a panic or the value NaN. A `ModelParameter`
(model_parameter.rs 20-43) is a function of time, a constant being a constant function. The random number generators
are parameters (`Env`): everything proved holds for every choice of them.
-/

namespace Verif.Stochastics

open Classical

/-- `StochasticProcess` (process.rs 209-231): drift, diffusion and jump. `jump x t u` is the jump for the draw `u` of
the process's own, unseeded generator. -/
structure Process where
  drift : ℝ → ℝ → Option ℝ
  diffusion : ℝ → ℝ → Option ℝ
  jump : ℝ → ℝ → ℝ → Option ℝ

/-- `StochasticScheme` (process.rs 33-40). -/
inductive Scheme | eulerMaruyama | milstein | strangSplitting
  deriving DecidableEq

/-- `StochasticProcessConfig` (process.rs 124-148). -/
structure Config where
  x0 : ℝ
  t0 : ℝ
  tn : ℝ
  nSteps : ℕ
  scheme : Scheme
  mPaths : ℕ
  parallel : Bool
  seed : Option ℕ

/-- `Trajectories` (process.rs 23-29). -/
structure Trajectories where
  times : List ℝ
  paths : List (List ℝ)

/-- The generators used. `normals s k`: the `k`-th standard normal drawn from `StdRng::seed_from_u64(s)`.
`entropy`: the `u64` of `rand::random()`. `cholesky`/`fft`: the two fractional noise generators
(fractional_process.rs 81-142) for a Hurst index, a length, a horizon, the seed passed and, where they draw fresh
entropy, the path they are called for. `poisson mean n`: the unseeded Poisson sample (poisson.rs 255-274).
`draw i t`: the draw of the process's own generator for path `i` in step `t`. -/
structure Env where
  normals : ℕ → ℕ → ℝ
  entropy : ℕ
  cholesky : ℝ → ℕ → ℝ → Option ℕ → ℕ → List ℝ
  fft : ℝ → ℕ → ℝ → ℕ → List ℝ
  poisson : ℝ → ℕ → List ℝ
  draw : ℕ → ℕ → ℝ

/-- `FractionalProcessGeneratorMethod` (fractional_process.rs 23-28). -/
inductive Method | cholesky | fft
  deriving DecidableEq

/-- `fgn_cholesky`, `fgn_fft` as used at fractional_process.rs 37-41: the Cholesky generator seeds itself with the seed
if there is one (lines 83-86), the FFT generator ignores it (line 98). -/
def fgn (env : Env) (m : Method) (hurst : ℝ) (n : ℕ) (tn : ℝ) (seed : Option ℕ) (i : ℕ) : List ℝ :=
  match m with
  | .cholesky => match seed with
    | some s => env.cholesky hurst n tn (some s) 0
    | none => env.cholesky hurst n tn none i
  | .fft => env.fft hurst n tn i

/-- `NoiseGenerator` (simulation.rs 17-20): a generator, or the vector of fractional noise. -/
inductive Noise | dynamic (z : ℕ → ℝ) | fractional (w : List ℝ)

/-- The noise used in step `t` (simulation.rs 51-56, 62-65, 76-81, 85-88, 112-117, 126-129). -/
def Noise.at (g : Noise) (t : ℕ) : Option ℝ :=
  match g with
  | .dynamic z => some (z t)
  | .fractional w => w[t]?

/-- `dt` (simulation.rs 30). -/
noncomputable def Config.dt (c : Config) : ℝ := (c.tn - c.t0) / c.nSteps

/-- `times` (simulation.rs 32-34). -/
noncomputable def Config.times (c : Config) : List ℝ := (List.range (c.nSteps + 1)).map fun t : ℕ => c.t0 + c.dt * (t : ℝ)

/-- The time of step `t` (an index in range, simulation.rs 36). -/
noncomputable def Config.time (c : Config) (t : ℕ) : ℝ := c.t0 + c.dt * t

/-- `calculate_jump` (simulation.rs 167-183). -/
noncomputable def calculateJump (P : Process) (x t u jump : ℝ) : ℝ :=
  match P.jump x t u with
  | some size => if 0 < jump then size else 0
  | none => 0

/-- The jump term of a step (simulation.rs 65-68, 100-103, 130-133). -/
noncomputable def jumpTerm (P : Process) (jumps : List ℝ) (x time u : ℝ) (t : ℕ) : Option ℝ :=
  if jumps = [] then some 0 else jumps[t]?.map fun j => calculateJump P x time u j

/-- One Euler-Maruyama step (simulation.rs 58-70). -/
noncomputable def emStep (P : Process) (c : Config) (jumps : List ℝ) (g : Noise) (u : ℕ → ℝ) (t : ℕ) (x : ℝ) : Option ℝ :=
  (P.drift x (c.time t)).bind fun a => (P.diffusion x (c.time t)).bind fun b => (g.at t).bind fun z =>
    (jumpTerm P jumps x (c.time t) (u t) t).map fun j => x + a * c.dt + b * √c.dt * z + j

/-- One Milstein step (simulation.rs 84-105). -/
noncomputable def milsteinStep (P : Process) (c : Config) (jumps : List ℝ) (g : Noise) (u : ℕ → ℝ) (t : ℕ) (x : ℝ) :
    Option ℝ :=
  (g.at t).bind fun dw => (P.drift x (c.time t)).bind fun a => (P.diffusion x (c.time t)).bind fun b =>
    (P.diffusion (x + 1 / 100000) (c.time t)).bind fun b1 => (P.diffusion (x - 1 / 100000) (c.time t)).bind fun b2 =>
      (jumpTerm P jumps x (c.time t) (u t) t).map fun j =>
        x + a * c.dt + b * dw + 1 / 2 * (b * ((b1 - b2) / 2 * (1 / 100000)) * (dw * dw - c.dt)) + j

/-- One Strang splitting step (simulation.rs 119-135). -/
noncomputable def strangStep (P : Process) (c : Config) (jumps : List ℝ) (g : Noise) (u : ℕ → ℝ) (t : ℕ) (x : ℝ) :
    Option ℝ :=
  (P.drift x (c.time t)).bind fun a =>
    (P.diffusion (x + 1 / 2 * a * c.dt) (c.time t + 1 / 2 * c.dt)).bind fun b => (g.at t).bind fun z =>
      (jumpTerm P jumps x (c.time t) (u t) t).map fun j =>
        x + 1 / 2 * a * c.dt + b * z + 1 / 2 * a * c.dt + j

/-- The step of the configured scheme (simulation.rs 47-138). -/
noncomputable def stepOf (P : Process) (c : Config) (jumps : List ℝ) (g : Noise) (u : ℕ → ℝ) (t : ℕ) (x : ℝ) : Option ℝ :=
  match c.scheme with
  | .eulerMaruyama => emStep P c jumps g u t x
  | .milstein => milsteinStep P c jumps g u t x
  | .strangSplitting => strangStep P c jumps g u t x

/-- `path.push(step(path[t]))` (simulation.rs 59-69, 89-104, 120-134) where `t + 1` is the length of the path so far. -/
noncomputable def push (step : ℕ → ℝ → Option ℝ) (p : List ℝ) : Option (List ℝ) :=
  (p[p.length - 1]?).bind fun x => (step (p.length - 1) x).map fun y => p ++ [y]

/-- `for t in 0..n { path.push(..) }` (simulation.rs 58-70, 84-105, 119-135). -/
noncomputable def runPath (step : ℕ → ℝ → Option ℝ) : ℕ → List ℝ → Option (List ℝ)
  | 0, p => some p
  | n + 1, p => (runPath step n p).bind (push step)

/-- Collect the results of the paths (simulation.rs 143-164): one panic makes the run panic. -/
def allSome {α : Type} : List (Option α) → Option (List α)
  | [] => some []
  | a :: l => a.bind fun x => (allSome l).map (x :: ·)

/-- The noise generator of path `i` (simulation.rs 142-159): the `u64` seeds wrap around. -/
def noiseOf (env : Env) (c : Config) (frac : Option (Method × ℝ)) (i : ℕ) : Noise :=
  match frac with
  | some (m, hurst) => .fractional (fgn env m hurst c.nSteps c.tn c.seed i)
  | none => .dynamic (env.normals ((c.seed.getD env.entropy + i) % 2 ^ 64))

/-- The parallel run (simulation.rs 143-150): at each moment the worker of the named path performs its next push; the slots are
disjoint. A slot is `none` once its task has panicked. -/
noncomputable def exec (step : ℕ → ℕ → ℝ → Option ℝ) : List ℕ → (ℕ → Option (List ℝ)) → ℕ → Option (List ℝ)
  | [], s => s
  | i :: l, s => exec step l (Function.update s i ((s i).bind (push (step i))))

/-- The vector of jump counts (simulation.rs 40-45): `None` (a panic) if the intensity is not positive or there are no
steps. -/
noncomputable def jumpVec (env : Env) (c : Config) (jc : Option ℝ) : Option (List ℝ) :=
  match jc with
  | some lambda => if 0 < lambda * c.dt ∧ 0 < c.nSteps then some (env.poisson (lambda * c.dt) c.nSteps) else none
  | none => some []

/-- `simulate_stochatic_process` (simulation.rs 22-165). In parallel mode `sched` is the interleaving of the workers;
otherwise the paths are filled one after the other. -/
noncomputable def simulate (env : Env) (P : Process) (c : Config) (jc : Option ℝ) (frac : Option (Method × ℝ))
    (sched : List ℕ) : Option Trajectories :=
  if c.t0 < c.tn then
    (jumpVec env c jc).bind fun jumps =>
      let step := fun i => stepOf P c jumps (noiseOf env c frac i) (env.draw i)
      (allSome ((List.range c.mPaths).map fun i =>
        if c.parallel then exec step sched (fun _ => some [c.x0]) i else runPath (step i) c.nSteps [c.x0])).map
        fun ps => ⟨c.times, ps⟩
  else none

/-- A schedule of the parallel run (simulation.rs 143-150) performs exactly `n` pushes for each of the `m` paths. -/
def ValidSched (c : Config) (sched : List ℕ) : Prop := ∀ i < c.mPaths, sched.count i = c.nSteps

/-! ### The processes -/

/-- `assert!(p >= 0.0)` followed by the value (e.g. arithmetic_brownian_motion.rs 38-42). -/
noncomputable def assertNonneg (p v : ℝ) : Option ℝ := if 0 ≤ p then some v else none

/-- No jump (all processes but Merton's and the fractional Cox-Ingersoll-Ross process; e.g. brownian_motion.rs 39-41). -/
def noJump : ℝ → ℝ → ℝ → Option ℝ := fun _ _ _ => none

/-- `ArithmeticBrownianMotion` (arithmetic_brownian_motion.rs 32-51). -/
noncomputable def arithmeticBrownianMotion (mu sigma : ℝ → ℝ) : Process where
  drift _ t := some (mu t)
  diffusion _ t := assertNonneg (sigma t) (sigma t)
  jump := noJump

/-- `BrownianMotion` (brownian_motion.rs 30-46). -/
def brownianMotion : Process where
  drift _ _ := some 0
  diffusion _ _ := some 1
  jump := noJump

/-- `GeometricBrownianMotion` (geometric_brownian_motion.rs 44-63). -/
noncomputable def geometricBrownianMotion (mu sigma : ℝ → ℝ) : Process where
  drift x t := some (mu t * x)
  diffusion x t := assertNonneg (sigma t) (sigma t * x)
  jump := noJump

/-- `ConstantElasticityOfVariance` (constant_elasticity_of_variance.rs 42-61). A negative base gives NaN for
non-integer exponents; simplified to `none` for every negative base. -/
noncomputable def constantElasticityOfVariance (mu sigma elasticity : ℝ → ℝ) : Process where
  drift x t := some (mu t * x)
  diffusion x t := if 0 ≤ sigma t ∧ 0 ≤ elasticity t ∧ elasticity t ≤ 1 ∧ 0 ≤ x then
    some (sigma t * x ^ elasticity t) else none
  jump := noJump

/-- `CoxIngersollRoss` (cox_ingersoll_ross.rs 42-59); the square root of a negative number is NaN. -/
noncomputable def coxIngersollRoss (mu sigma theta : ℝ → ℝ) : Process where
  drift x t := some (theta t * (mu t - x))
  diffusion x t := if 0 ≤ sigma t ∧ 0 ≤ x then some (sigma t * √x) else none
  jump := noJump

/-- `OrnsteinUhlenbeck` (ornstein_uhlenbeck.rs 41-58). -/
noncomputable def ornsteinUhlenbeck (mu sigma theta : ℝ → ℝ) : Process where
  drift x t := some (theta t * (mu t - x))
  diffusion _ t := assertNonneg (sigma t) (sigma t)
  jump := noJump

/-- `ExtendedVasicek` and `HullWhite` (extended_vasicek.rs 40-56, hull_white.rs 40-56). -/
noncomputable def hullWhite (alpha sigma theta : ℝ → ℝ) : Process where
  drift x t := some (theta t - alpha t * x)
  diffusion _ t := some (sigma t)
  jump := noJump

/-- `HoLee` (ho_lee.rs 32-50). -/
noncomputable def hoLee (sigma theta : ℝ → ℝ) : Process where
  drift _ t := assertNonneg (theta t) (theta t)
  diffusion _ t := assertNonneg (sigma t) (sigma t)
  jump := noJump

/-- `diff` (black_derman_toy.rs 51-59): central difference; `EPSILON = 2⁻⁵²`. -/
noncomputable def diff (f : ℝ → ℝ) (t : ℝ) : ℝ :=
  let eps := if t = 0 then ((1:ℝ) / 2 ^ 52) ^ ((1:ℝ) / 3) else ((1:ℝ) / 2 ^ 52) ^ ((1:ℝ) / 3) * t
  (f (t + eps) - f (t - eps)) / (2 * eps)

/-- `BlackDermanToy` (black_derman_toy.rs 32-48); a zero volatility makes the drift infinite or NaN. -/
noncomputable def blackDermanToy (sigma theta : ℝ → ℝ) : Process where
  drift x t := if sigma t = 0 then none else some (theta t + diff sigma t / sigma t * x)
  diffusion _ t := some (sigma t)
  jump := noJump

/-- `GeometricBrownianBridge` (geometric_brownian_bridge.rs 49-75); logarithms of non-positive numbers and a zero time
to the end give NaN or infinities. -/
noncomputable def geometricBrownianBridge (mu sigma : ℝ → ℝ) (endValue endTime : ℝ) : Process where
  drift x t := if 0 < endValue ∧ 0 < x ∧ t ≠ endTime then
    some (mu t * x + (Real.log endValue - Real.log x) / (endTime - t) * x) else none
  diffusion x t := assertNonneg (sigma t) (sigma t * x)
  jump := noJump

/-- `MertonJumpDiffusion` (merton_jump_diffusion.rs 57-78); `u` is the Gaussian jump size drawn. -/
noncomputable def mertonJumpDiffusion (mu sigma : ℝ → ℝ) : Process where
  drift x t := some (mu t * x)
  diffusion x t := assertNonneg (sigma t) (sigma t * x)
  jump _ _ u := some u

/-- `FractionalBrownianMotion` (fractional_brownian_motion.rs 43-63). -/
def fractionalBrownianMotion : Process := brownianMotion

/-- `FractionalCoxIngersollRoss` (fractional_cox_ingersoll_ross.rs 54-79). -/
noncomputable def fractionalCoxIngersollRoss (mu sigma theta : ℝ → ℝ) : Process where
  drift x t := some (theta t * (mu t - x))
  diffusion x t := if 0 ≤ x then some (sigma t * √x) else none
  jump _ _ _ := some 0

/-- `FractionalOrnsteinUhlenbeck` (fractional_ornstein_uhlenbeck.rs 54-80). -/
noncomputable def fractionalOrnsteinUhlenbeck (mu sigma theta : ℝ → ℝ) : Process := ornsteinUhlenbeck mu sigma theta

/-- `StochasticProcess::generate` (process.rs 225-230): no jumps, seeded generators. -/
noncomputable def generate (env : Env) (P : Process) (c : Config) (sched : List ℕ) : Option Trajectories :=
  simulate env P c none none sched

/-- `MertonJumpDiffusion::generate` (merton_jump_diffusion.rs 75-77). -/
noncomputable def generateMerton (env : Env) (mu sigma lambda : ℝ → ℝ) (c : Config) (sched : List ℕ) :
    Option Trajectories :=
  simulate env (mertonJumpDiffusion mu sigma) c (some (lambda 0)) none sched

/-- `simulate_fractional_stochastic_process` (fractional_process.rs 31-42). -/
noncomputable def generateFractional (env : Env) (P : Process) (m : Method) (hurst : ℝ) (c : Config) (sched : List ℕ) :
    Option Trajectories :=
  simulate env P c none (some (m, hurst)) sched

/-- `acf_vector` (fractional_process.rs 45-59). -/
noncomputable def acf (hurst : ℝ) (i : ℕ) : ℝ :=
  if i = 0 then 1
  else 1 / 2 * (((i : ℝ) + 1) ^ (2 * hurst) - 2 * (i : ℝ) ^ (2 * hurst) + ((i : ℝ) - 1) ^ (2 * hurst))

/-- `fgn_cholesky` (fractional_process.rs 81-95): entry `t` of the noise vector, for a square root `L` of the
autocovariance matrix (the lower Cholesky factor computed by nalgebra, lines 62-78) and the normals `z`. -/
noncomputable def fgnCholesky (L : ℕ → ℕ → ℝ) (hurst : ℝ) (n : ℕ) (tn : ℝ) (z : ℕ → ℝ) (t : ℕ) : ℝ :=
  (∑ j ∈ Finset.range n, L t j * z j) * (1 * tn / n) ^ hurst

/-- `StochasticVolatilityProcess::euler_maruyama` (process.rs 57-112), one path: the normals `z` are scaled by
`√dt` and used for both components; only the first is returned. -/
noncomputable def svPath (drift1 drift2 diffusion1 diffusion2 : ℝ → ℝ → ℝ) (z : ℕ → ℝ) (t0 dt : ℝ) :
    ℕ → ℝ × ℝ → List (ℝ × ℝ)
  | 0, p => [p]
  | n + 1, p =>
    let q := svPath drift1 drift2 diffusion1 diffusion2 z t0 dt n p
    let xy := q.getLastD p
    q ++ [(xy.1 + drift1 xy.1 (t0 + dt * n) * dt + diffusion1 xy.1 (t0 + dt * n) * (z n * √dt),
      xy.2 + drift2 xy.2 (t0 + dt * n) * dt + diffusion2 xy.2 (t0 + dt * n) * (z n * √dt))]

/-- All paths of `StochasticVolatilityProcess::euler_maruyama` (process.rs 57-112); `z i` are the normals drawn for
path `i`. -/
noncomputable def svEulerMaruyama (drift1 drift2 diffusion1 diffusion2 : ℝ → ℝ → ℝ) (z : ℕ → ℕ → ℝ) (x0 y0 t0 tn : ℝ)
    (n m : ℕ) : Option Trajectories :=
  if t0 < tn then
    some ⟨(List.range (n + 1)).map fun t : ℕ => t0 + (tn - t0) / n * (t : ℝ),
      (List.range m).map fun i =>
        (svPath drift1 drift2 diffusion1 diffusion2 (z i) t0 ((tn - t0) / n) n (x0, y0)).map Prod.fst⟩
  else none

end Verif.Stochastics
