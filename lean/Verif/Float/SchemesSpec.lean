import Verif.Float.Schemes
import Verif.Float.SimulationSpec

/-! What the theorems about the Milstein and Strang-splitting schemes are stated with, beside `SimulationSpec`. -/

namespace Verif.Float.Sim

/-- The Strang-splitting recursion in exact arithmetic, with drift `b`, diffusion `s`, step `dt`, times `time`, times of the middle of
the steps `mid`, and noise `z`: half a step of drift, the noise, another half step of (the same) drift. -/
noncomputable def strangExact (b s : F64 → ℝ → ℝ) (dt : ℝ) (time mid z : ℕ → F64) (x0 : ℝ) : ℕ → ℝ
  | 0 => x0
  | k + 1 =>
    let x := strangExact b s dt time mid z x0 k
    x + b (time k) x * dt + s (mid k) (x + b (time k) x * dt / 2) * F64.real (z k)

/-- A bound on everything that is added up to the `k`-th value, when the drift is at most `B * |x| + C` in size and the diffusion at
most `S * |x| + T`. -/
noncomputable def strangSize (B C S T dt : ℝ) (z : ℕ → F64) (x0 : ℝ) : ℕ → ℝ
  | 0 => |x0| + 2 ^ (-900 : ℤ)
  | k + 1 =>
    let m := strangSize B C S T dt z x0 k
    m + (B * m + C) * dt + (S * (m + (B * m + C) * dt / 2) + T) * |F64.real (z k)|

/-- The Euler-Maruyama scheme with the noise as it comes, not multiplied by the square root of the time step: the value at step `k + 1`
is `x + drift * dt + diffusion * noise`, rounded after every operation. -/
def unscaledStep (P : Process) (dt time z x : F64) : Option F64 := do
  let q ← x.add (← (← P.drift x time).mul dt)
  q.add (← (← P.diffusion x time).mul z)

/-- The diffusion does not depend on the value. -/
def Additive (P : Process) : Prop := ∀ x y t, P.diffusion x t = P.diffusion y t

/-- What the code's Milstein step is in exact arithmetic, with drift `b`, diffusion `s`, step `h` and noise `z`: the difference of the two
diffusions is divided by 2 and multiplied by `10^-5`. -/
noncomputable def milsteinExact (b s : F64 → ℝ → ℝ) (h z : ℝ) (t : F64) (x : ℝ) : ℝ :=
  x + b t x * h + s t x * z + 1 / 2 * (s t x * ((s t (x + 1 / 100000) - s t (x - 1 / 100000)) / 2 * (1 / 100000)) * (z * z - h))

/-- A bound on everything that is added in a Milstein step from `x`. `2^-200` stands for the sizes at which underflow may matter. -/
noncomputable def milsteinSize (B C S T h z x : ℝ) : ℝ :=
  let A := S * (|x| + 1) + T + 2 ^ (-200 : ℤ)
  |x| + (B * (|x| + 1) + C + 2 ^ (-200 : ℤ)) * h + A * |z| + A * A / 100000 * (z * z + h + 2 ^ (-200 : ℤ)) + 2 ^ (-200 : ℤ)

end Verif.Float.Sim
