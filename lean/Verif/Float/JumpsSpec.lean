import Verif.Float.Jumps
import Verif.Float.SimulationSpec

/-! What paths with jumps should be (C116). -/

namespace Verif.Float.Sim

/-- The jump of step `k`: the size drawn for that step if the sampled number of jumps is positive, otherwise none. -/
noncomputable def jumpOf (counts : List F64) (sizes : ℕ → F64) (k : ℕ) : ℝ :=
  match counts[k]? with
  | some n => if 0 < F64.real n then F64.real (sizes k) else 0
  | none => 0

/-- The Euler-Maruyama recursion with jumps `J` in exact arithmetic. -/
noncomputable def eulerJumps (b s : F64 → ℝ → ℝ) (dt scale : ℝ) (time z : ℕ → F64) (J : ℕ → ℝ) (x0 : ℝ) : ℕ → ℝ
  | 0 => x0
  | k + 1 =>
    let x := eulerJumps b s dt scale time z J x0 k
    x + b (time k) x * dt + s (time k) x * scale * F64.real (z k) + J k

/-- A bound on everything that is added up to the `k`-th value, jumps included. -/
noncomputable def sizeJumps (B C S T dt scale : ℝ) (z : ℕ → F64) (J : ℕ → ℝ) (x0 : ℝ) : ℕ → ℝ
  | 0 => |x0| + 2 ^ (-900 : ℤ)
  | k + 1 =>
    let m := sizeJumps B C S T dt scale z J x0 k
    m + (B * m + C) * dt + (S * m + T) * scale * |F64.real (z k)| + |J k|

end Verif.Float.Sim
