import Verif.Float.Bachelier
import Verif.Float.GreeksSpec
import Verif.Float.GreeksLemmas

/-! What the theorems about rounded Bachelier prices are stated with. -/

namespace Verif.Float.Bach

open Real Verif.Float.Sim Verif.Options
open Verif.Float.Bsm (Phi density)

/-- Forward, strike, time, rate and volatility as real numbers. -/
structure Exact where
  f : ℝ
  k : ℝ
  t : ℝ
  r : ℝ
  v : ℝ

namespace Exact

variable (e : Exact)

/-- The standard deviation of the forward at expiry. -/
noncomputable def width : ℝ := e.v * √e.t

/-- The moneyness in standard deviations. -/
noncomputable def d : ℝ := (e.f - e.k) / e.width

/-- The discount factor. -/
noncomputable def df : ℝ := exp (-e.r * e.t)

/-- Bachelier's formula. -/
noncomputable def price : TypeFlag → ℝ
  | .call => e.df * ((e.f - e.k) * Phi e.d + e.width * density e.d)
  | .put => e.df * ((e.k - e.f) * Phi (-e.d) + e.width * density e.d)

/-- The scale of the undiscounted price. -/
noncomputable def scale : ℝ := |e.f - e.k| + e.width

/-- The undiscounted derivative in the forward. -/
noncomputable def delta : TypeFlag → ℝ
  | .call => Phi e.d
  | .put => Phi e.d - 1

/-- Volatility and time within `2^±100`, strike equal to the forward or away from it by `2^±200`, exponent up to 300. -/
structure Ordinary : Prop where
  v : 2 ^ (-100 : ℤ) ≤ e.v ∧ e.v ≤ 2 ^ 100
  t : 2 ^ (-100 : ℤ) ≤ e.t ∧ e.t ≤ 2 ^ 100
  gap : e.f = e.k ∨ 2 ^ (-200 : ℤ) ≤ |e.f - e.k| ∧ |e.f - e.k| ≤ 2 ^ 200
  exponent : |e.r| * e.t ≤ 300

end Exact

/-- The numbers a price is asked for. -/
noncomputable def Model.exact (o : Model) (k t : F64) : Exact :=
  ⟨F64.real o.f, F64.real k, F64.real t, F64.real o.r, F64.real o.v⟩

/-- No width: a zero time to expiry or a zero volatility, with forward and strike not further apart than `2^500`. -/
structure Flat (x : Bsm.XLibm) (o : Model) (k t : F64) : Prop where
  zero : t = F64.zero ∧ 0 ≤ o.v.val ∨ o.v = F64.zero ∧ ∃ s, x.sqrt (X64.fin t) = X64.fin s
  gap : |o.f.val - k.val| ≤ 2 ^ 500

end Verif.Float.Bach
