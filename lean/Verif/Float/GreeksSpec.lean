import Verif.Float.Greeks
import Verif.Float.BlackScholesSpec

/-! What the theorems about rounded sensitivities are stated with. -/

namespace Verif.Float.Bsm

open Real Verif.Float.Sim Verif.Options

/-- `exp` of arguments from -500 down, where results may underflow, is right up to `δ` in absolute terms. -/
def Libm.Tail (m : Libm) (δ : ℝ) : Prop :=
  ∀ x, F64.real x ≤ -500 → ∃ y, m.exp x = some y ∧ |F64.real y - Real.exp (F64.real x)| ≤ δ

/-- The rates that occur as factors are zero or not below `2^-100` in size. -/
structure Exact.Rates (e : Exact) : Prop where
  r : e.r = 0 ∨ 2 ^ (-100 : ℤ) ≤ |e.r|
  yield : e.b - e.r = 0 ∨ 2 ^ (-100 : ℤ) ≤ |e.b - e.r|

/-- What every library does with infinities and NaN in `exp`. -/
structure XLibm.Ends (x : XLibm) : Prop where
  exp_neg_inf : x.exp (X64.inf true) = X64.fin F64.zero
  exp_nan : x.exp X64.nan = X64.nan
  sqrt_two_pi : ∀ a : F64, 6 < a.val → a.val < 7 → ∃ r : F64, 2 < r.val ∧ r.val < 3 ∧ x.sqrt (X64.fin a) = X64.fin r

end Verif.Float.Bsm
