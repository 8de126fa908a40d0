import Verif.Time.Date
import Mathlib.Order.Defs.LinearOrder
import Mathlib.Tactic.Common

/-!
# The derived order of `time::Date` is a linear order
-/

namespace Verif.Time

/-- The order of `Date.lean` (year, then ordinal) is linear. -/
instance : LinearOrder Date where
  le := fun a b => a ≤ b
  lt := fun a b => a < b
  le_refl a := Or.inr rfl
  le_trans a b c h1 h2 := by rw [Date.le_iff] at *; omega
  lt_iff_le_not_ge a b := by rw [Date.le_iff, Date.le_iff, Date.lt_iff]; omega
  le_antisymm a b h1 h2 := by rw [Date.le_iff] at *; exact Date.dayNum_inj (by omega)
  le_total a b := by rw [Date.le_iff, Date.le_iff]; omega
  toDecidableLE := inferInstance
  toDecidableLT := inferInstance
  toDecidableEq := inferInstance

end Verif.Time
