import Verif.Float.Paths

/-! What paths beyond the finite numbers should be (C117). -/

namespace Verif.Float.Paths

open X64

/-- A number. -/
def Finite : X64 → Prop
  | fin _ => True
  | _ => False

/-- What IEEE 754 asks of the square root, the logarithm and powers of negative numbers and of zero. -/
structure Ieee (sqrt ln : X64 → X64) (powf : X64 → X64 → X64) : Prop where
  sqrt_neg : ∀ a : F64, a.val < 0 → sqrt (fin a) = nan
  sqrt_one : sqrt (ofQ 1) = ofQ 1
  ln_neg : ∀ a : F64, a.val < 0 → ln (fin a) = nan
  ln_zero : ∀ a : F64, a.val = 0 → ln (fin a) = inf true
  pow_neg : ∀ a e : F64, a.val < 0 → 0 < e.val → e.val < 1 → powf (fin a) (fin e) = nan

end Verif.Float.Paths
