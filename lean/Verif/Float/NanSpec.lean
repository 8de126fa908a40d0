import Verif.Float.NanPayoffs

/-! What the theorems about values that are not finite are stated with. -/

namespace Verif.Float.Nan

open X64

/-- What IEEE 754 asks of functions applied to NaN (`powf` with exponent zero is 1, also for NaN). -/
structure Propagates (exp ln : X64 → X64) (pow : X64 → X64 → X64) : Prop where
  exp : exp nan = nan
  ln : ln nan = nan
  pow : ∀ p : X64, p ≠ fin F64.zero → pow nan p = nan

/-- `exp` on finite values, and its continuation where that has no finite result. -/
def Extends (f : F64 → Option F64) (g : X64 → X64) : Prop := ∀ a b, f a = some b → g (fin a) = fin b

/-- Is it NaN? -/
def isNan : X64 → Bool
  | nan => true
  | _ => false

/-- The path with the NaN left out. -/
def known (path : List X64) : List X64 := path.filter fun x => !isNan x

/-- A number that is not negative, or `+∞`. -/
def Nonneg : X64 → Prop
  | fin a => 0 ≤ a.val
  | inf s => s = false
  | nan => False

end Verif.Float.Nan
