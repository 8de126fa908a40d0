import Verif.Float.Sorting
import Mathlib.Data.EReal.Basic

/-! What the theorems about data with NaN are stated with. -/

namespace Verif.Float.Sorting

open X64

/-- The value of what is not NaN. -/
noncomputable def value : X64 → EReal
  | fin a => ((a.val : ℝ) : EReal)
  | inf s => if s then ⊥ else ⊤
  | nan => 0

end Verif.Float.Sorting
