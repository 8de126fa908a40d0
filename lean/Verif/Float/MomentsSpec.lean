import Verif.Float.Moments
import Verif.Float.CorrelationSpec

/-!
# What the skewness and the kurtosis of doubles should be
-/

namespace Verif.Float.Corr

/-- The sample skewness (adjusted Fisher-Pearson coefficient) of `n` data, without rounding. -/
noncomputable def skew (xs : List F64) : ℝ :=
  xs.length / ((xs.length - 1) * (xs.length - 2)) * (xs.map fun x => (((x.val : ℝ) - avg xs) / sd xs) ^ 3).sum

/-- The sample excess kurtosis of `n` data, without rounding. -/
noncomputable def kurt (xs : List F64) : ℝ :=
  xs.length * (xs.length + 1) / ((xs.length - 1) * (xs.length - 2) * (xs.length - 3)) * (xs.map fun x => (((x.val : ℝ) - avg xs) / sd xs) ^ 4).sum -
    3 * (xs.length - 1) ^ 2 / ((xs.length - 2) * (xs.length - 3))

end Verif.Float.Corr
