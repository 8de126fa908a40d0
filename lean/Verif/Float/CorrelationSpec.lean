import Verif.Float.Correlation
import Mathlib.Analysis.Real.Sqrt

/-!
# What covariances, standard deviations and correlations of doubles should be

The data are lists of doubles; every other number here is a real number, computed without rounding.
-/

namespace Verif.Float.Corr

/-- A square root rounded correctly, as IEEE 754 requires: no double is nearer to the root. -/
def CorrectSqrt (sq : F64 → F64) : Prop :=
  ∀ x : F64, 0 ≤ x.val → ∀ y : F64, |((sq x).val : ℝ) - √(x.val : ℝ)| ≤ |(y.val : ℝ) - √(x.val : ℝ)|

/-- Data of ordinary size: zero, or between `2^-300` and `2^400` in absolute value. -/
def Tame (xs : List F64) : Prop := ∀ x ∈ xs, x.val = 0 ∨ (2 ^ (-300 : ℤ) ≤ |x.val| ∧ |x.val| ≤ 2 ^ (400 : ℤ))

/-- The mean of the data. -/
noncomputable def avg (xs : List F64) : ℝ := (xs.map fun x => (x.val : ℝ)).sum / xs.length

/-- The sum of the products of the deviations from the means. -/
noncomputable def codev (xs ys : List F64) : ℝ :=
  ((xs.zip ys).map fun p => ((p.1.val : ℝ) - avg xs) * ((p.2.val : ℝ) - avg ys)).sum

/-- The length of the vector of deviations from the mean. -/
noncomputable def spread (xs : List F64) : ℝ := √(xs.map fun x => ((x.val : ℝ) - avg xs) ^ 2).sum

/-- The sample standard deviation. -/
noncomputable def sd (xs : List F64) : ℝ := √((xs.map fun x => ((x.val : ℝ) - avg xs) ^ 2).sum / (xs.length - 1))

/-- The correlation coefficient. -/
noncomputable def rho (xs ys : List F64) : ℝ := codev xs ys / (spread xs * spread ys)

/-- The sensitivity of a list of data to rounding: how large the data are compared with their spread. -/
noncomputable def cond (xs : List F64) : ℝ := √xs.length * (xs.map fun x => |(x.val : ℝ)|).sum / spread xs

end Verif.Float.Corr
