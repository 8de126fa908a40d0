import Mathlib.Data.Matrix.Basic
import Mathlib.Data.Real.Basic
import Mathlib.Algebra.BigOperators.Fin
import Mathlib.Analysis.SpecialFunctions.Log.Basic

/-!
# What a regression is supposed to compute

Samples are the rows of `x`; `a` is an intercept and `b` the slopes.  Nothing here mentions the code.
-/

namespace Verif.ML.Spec

/-- The value of the affine function with intercept `a` and slopes `b` at the point `r`. -/
def affine {n : ℕ} (a : ℝ) (b : Fin n → ℝ) (r : Fin n → ℝ) : ℝ := a + ∑ j, r j * b j

/-- Residual sum of squares. -/
def rss {m n : ℕ} (x : Matrix (Fin m) (Fin n) ℝ) (y : Fin m → ℝ) (a : ℝ) (b : Fin n → ℝ) : ℝ :=
  ∑ i, (y i - affine a b (x i)) ^ 2

/-- Some affine function other than zero vanishes at every sample. -/
def Collinear {m n : ℕ} (x : Matrix (Fin m) (Fin n) ℝ) : Prop :=
  ∃ (a : ℝ) (b : Fin n → ℝ), (a ≠ 0 ∨ b ≠ 0) ∧ ∀ i, affine a b (x i) = 0

/-- The ridge objective: the penalty spares the intercept. -/
def ridge {m n : ℕ} (x : Matrix (Fin m) (Fin n) ℝ) (y : Fin m → ℝ) (l a : ℝ) (b : Fin n → ℝ) : ℝ :=
  rss x y a b + l * ∑ j, b j ^ 2

/-- The lasso objective: half the mean squared residual and a penalty on the absolute slopes. -/
noncomputable def lasso {m n : ℕ} (x : Matrix (Fin m) (Fin n) ℝ) (y : Fin m → ℝ) (l a : ℝ)
    (b : Fin n → ℝ) : ℝ :=
  rss x y a b / (2 * m) + l * ∑ j, |b j|

/-- The mean of the values of a feature, or zero when the features are not centred. -/
noncomputable def centre {m n : ℕ} (centred : Bool) (x : Matrix (Fin m) (Fin n) ℝ) (j : Fin n) : ℝ :=
  if centred then (∑ i, x i j) / m else 0

/-- Second moment of two features: their covariance when they are centred. -/
noncomputable def moment {m n : ℕ} (centred : Bool) (x : Matrix (Fin m) (Fin n) ℝ) (j k : Fin n) : ℝ :=
  (∑ i, (x i j - centre centred x j) * (x i k - centre centred x k)) / m

/-- Second moment of a feature and the responses. -/
noncomputable def crossMoment {m n : ℕ} (centred : Bool) (x : Matrix (Fin m) (Fin n) ℝ)
    (y : Fin m → ℝ) (j : Fin n) : ℝ :=
  (∑ i, (x i j - centre centred x j) * (y i - if centred then (∑ i, y i) / m else 0)) / m

/-- The probability that a sample is in class one under the logistic model. -/
noncomputable def prob {n : ℕ} (a : ℝ) (b : Fin n → ℝ) (r : Fin n → ℝ) : ℝ :=
  1 / (1 + Real.exp (-affine a b r))

/-- The log-likelihood of the logistic model: the sum of `y ln p + (1 - y) ln (1 - p)`. -/
noncomputable def logLik {m n : ℕ} (x : Matrix (Fin m) (Fin n) ℝ) (y : Fin m → ℝ) (a : ℝ)
    (b : Fin n → ℝ) : ℝ :=
  ∑ i, (y i * Real.log (prob a b (x i)) + (1 - y i) * Real.log (1 - prob a b (x i)))

/-- The total absolute product of two columns of the features with the column of ones put in front. -/
def absMoment {m n : ℕ} (x : Matrix (Fin m) (Fin n) ℝ) (j k : Fin (n + 1)) : ℝ :=
  ∑ i, |(Fin.cons 1 (x i) : Fin (n + 1) → ℝ) j| * |(Fin.cons 1 (x i) : Fin (n + 1) → ℝ) k|

end Verif.ML.Spec
