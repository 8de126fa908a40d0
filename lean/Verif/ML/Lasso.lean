import Verif.ML.Regression

/-!
# Lasso regression (crates/RustQuant_ml/src/lasso.rs)

`f64` is modelled by `ℝ`.  The responses are taken to be as many as the samples: `LassoInput::new` does
not check this, and `fit` panics on the first product of vectors of different lengths.  Division by
zero has the value zero here; when the penalty is not negative and there is a sample the code does not
divide by zero.
-/

namespace Verif.ML

variable {m n : ℕ}

/-- `mean()` of a column of `nalgebra`. Called at lasso.rs 79, 91 and 126. -/
noncomputable def colMean (v : Fin m → ℝ) : ℝ := (∑ i, v i) / m

/-- The variables changed by the loop of `fit` (lasso.rs 76, 94, 97). -/
structure LassoState (m n : ℕ) where
  coefs : Fin n → ℝ
  residuals : Fin m → ℝ
  maxDelta : ℝ

open Classical in
/-- One step of the inner loop (lasso.rs 98-118) for column `j` of the matrix `A`. -/
noncomputable def lassoCoord (A : Matrix (Fin m) (Fin n) ℝ) (lambda : ℝ) (s : LassoState m n)
    (j : Fin n) : LassoState m n :=
  let colNorm := ∑ i, A i j * A i j
  let rho := (∑ i, s.residuals i * A i j + s.coefs j * colNorm) / m
  let new :=
    if rho < -lambda then (rho + lambda) / (colNorm / m)
    else if rho > lambda then (rho - lambda) / (colNorm / m)
    else 0
  let delta := new - s.coefs j
  { coefs := Function.update s.coefs j new
    residuals := if |delta| > 0 then fun i => s.residuals i - A i j * delta else s.residuals
    maxDelta := max s.maxDelta |delta| }

/-- One round of the outer loop (lasso.rs 97-119). -/
noncomputable def lassoSweep (A : Matrix (Fin m) (Fin n) ℝ) (lambda : ℝ) (s : LassoState m n) :
    LassoState m n :=
  (List.finRange n).foldl (lassoCoord A lambda) { s with maxDelta := 0 }

open Classical in
/-- The outer loop (lasso.rs 96-123). -/
noncomputable def lassoLoop (A : Matrix (Fin m) (Fin n) ℝ) (lambda tolerance : ℝ) :
    ℕ → LassoState m n → LassoState m n
  | 0, s => s
  | k + 1, s =>
    if (lassoSweep A lambda s).maxDelta < tolerance then lassoSweep A lambda s
    else lassoLoop A lambda tolerance k (lassoSweep A lambda s)

/-- The features the loop works on (lasso.rs 75, 77-90). -/
noncomputable def lassoFeatures (x : Matrix (Fin m) (Fin n) ℝ) (fitIntercept : Bool) :
    Matrix (Fin m) (Fin n) ℝ :=
  if fitIntercept then Matrix.of fun i j => x i j - colMean (fun i => x i j) else x

/-- The residuals the loop starts with (lasso.rs 76, 91). -/
noncomputable def lassoTargets (y : Fin m → ℝ) (fitIntercept : Bool) : Fin m → ℝ :=
  if fitIntercept then fun i => y i - colMean y else y

/-- `LassoInput::fit` (lasso.rs 72-136). -/
noncomputable def fitLasso (x : Matrix (Fin m) (Fin n) ℝ) (y : Fin m → ℝ) (lambda : ℝ)
    (fitIntercept : Bool) (maxIter : ℕ) (tolerance : ℝ) : Fit n :=
  let s := lassoLoop (lassoFeatures x fitIntercept) lambda tolerance maxIter
    ⟨fun _ => 0, lassoTargets y fitIntercept, 0⟩
  let intercept :=
    if fitIntercept then colMean y - ∑ j, colMean (fun i => x i j) * s.coefs j else 0
  ⟨intercept, Fin.cons intercept s.coefs⟩

end Verif.ML
