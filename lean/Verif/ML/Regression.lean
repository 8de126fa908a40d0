import Mathlib.LinearAlgebra.Matrix.NonsingularInverse
import Mathlib.Data.Real.Basic

/-!
# Linear and ridge regression
(crates/RustQuant_ml/src/linear_regression.rs, crates/RustQuant_ml/src/ridge_regression.rs)

`f64` is modelled by `ℝ` and `DMatrix` by `Matrix (Fin m) (Fin n)`; the dimension checks of `nalgebra`,
which are made at run time, appear as comparisons of the dimensions.  `try_inverse` is exact: it fails
exactly when the determinant is zero.  The factors returned by `qr()` and `svd()` are arguments; the
theorems assume that they are factors of the matrix.
-/

namespace Verif.ML

open Matrix

/-- What a call ends with. Of `fit`, e.g. ridge_regression.rs 73. -/
inductive Result (α : Type) where
  | ok (a : α)
  /-- `Err(RustQuantError::MatrixInversionFailed)` -/
  | err
  | panic
  /-- `Ok` with entries that are not finite numbers -/
  | notFinite

open Classical in
/-- `DMatrix::try_inverse`. Called at ridge_regression.rs 90. -/
noncomputable def tryInverse {k : ℕ} (A : Matrix (Fin k) (Fin k) ℝ) :
    Option (Matrix (Fin k) (Fin k) ℝ) :=
  if A.det = 0 then none else some A⁻¹

/-- `insert_column(0, 1.)` (linear_regression.rs 95, ridge_regression.rs 76). -/
def withOnes {m n : ℕ} (x : Matrix (Fin m) (Fin n) ℝ) : Matrix (Fin m) (Fin (n + 1)) ℝ :=
  Matrix.of fun i => Fin.cons 1 (x i)

/-- `LinearRegressionOutput` (linear_regression.rs 39-46) and `RidgeRegressionOutput`
(ridge_regression.rs 45-50). -/
structure Fit (n : ℕ) where
  intercept : ℝ
  coefficients : Fin (n + 1) → ℝ

variable {m m' n : ℕ}

/-- `fit` with `Decomposition::None` (linear_regression.rs 99-114).  A response of the wrong length
is noticed by the product with it, after the inversion. -/
noncomputable def fitNone (x : Matrix (Fin m) (Fin n) ℝ) (y : Fin m' → ℝ) : Result (Fit n) :=
  match tryInverse ((withOnes x)ᵀ * withOnes x) with
  | none => .err
  | some inv =>
    if h : m = m' then
      let c := inv *ᵥ ((withOnes x)ᵀ *ᵥ (y ∘ Fin.cast h))
      .ok ⟨c 0, c⟩
    else .panic

/-- `fit` with `Decomposition::QR` (linear_regression.rs 115-131), given the factors.  `try_inverse`
panics on a matrix that is not square. -/
noncomputable def fitQr {r : ℕ} (Q : Matrix (Fin m) (Fin r) ℝ) (R : Matrix (Fin r) (Fin (n + 1)) ℝ)
    (y : Fin m' → ℝ) : Result (Fit n) :=
  if hr : n + 1 = r then
    match tryInverse (R.submatrix (Fin.cast hr) id) with
    | none => .err
    | some inv =>
      if h : m = m' then
        let c := (inv * (Q.submatrix id (Fin.cast hr))ᵀ) *ᵥ (y ∘ Fin.cast h)
        .ok ⟨c 0, c⟩
      else .panic
  else .panic

open Classical in
/-- `fit` with `Decomposition::SVD` (linear_regression.rs 132-152), given the factors (both are
requested, so neither is missing).  The reciprocal of a zero singular value is infinite. -/
noncomputable def fitSvd {r : ℕ} (U : Matrix (Fin m) (Fin r) ℝ) (s : Fin r → ℝ)
    (Vt : Matrix (Fin r) (Fin (n + 1)) ℝ) (y : Fin m' → ℝ) : Result (Fit n) :=
  if h : m = m' then
    if ∃ i, s i = 0 then .notFinite
    else
      let c := (Vtᵀ * Matrix.diagonal (fun i => 1 / s i) * Uᵀ) *ᵥ (y ∘ Fin.cast h)
      .ok ⟨c 0, c⟩
  else .panic

/-- `predict` (linear_regression.rs 159-167, ridge_regression.rs 110-115, and lasso.rs 141-149): the
first coefficient is dropped in favour of the intercept. -/
noncomputable def Fit.predict {r n' : ℕ} (f : Fit n) (input : Matrix (Fin r) (Fin n') ℝ) :
    Result (Fin r → ℝ) :=
  if h : n = n' then
    .ok (input *ᵥ ((fun j => f.coefficients (Fin.succ j)) ∘ Fin.cast h.symm) + fun _ => f.intercept)
  else .panic

/-- `RidgeRegressionInput::fit` (ridge_regression.rs 73-105).  `max_iter` and `tolerance` are fields
that it does not read. -/
noncomputable def fitRidge (x : Matrix (Fin m) (Fin n) ℝ) (y : Fin m' → ℝ) (lambda : ℝ)
    (fitIntercept : Bool) (_maxIter : ℕ) (_tolerance : ℝ) : Result (Fit n) :=
  if fitIntercept then
    let f := withOnes x
    let reg : Matrix (Fin (n + 1)) (Fin (n + 1)) ℝ := Matrix.diagonal (Fin.cons 0 fun _ => 1)
    match tryInverse (fᵀ * f + lambda • reg) with
    | none => .err
    | some inv =>
      if h : m = m' then
        let c := (inv * fᵀ) *ᵥ (y ∘ Fin.cast h)
        .ok ⟨c 0, c⟩
      else .panic
  else
    match tryInverse (xᵀ * x + lambda • (1 : Matrix (Fin n) (Fin n) ℝ)) with
    | none => .err
    | some inv =>
      if h : m = m' then
        .ok ⟨0, Fin.cons 0 ((inv * xᵀ) *ᵥ (y ∘ Fin.cast h))⟩
      else .panic

end Verif.ML
