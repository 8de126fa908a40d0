import Verif.ML.Regression
import Verif.ML.Activations

/-!
# Logistic regression (crates/RustQuant_ml/src/logistic_regression.rs)

`f64` is modelled by `ℝ`, so every entry is finite.  `lu().solve` is exact: it fails exactly when the
matrix is singular.  The loop of `fit` has no bound on its iterations; the model takes the number of
iterations it is followed for.
-/

namespace Verif.ML

open Matrix

variable {m n : ℕ}

/-- `LogisticRegressionInput::new` (logistic_regression.rs 84-88): `false` is a failed assertion. -/
def newLogistic {m' : ℕ} (_ : Matrix (Fin m) (Fin n) ℝ) (_ : Fin m' → ℝ) : Bool := decide (m = m')

/-- `f64::EPSILON`. Written at logistic_regression.rs 96. -/
noncomputable def epsilon : ℝ := 2 ^ (-52 : ℤ)

/-- The check of the responses in `prepare_input` (logistic_regression.rs 93-99): the condition under
which they are rejected. -/
def rejectsLabels (y : Fin m → ℝ) : Prop := ∃ i, |y i| < epsilon ∧ |y i - 1| < epsilon

/-- `x0_mean` and `x1_mean` (logistic_regression.rs 129-134): means over all samples of the features
masked by the responses and by their complements. -/
noncomputable def maskedMean (x : Matrix (Fin m) (Fin n) ℝ) (w : Fin m → ℝ) (j : Fin n) : ℝ :=
  (∑ i, x i j * w i) / m

open Classical in
/-- `prepare_output` (logistic_regression.rs 121-156): the first guess of the coefficients.  `none`:
they are not numbers, because `scaler` is zero divided by zero; without features there is no entry to
scale. -/
noncomputable def firstGuess (x : Matrix (Fin m) (Fin n) ℝ) (y : Fin m → ℝ) :
    Option (Fin (n + 1) → ℝ) :=
  let x0 := maskedMean x y
  let x1 := maskedMean x (fun i => -y i + 1)
  let delta := fun j => x1 j - x0 j
  let yMean := (∑ i, y i) / m
  let mid := fun j => x1 j * yMean + x0 j * (1 - yMean)
  if 0 < n ∧ ∀ j, delta j = 0 then none
  else
    let scaler := (∑ j, mid j * delta j) / ∑ j, delta j ^ 2
    let dir := fun j => delta j * scaler
    some (Fin.cons (-∑ j, dir j ^ 2) dir)

/-- How `fit` ends. See logistic_regression.rs 159. -/
inductive IrlsResult (n : ℕ) where
  | ok (coefficients : Fin (n + 1) → ℝ) (iterations : ℕ)
  /-- `Err` -/
  | err
  /-- coefficients that are not numbers -/
  | nan
  | panic
  /-- still iterating -/
  | running

/-- `mu` (logistic_regression.rs 196-197). -/
noncomputable def irlsMu (x : Matrix (Fin m) (Fin n) ℝ) (c : Fin (n + 1) → ℝ) : Fin m → ℝ :=
  Act.vector .logistic (withOnes x *ᵥ c)

/-- `hessian` (logistic_regression.rs 201, 209-211). -/
noncomputable def irlsHessian (x : Matrix (Fin m) (Fin n) ℝ) (mu : Fin m → ℝ) :
    Matrix (Fin (n + 1)) (Fin (n + 1)) ℝ :=
  Matrix.of (fun j i => (withOnes x) i j * (mu i * (1 - mu i))) * withOnes x

open Classical in
/-- The loop (logistic_regression.rs 189-223): `coefs` is the previous value of the coefficients, `out`
their present one. -/
noncomputable def irls (x : Matrix (Fin m) (Fin n) ℝ) (y : Fin m → ℝ) (tol : ℝ) :
    ℕ → (Fin (n + 1) → ℝ) → (Fin (n + 1) → ℝ) → ℕ → IrlsResult n
  | 0, _, _, _ => .running
  | fuel + 1, coefs, out, iterations =>
    if √(∑ j, (coefs j - out j) ^ 2) ≥ tol then
      let mu := irlsMu x out
      if ∀ i, y i - mu i < tol then .ok out iterations
      else
        let hessian := irlsHessian x mu
        let z := (withOnes x)ᵀ *ᵥ (y - mu)
        if hessian.det = 0 then .panic
        else irls x y tol fuel out (out + hessian⁻¹ *ᵥ z) (iterations + 1)
    else .ok out iterations

/-- `LogisticRegressionAlgorithm`. Declared at logistic_regression.rs 53. -/
inductive Algorithm | mle | irls

open Classical in
/-- `fit` (logistic_regression.rs 159-228), followed for at most `fuel` tests of the loop condition. -/
noncomputable def fitLogistic (x : Matrix (Fin m) (Fin n) ℝ) (y : Fin m → ℝ) (method : Algorithm)
    (tol : ℝ) (fuel : ℕ) : IrlsResult n :=
  if rejectsLabels y then .err
  else
    match method with
    | .mle => .panic
    | .irls =>
      match firstGuess x y with
      | none => .nan
      | some out => irls x y tol fuel (fun _ => 0) out 0

/-- `predict_proba` (logistic_regression.rs 243-251). -/
noncomputable def predictProba {r : ℕ} (c : Fin (n + 1) → ℝ) (input : Matrix (Fin r) (Fin n) ℝ) :
    Fin r → ℝ :=
  Act.vector .logistic fun i => (input *ᵥ fun j => c j.succ) i + c 0

open Classical in
/-- `predict` (logistic_regression.rs 234-239). -/
noncomputable def predictClass {r : ℕ} (c : Fin (n + 1) → ℝ) (input : Matrix (Fin r) (Fin n) ℝ) :
    Fin r → ℝ :=
  fun i => if predictProba c input i > 0.5 then 1 else 0

/-- `score_misclassification` (logistic_regression.rs 259-263), for arguments of one shape. -/
noncomputable def scoreMisclassification (y yHat : Fin m → ℝ) : ℝ := (∑ i, |y i - yHat i|) / m

/-- `score_cross_entropy` (logistic_regression.rs 271-282), for arguments of one shape. -/
noncomputable def scoreCrossEntropy (y p : Fin m → ℝ) : ℝ :=
  (∑ i, (y i * Real.log (p i) + (-y i + 1) * Real.log (-p i + 1))) / m

end Verif.ML
