import Mathlib.Analysis.SpecialFunctions.Pow.Real
import Mathlib.Analysis.SpecialFunctions.Sqrt
import Mathlib.Data.Matrix.Basic

/-!
# Classification by nearest neighbours (crates/RustQuant_ml/src/k_nearest_neighbors.rs)

`f64` is modelled by `ℝ`, so distances can always be compared.  The order of a Minkowski metric is
taken to be a natural number; the theorems ask for a positive one.  `slice::sort_by` is stable, as is
`List.mergeSort`.
-/

namespace Verif.ML

variable {m n : ℕ}

/-- `Metric` (k_nearest_neighbors.rs 43-53). -/
inductive Metric | euclidean | manhattan | minkowski (p : ℕ)

/-- The distance of `nalgebra::LpNorm`. Called at k_nearest_neighbors.rs 133 and 138. -/
noncomputable def lpDist (p : ℕ) (u v : Fin n → ℝ) : ℝ :=
  (∑ j, |u j - v j| ^ p) ^ ((1 : ℝ) / p)

/-- The distance computed in `find_neighbors` (k_nearest_neighbors.rs 127-139). -/
noncomputable def Metric.dist : Metric → (Fin n → ℝ) → (Fin n → ℝ) → ℝ
  | .euclidean, u, v => √(∑ j, (u j - v j) ^ 2)
  | .manhattan, u, v => lpDist 1 u v
  | .minkowski p, u, v => lpDist p u v

open Classical in
/-- `find_neighbors` (k_nearest_neighbors.rs 119-145). -/
noncomputable def findNeighbors (x : Matrix (Fin m) (Fin n) ℝ) (metric : Metric) (q : Fin n → ℝ)
    (k : ℕ) : List (Fin m × ℝ) :=
  (((List.finRange m).map fun i => (i, metric.dist (x i) q)).mergeSort
    fun a b => decide (a.2 ≤ b.2)).take k

/-- `as i64`: truncation towards zero, limited to the range of the type. Written at k_nearest_neighbors.rs 88. -/
noncomputable def asI64 (v : ℝ) : ℤ :=
  max (-2 ^ 63) (min (2 ^ 63 - 1) (if 0 ≤ v then ⌊v⌋ else ⌈v⌉))

open Classical in
/-- One step of `max_by_key` with its closure (k_nearest_neighbors.rs 84-92): the counts so far and the
best element with its key.  A later element replaces an earlier one with the same key. -/
noncomputable def vote (s : (ℤ → ℕ) × Option (ℕ × ℝ)) (v : ℝ) : (ℤ → ℕ) × Option (ℕ × ℝ) :=
  let c := s.1 (asI64 v) + 1
  (Function.update s.1 (asI64 v) c,
    match s.2 with
    | none => some (c, v)
    | some (b, u) => if b > c then some (b, u) else some (c, v))

/-- `predict_one` (k_nearest_neighbors.rs 74-93).  `none`: the `unwrap` of an empty maximum panics. -/
noncomputable def predictOne (x : Matrix (Fin m) (Fin n) ℝ) (y : Fin m → ℝ) (metric : Metric)
    (q : Fin n → ℝ) (k : ℕ) : Option ℝ :=
  (((findNeighbors x metric q k).map fun e => y e.1).foldl vote (fun _ => 0, none)).2.map Prod.snd

/-- `new` (k_nearest_neighbors.rs 65-69) and `predict` (k_nearest_neighbors.rs 103-113).  `none`: an
assertion fails or a row panics. -/
noncomputable def knnPredict {m' r n' : ℕ} (x : Matrix (Fin m) (Fin n) ℝ) (y : Fin m' → ℝ)
    (metric : Metric) (input : Matrix (Fin r) (Fin n') ℝ) (k : ℕ) : Option (List ℝ) :=
  if h : m = m' ∧ n = n' then
    (List.finRange r).mapM fun i =>
      predictOne x (y ∘ Fin.cast h.1) metric (fun j => input i (Fin.cast h.2 j)) k
  else none

end Verif.ML
