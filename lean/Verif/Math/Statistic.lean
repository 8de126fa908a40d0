import Mathlib.Analysis.SpecialFunctions.Pow.Real
import Mathlib.Analysis.SpecialFunctions.Sqrt
import Mathlib.Algebra.Order.Floor.Semiring
import Mathlib.Data.List.Sort

/-!
# Descriptive statistics (crates/RustQuant_math/src/statistic.rs, `impl Statistic<f64> for Vec<f64>`)

Numbers are real. `Out.panic` is a failed assertion or an index out of bounds; `Out.special` stands for a result that is not a
finite number in the code (NaN or an infinity from a division by zero or a root of a negative number).
-/

namespace Verif.Math.Statistic

/-- The outcome of a call. A panic stands for the assertions, e.g. statistic.rs 123. -/
inductive Out
  | panic
  | special
  | val (x : ℝ)

/-- Sequencing. Of the calls within statistic.rs. -/
def Out.bind (o : Out) (f : ℝ → Out) : Out :=
  match o with
  | .panic => .panic
  | .special => .special
  | .val x => f x

/-- `arithmetic_mean` (statistic.rs 84-88). -/
noncomputable def arithmeticMean (xs : List ℝ) : Out :=
  if xs.length = 0 then .panic else .val (xs.sum / xs.length)

/-- `mean` (statistic.rs 78-82). -/
noncomputable def mean (xs : List ℝ) : Out :=
  if xs.length = 0 then .panic else arithmeticMean xs

open Classical in
/-- `geometric_mean` (statistic.rs 90-94). -/
noncomputable def geometricMean (xs : List ℝ) : Out :=
  if xs.length = 0 then .panic
  else if xs.prod < 0 ∧ xs.length ≠ 1 then .special
  else .val (xs.prod ^ ((1 : ℝ) / xs.length))

open Classical in
/-- `harmonic_mean` (statistic.rs 96-100). -/
noncomputable def harmonicMean (xs : List ℝ) : Out :=
  if xs.length = 0 then .panic
  else if (0 : ℝ) ∈ xs ∨ (xs.map fun x => 1 / x).sum = 0 then .special
  else .val (xs.length / (xs.map fun x => 1 / x).sum)

/-- `sample_variance` (statistic.rs 108-113). -/
noncomputable def sampleVariance (xs : List ℝ) : Out :=
  if xs.length = 0 then .panic
  else (mean xs).bind fun mu =>
    if xs.length = 1 then .special
    else .val ((xs.map fun x => (x - mu) ^ 2).sum / (xs.length - 1 : ℕ))

/-- `variance` (statistic.rs 102-106). -/
noncomputable def variance (xs : List ℝ) : Out :=
  if xs.length = 0 then .panic else sampleVariance xs

/-- `population_variance` (statistic.rs 115-120). -/
noncomputable def populationVariance (xs : List ℝ) : Out :=
  if xs.length = 0 then .panic
  else (mean xs).bind fun mu => .val ((xs.map fun x => (x - mu) ^ 2).sum / xs.length)

/-- `sample_standard_deviation` (statistic.rs 128-132). -/
noncomputable def sampleStandardDeviation (xs : List ℝ) : Out :=
  if xs.length ≤ 1 then .panic else (variance xs).bind fun v => .val (Real.sqrt v)

/-- `standard_deviation` (statistic.rs 122-126). -/
noncomputable def standardDeviation (xs : List ℝ) : Out :=
  if xs.length ≤ 1 then .panic else sampleStandardDeviation xs

/-- `population_standard_deviation` (statistic.rs 134-138). -/
noncomputable def populationStandardDeviation (xs : List ℝ) : Out :=
  if xs.length ≤ 1 then .panic else (populationVariance xs).bind fun v => .val (Real.sqrt v)

/-- `covariance` (statistic.rs 140-159). -/
noncomputable def covariance (xs ys : List ℝ) : Out :=
  if xs.length ≠ ys.length then .panic
  else if xs.length ≤ 1 then .panic
  else
    let n : ℝ := xs.length
    let meanX := xs.sum / n
    let meanY := ys.sum / n
    let cov := (List.zipWith (fun x y => (x - meanX) * (y - meanY)) xs ys).sum
    .val (cov / (n - 1))

open Classical in
/-- `correlation` (statistic.rs 161-172). -/
noncomputable def correlation (xs ys : List ℝ) : Out :=
  (covariance xs ys).bind fun cov =>
    (standardDeviation xs).bind fun sx =>
      (standardDeviation ys).bind fun sy =>
        if sx = 0 ∨ sy = 0 then .panic else .val (cov / (sx * sy))

open Classical in
/-- `skewness` (statistic.rs 174-188). -/
noncomputable def skewness (xs : List ℝ) : Out :=
  if xs.length ≤ 2 then .panic
  else (mean xs).bind fun mu => (standardDeviation xs).bind fun sd =>
    if sd = 0 then .special
    else
      let n : ℝ := xs.length
      let skew := (xs.map fun x => ((x - mu) / sd) ^ 3).sum
      .val (skew * n / ((n - 1) * (n - 2)))

open Classical in
/-- `kurtosis` (statistic.rs 190-205). -/
noncomputable def kurtosis (xs : List ℝ) : Out :=
  if xs.length ≤ 3 then .panic
  else (mean xs).bind fun mu => (standardDeviation xs).bind fun sd =>
    if sd = 0 then .special
    else
      let n : ℝ := xs.length
      let kurt := (xs.map fun x => ((x - mu) / sd) ^ 4).sum
      .val (kurt * n * (n + 1) / ((n - 1) * (n - 2) * (n - 3)) - 3 * (n - 1) ^ 2 / ((n - 2) * (n - 3)))

/-- `min` (statistic.rs 207-211): the fold starts at `+∞`, so after the first element it is that element. -/
noncomputable def min (xs : List ℝ) : Out :=
  match xs with
  | [] => .panic
  | x :: l => .val (l.foldl (fun a b => a ⊓ b) x)

/-- `max` (statistic.rs 213-217), likewise from `-∞`. -/
noncomputable def max (xs : List ℝ) : Out :=
  match xs with
  | [] => .panic
  | x :: l => .val (l.foldl (fun a b => a ⊔ b) x)

open Classical in
/-- The sorted copy made by `median`, `percentile`, `quantile` and `interquartile_range`; without NaN the comparison never
fails, and a stable sort of numbers is a sort. See statistic.rs 222-223, 240-241 and 257-258. -/
noncomputable def sorted (xs : List ℝ) : List ℝ := xs.mergeSort (fun a b => decide (a ≤ b))

/-- Indexing a vector. See statistic.rs 227-229, 244-245. -/
def at? (s : List ℝ) (i : ℕ) : Out :=
  match s[i]? with
  | none => .panic
  | some x => .val x

/-- `median` (statistic.rs 219-231). -/
noncomputable def median (xs : List ℝ) : Out :=
  if xs.length = 0 then .panic
  else
    let s := sorted xs
    let mid := s.length / 2
    if s.length % 2 = 0 then (at? s (mid - 1)).bind fun a => (at? s mid).bind fun b => .val ((a + b) / 2)
    else at? s mid

open Classical in
/-- `percentile` (statistic.rs 233-248). -/
noncomputable def percentile (xs : List ℝ) (p : ℝ) : Out :=
  if xs.length = 0 then .panic
  else if ¬ (0 ≤ p ∧ p ≤ 1) then .panic
  else
    let s := sorted xs
    let index := p * (s.length - 1 : ℕ)
    (at? s ⌊index⌋₊).bind fun lower => (at? s ⌈index⌉₊).bind fun upper =>
      .val (lower + (upper - lower) * (index - ⌊index⌋₊))

open Classical in
/-- `quantile` (statistic.rs 250-265). -/
noncomputable def quantile (xs : List ℝ) (p : ℝ) : Out :=
  if xs.length = 0 then .panic
  else if ¬ (0 ≤ p ∧ p ≤ 1) then .panic
  else
    let s := sorted xs
    let index := p * (s.length - 1 : ℕ)
    (at? s ⌊index⌋₊).bind fun lower => (at? s ⌈index⌉₊).bind fun upper =>
      .val (lower + (upper - lower) * (index - ⌊index⌋₊))

/-- `interquartile_range` (statistic.rs 267-277). -/
noncomputable def interquartileRange (xs : List ℝ) : Out :=
  if xs.length = 0 then .panic
  else
    let s := sorted xs
    (at? s (s.length / 4)).bind fun q1 => (at? s (s.length * 3 / 4)).bind fun q3 => .val (q3 - q1)

/-- `range` (statistic.rs 279-283). -/
noncomputable def range (xs : List ℝ) : Out :=
  if xs.length = 0 then .panic else (max xs).bind fun a => (min xs).bind fun b => .val (a - b)

end Verif.Math.Statistic
