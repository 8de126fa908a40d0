import Verif.Float.Ops
import Mathlib.Data.List.Sort

/-!
# Functions on `f64` values with their rounding

The functions whose operations are only `+ - * /`, comparison, rounding to an integer and conversion from integers, as they run
on binary64. Elsewhere in the model the same functions work on exact numbers.
-/

namespace Verif.Float

/-- What a call does: it panics, it gives an infinity or NaN, or it returns a finite number.
The outcomes of the functions of crates/RustQuant_math/src/statistic.rs and crates/RustQuant_math/src/sequences.rs. -/
inductive Res
  | panic
  | nonfinite
  | ok (x : F64)
  deriving DecidableEq

def Res.of : Option F64 → Res
  | none => .nonfinite
  | some x => .ok x

/-- `n as f64`. Written e.g. at crates/RustQuant_math/src/statistic.rs 87. -/
def ofNat (n : ℕ) : Option F64 := toF64 n

/-- `n as f64` for a signed integer. Written e.g. at crates/RustQuant_time/src/day_counting.rs 189. -/
def ofInt (n : ℤ) : Option F64 := toF64 n

/-- `iter().sum::<f64>()`: the entries are added from the left, starting from zero. Rust starts from `-0.0`, which only matters
for the sign of a zero result. Called e.g. at crates/RustQuant_math/src/statistic.rs 87. -/
def sum (xs : List F64) : Option F64 := xs.foldlM F64.add F64.zero

/-! ## crates/RustQuant_math/src/statistic.rs -/

/-- `arithmetic_mean` past its assertion (statistic.rs 87). -/
def meanVal (xs : List F64) : Option F64 := do (← sum xs).div (← ofNat xs.length)

/-- `mean` and `arithmetic_mean` (statistic.rs 78-88). -/
def mean (xs : List F64) : Res := if xs = [] then .panic else .of (meanVal xs)

/-- The sum of squared deviations (statistic.rs 112, 119). `powi(2)` is one multiplication. -/
def squares (xs : List F64) (mu : F64) : Option F64 := do
  sum (← xs.mapM fun x => do let d ← x.sub mu; d.mul d)

/-- `population_variance` (statistic.rs 115-120). -/
def populationVariance (xs : List F64) : Res :=
  if xs = [] then .panic else .of (do (← squares xs (← meanVal xs)).div (← ofNat xs.length))

/-- `variance` and `sample_variance` (statistic.rs 102-113). -/
def variance (xs : List F64) : Res :=
  if xs = [] then .panic else .of (do (← squares xs (← meanVal xs)).div (← ofNat (xs.length - 1)))

/-- The sorted copy (statistic.rs 222-223, 257-258): both this and the library's sort are stable, so they agree. -/
def sorted (xs : List F64) : List F64 := xs.insertionSort (fun a b => a.val ≤ b.val)

/-- `median` (statistic.rs 219-231). -/
def median (xs : List F64) : Res :=
  if xs = [] then .panic
  else
    let s := sorted xs
    let mid := s.length / 2
    if s.length % 2 = 0 then
      match s[mid - 1]?, s[mid]?, ofNat 2 with
      | some a, some b, some two => .of (do (← a.add b).div two)
      | _, _, _ => .panic
    else
      match s[mid]? with
      | some a => .ok a
      | none => .panic

/-- `lower + (upper - lower) * t` (statistic.rs 247, 264). -/
def lerp (lower upper t : F64) : Option F64 := do lower.add (← (← upper.sub lower).mul t)

/-- `quantile` (statistic.rs 250-265); `percentile` (statistic.rs 233-248) is the same code. The conversion of the
length never overflows; the casts to `usize` are exact on the non-negative index. -/
def quantile (xs : List F64) (q : F64) : Res :=
  if xs = [] then .panic
  else if q.val < 0 ∨ 1 < q.val then .panic
  else
    let s := sorted xs
    match (do q.mul (← ofNat (s.length - 1))) with
    | none => .nonfinite
    | some index =>
      match s[⌊index.val⌋₊]?, s[⌈index.val⌉₊]? with
      | some lower, some upper => .of (do lerp lower upper (← index.sub (← toF64 ⌊index.val⌋)))
      | _, _ => .panic

/-! ## crates/RustQuant_math/src/sequences.rs -/

/-- `cumsum` (sequences.rs 71-81) from a running total. -/
def cumsumFrom : F64 → List F64 → Option (List F64)
  | _, [] => some []
  | acc, x :: xs => do
    let a ← acc.add x
    return a :: (← cumsumFrom a xs)

/-- `cumsum` (sequences.rs 71-81). -/
def cumsum (xs : List F64) : Option (List F64) := cumsumFrom F64.zero xs

/-- The step of `linspace` (sequences.rs 58). -/
def linStep (start stop : F64) (n : ℕ) : Option F64 := do (← stop.sub start).div (← ofNat (n - 1))

/-- Entry `i` of `linspace` (sequences.rs 61-63). -/
def linPoint (start step : F64) (i : ℕ) : Option F64 := do start.add (← (← ofNat i).mul step)

/-- `linspace` (sequences.rs 52-65); outer `none`: panic, inner `none`: an infinite or NaN entry. -/
def linspace (start stop : F64) (n : ℕ) : Option (Option (List F64)) :=
  if start.val < stop.val ∧ 0 < n then
    some (do let step ← linStep start stop n; (List.range n).mapM (linPoint start step))
  else none

/-- The loop of `seq` (sequences.rs 40-43): `SeqLoop stop step x l` when the loop entered with `x` ends, having pushed `l`. A
loop that never ends is in the relation with nothing. -/
inductive SeqLoop (stop step : F64) : F64 → List F64 → Prop
  | done (x : F64) : stop.val < x.val → SeqLoop stop step x []
  | overflow (x : F64) : x.val ≤ stop.val → x.add step = none → 0 < step.val → SeqLoop stop step x [x]
  | push (x y : F64) (l : List F64) : x.val ≤ stop.val → x.add step = some y → SeqLoop stop step y l →
    SeqLoop stop step x (x :: l)

/-- `(end - start) / step` (sequences.rs 37). -/
def seqQuotient (start stop step : F64) : Option F64 := do (← stop.sub start).div step

/-- `seq` (sequences.rs 36-46): it panics (`none`) if the quotient is not above -1 (`to_usize`), not finite, or `2^60` and more
(`with_capacity` of 8-byte entries). Whether the memory asked for is there is not modelled. -/
def Seq (start stop step : F64) (r : Option (List F64)) : Prop :=
  match seqQuotient start stop step with
  | none => r = none
  | some c => if -1 < c.val ∧ c.val < 2 ^ 60 then ∃ l, r = some l ∧ SeqLoop stop step start l else r = none

/-! ## Options, interpolation, cash flows, day counts -/

/-- Call payoff of a vanilla option (crates/RustQuant_instruments/src/options/vanilla.rs 51). -/
def callPayoff (strike underlying : F64) : Option F64 := do return (← underlying.sub strike).max F64.zero

/-- Put payoff of a vanilla option (vanilla.rs 52). -/
def putPayoff (strike underlying : F64) : Option F64 := do return (← strike.sub underlying).max F64.zero

/-- The formula of the linear interpolator between two nodes
(crates/RustQuant_math/src/interpolation/linear_interpolator.rs 116-119). -/
def interpolate (xl xr yl yr x : F64) : Option F64 := do
  let term1 ← yr.sub yl
  let term2 ← (← x.sub xl).div (← xr.sub xl)
  yl.add (← term1.mul term2)

/-- `Leg::npv` (crates/RustQuant_cashflows/src/legs.rs 42-44) over the amounts, with `Cashflow::npv`
(crates/RustQuant_cashflows/src/cashflow.rs 49-51). -/
def npv (amounts : List F64) (rate : F64) : Option F64 := do sum (← amounts.mapM fun a => a.mul rate)

/-- The day counts that divide a whole number of days by a constant
(crates/RustQuant_time/src/day_counting.rs 209-247: 360, 364, 365.25, 365, 366). -/
def dayFraction (days : ℤ) (year : F64) : Option F64 := do (← ofInt days).div year

end Verif.Float
