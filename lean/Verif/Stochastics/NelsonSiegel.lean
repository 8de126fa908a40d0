import Verif.Time.Order
import Verif.Time.Utilities
import Mathlib.Analysis.SpecialFunctions.Exp
import Mathlib.Analysis.SpecialFunctions.Log.Basic
import Mathlib.Analysis.SpecialFunctions.Trigonometric.Basic

/-!
# Model of the Nelson-Siegel-Svensson curve and of the cost function used to fit it

Source: `crates/RustQuant_stochastics/src/nelson_siegel_svensson.rs` and `crates/RustQuant_data/src/curves.rs` 307-340.
`f64` is an exact real, `none` is a panic or the value NaN, and `today()` is a parameter (one value during a call).
-/

namespace Verif.Stochastics

open Verif.Time

/-- `NelsonSiegelSvensson` (nelson_siegel_svensson.rs 18-38). -/
structure Nss where
  beta0 : ℝ
  beta1 : ℝ
  beta2 : ℝ
  beta3 : ℝ
  lambda1 : ℝ
  lambda2 : ℝ

/-- `f64::exp(-tau / lambda)` for a positive `tau` (nelson_siegel_svensson.rs 73, 75, 87-90): a zero `lambda` gives
`exp(-inf) = 0`. -/
noncomputable def decay (tau lambda : ℝ) : ℝ := if lambda = 0 then 0 else Real.exp (-tau / lambda)

/-- The forward rate as a function of the time `tau` (nelson_siegel_svensson.rs 73-77); a zero `lambda` gives
`inf * 0`, i.e. NaN. -/
noncomputable def Nss.forwardAt (m : Nss) (tau : ℝ) : Option ℝ :=
  if m.lambda1 = 0 ∨ m.lambda2 = 0 then none
  else
    let term1 := decay tau m.lambda1
    let term2 := tau / m.lambda1 * term1
    let term3 := tau / m.lambda2 * decay tau m.lambda2
    some (m.beta0 + m.beta1 * term1 + m.beta2 * term2 + m.beta3 * term3)

/-- The spot rate as a function of the time `tau` (nelson_siegel_svensson.rs 86-91). -/
noncomputable def Nss.spotAt (m : Nss) (tau : ℝ) : ℝ :=
  let term1 := m.lambda1 * (1 - decay tau m.lambda1) / tau
  let term2 := term1 - decay tau m.lambda1
  let term3 := m.lambda2 * (1 - decay tau m.lambda2) / tau - decay tau m.lambda2
  m.beta0 + m.beta1 * term1 + m.beta2 * term2 + m.beta3 * term3

/-- `DayCountConvention::Actual_365_25.day_count_factor(today(), date)` (nelson_siegel_svensson.rs 71, 84, 95). -/
def nssTau (today date : Date) : Option ℝ := (DayCount.act36525.factor today date).map fun q => (q : ℝ)

open Classical in
/-- `forward_rate` (nelson_siegel_svensson.rs 67-78). -/
noncomputable def Nss.forwardRate (m : Nss) (today date : Date) : Option ℝ :=
  if today < date then (nssTau today date).bind m.forwardAt else none

open Classical in
/-- `spot_rate` (nelson_siegel_svensson.rs 80-92). -/
noncomputable def Nss.spotRate (m : Nss) (today date : Date) : Option ℝ :=
  if today < date then (nssTau today date).map m.spotAt else none

/-- `discount_factor` (nelson_siegel_svensson.rs 94-98). -/
noncomputable def Nss.discountFactor (m : Nss) (today date : Date) : Option ℝ :=
  (nssTau today date).bind fun tau => (m.spotRate today date).map fun s => Real.exp (-s * tau / 100)

/-- `CurveType` (curves.rs 46-62). -/
inductive CurveType | flat | spot | forward | discount
  deriving DecidableEq

/-- The function fitted (curves.rs 320-325); `None` for a flat curve, which panics. -/
noncomputable def CurveType.model (t : CurveType) (m : Nss) (today date : Date) : Option ℝ :=
  match t with
  | .discount => m.discountFactor today date
  | .forward => m.forwardRate today date
  | .spot => m.spotRate today date
  | .flat => none

/-- The sum of `(p - o).cosh().ln()` over the nodes (curves.rs 327-336). -/
noncomputable def logCoshSum (t : CurveType) (m : Nss) (today : Date) : List (Date × ℝ) → Option ℝ
  | [] => some 0
  | (d, o) :: l => (t.model m today d).bind fun p => (logCoshSum t m today l).map fun s =>
      Real.log (Real.cosh (p - o)) + s

/-- `cost` of `CostFunction for Curve` (curves.rs 311-339). A flat curve panics (line 324) and a curve without nodes
gives `0/0`, i.e. NaN. -/
noncomputable def nssCost (t : CurveType) (nodes : List (Date × ℝ)) (today : Date) (m : Nss) : Option ℝ :=
  if t = .flat ∨ nodes = [] then none else (logCoshSum t m today nodes).map fun s => s / nodes.length

end Verif.Stochastics
