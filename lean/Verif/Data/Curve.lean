import Verif.Common.SortedMap
import Verif.Time.Order
import Verif.Math.Interp

/-!
# Model of `RustQuant_data::curves::Curve`

Rates are `ℝ`. The outer `Option` of a result is a panic (`none`); the inner `Option` is Rust's `Option`.
Not modelled: `plot`, `fit_nss` (particle swarm), the `Builder`, the Python bindings.
-/

namespace Verif.Data

open Verif Verif.Time Verif.Math

/-- `InterpolationMethod` (crates/RustQuant_data/src/curves.rs 66-82). -/
inductive Method
  | linear
  | exponential
  | cubicSpline
  | lagrange
deriving DecidableEq

/-- `(a - b) / (c - d)` for dates: quotient of two durations as `f64` (interpolation/mod.rs 98). -/
noncomputable def ratioDate (a b c d : Date) : ℝ :=
  ((a.dayNum - b.dayNum : ℤ) : ℝ) / ((c.dayNum - d.dayNum : ℤ) : ℝ)

/-- `Curve` (curves.rs 85-100); the curve type is a label without effect, `nss` is only set by `fit_nss`. -/
structure Curve where
  nodes : SMap Date ℝ
  method : Method
  interpolator : Interp Date ℝ

/-- Result of a constructor. What `Curve::new` and `Curve::from_nodes` (curves.rs 106-167) end with. -/
inductive Built (α : Type)
  | panic
  | err
  | ok (a : α)

/-- The interpolator of a curve, `new` (curves.rs 112-125). -/
def buildInterp (dates : List Date) (rates : List ℝ) : Method → Built (Interp Date ℝ)
  | .linear | .exponential =>
    match Interp.new dates rates with
    | .error _ => .err
    | .ok I => .ok I
  | .cubicSpline | .lagrange => .panic

/-- `Curve::new` (curves.rs 106-134): the nodes are collected from the zipped vectors, later entries replacing earlier. -/
def Curve.new (dates : List Date) (rates : List ℝ) (m : Method) : Built Curve :=
  match buildInterp dates rates m with
  | .panic => .panic
  | .err => .err
  | .ok I => .ok ⟨(dates.zip rates).foldl (fun s e => s.insert e.1 e.2) [], m, I⟩

/-- `Curve::from_nodes` (curves.rs 138-167). -/
def Curve.fromNodes (nodes : SMap Date ℝ) (m : Method) : Built Curve :=
  match buildInterp (nodes.map (·.1)) (nodes.map (·.2)) m with
  | .panic => .panic
  | .err => .err
  | .ok I => .ok ⟨nodes, m, I⟩

variable (bs : List Date → Date → Option ℕ)

/-- `self.interpolator.interpolate(date).ok()`. See curves.rs 178 and 187. -/
noncomputable def Curve.interpolate (c : Curve) (d : Date) : Option (Option ℝ) :=
  let seg := match c.method with
    | .exponential => expSeg ratioDate
    | _ => linearSeg ratioDate
  (c.interpolator.interpolateWith bs seg d).map fun r => match r with
    | .ok v => some v
    | .error _ => none

/-- `Curve::get_rate` (curves.rs 175-180). -/
noncomputable def Curve.getRate (c : Curve) (d : Date) : Option (Option ℝ) :=
  match c.nodes.get? d with
  | some r => some (some r)
  | none => c.interpolate bs d

/-- `Curve::get_rate_and_insert` (curves.rs 183-192). -/
noncomputable def Curve.getRateAndInsert (c : Curve) (d : Date) : Option (Curve × Option ℝ) :=
  match c.nodes.get? d with
  | some r => some (c, some r)
  | none =>
    match c.interpolate bs d with
    | none => none
    | some none => some (c, none)
    | some (some r) => some ({ c with nodes := c.nodes.insert d r }, some r)

/-- `Curve::get_rates` (curves.rs 195-197); a panic at one date is a panic of the whole. -/
noncomputable def Curve.getRates (c : Curve) : List Date → Option (List (Option ℝ))
  | [] => some []
  | d :: ds => (c.getRate bs d).bind fun r => (c.getRates ds).map fun rs => r :: rs

/-- `Curve::get_rates_and_insert` (curves.rs 200-205). -/
noncomputable def Curve.getRatesAndInsert (c : Curve) : List Date → Option (Curve × List (Option ℝ))
  | [] => some (c, [])
  | d :: ds => (c.getRateAndInsert bs d).bind fun p => (p.1.getRatesAndInsert ds).map fun q => (q.1, p.2 :: q.2)

/-- `Curve::set_rate` (curves.rs 208-210): only the nodes change. -/
def Curve.setRate (c : Curve) (d : Date) (r : ℝ) : Curve := { c with nodes := c.nodes.insert d r }

/-- `Curve::set_rates` (curves.rs 213-217). -/
def Curve.setRates (c : Curve) (l : List (Date × ℝ)) : Curve := l.foldl (fun c e => c.setRate e.1 e.2) c

/-- `Curve::first_date` (curves.rs 220-222). -/
def Curve.firstDate (c : Curve) : Option Date := (c.nodes.map (·.1)).head?

/-- `Curve::last_date` (curves.rs 225-227). -/
def Curve.lastDate (c : Curve) : Option Date := (c.nodes.map (·.1)).getLast?

/-- `Curve::dates` (curves.rs 230-232). -/
def Curve.dates (c : Curve) : List Date := c.nodes.map (·.1)

/-- `Curve::rates` (curves.rs 235-237). -/
def Curve.rates (c : Curve) : List ℝ := c.nodes.map (·.2)

/-- `Curve::len` (curves.rs 240-242). -/
def Curve.len (c : Curve) : ℕ := c.nodes.length

/-- `Curve::is_empty` (curves.rs 245-247). -/
def Curve.isEmpty (c : Curve) : Bool := c.nodes.isEmpty

/-- `Curve::first_rate` (curves.rs 250-252). -/
def Curve.firstRate (c : Curve) : Option ℝ := (c.nodes.map (·.2)).head?

/-- `Curve::last_rate` (curves.rs 255-257). -/
def Curve.lastRate (c : Curve) : Option ℝ := (c.nodes.map (·.2)).getLast?

/-- `Curve::get_brackets` (curves.rs 260-275): `range(..index).next_back()` and `range(index..).next()`. -/
def Curve.getBrackets (c : Curve) (d : Date) : Option (Date × Date) :=
  match c.firstDate, c.lastDate with
  | some first, some last =>
    if d ≤ first then some (first, first)
    else if last ≤ d then some (last, last)
    else
      match (c.dates.filter (fun x => x < d)).getLast?, (c.dates.filter (fun x => d ≤ x)).head? with
      | some l, some r => some (l, r)
      | _, _ => none
  | _, _ => none

/-- `Curve::shift` (curves.rs 278-282). -/
noncomputable def Curve.shift (c : Curve) (s : ℝ) : Curve :=
  { c with nodes := c.nodes.map fun e => (e.1, e.2 + s) }

/-- Curves reachable through the constructors and mutators. See curves.rs 106-167, 183-210 and 278-282. -/
inductive Curve.Reachable : Curve → Prop
  | new {dates rates m c} (h : Curve.new dates rates m = .ok c) : Reachable c
  | fromNodes {nodes m c} (hw : SMap.WF nodes) (h : Curve.fromNodes nodes m = .ok c) : Reachable c
  | setRate {c} (h : Reachable c) (d : Date) (r : ℝ) : Reachable (c.setRate d r)
  | shift {c} (h : Reachable c) (s : ℝ) : Reachable (c.shift s)
  | insert {c c' d r} (h : Reachable c) (hi : c.getRateAndInsert bs d = some (c', r)) : Reachable c'

end Verif.Data
