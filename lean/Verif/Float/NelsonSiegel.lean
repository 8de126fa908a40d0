import Verif.Float.NanPayoffs
import Verif.Time.Utilities
import Verif.Stochastics.NelsonSiegel

/-!
# The Nelson-Siegel-Svensson curve and its cost function on `f64` values with infinities and NaN

Source: crates/RustQuant_stochastics/src/nelson_siegel_svensson.rs and crates/RustQuant_data/src/curves.rs 307-340. Every operation is
rounded. The functions of the platform and `today()` are parameters; `none` is a panic.
-/

namespace Verif.Float.Curves

open X64 Verif.Time
open Verif.Stochastics (CurveType)

/-- `f64::exp` (nelson_siegel_svensson.rs 73, 75, 86-89, 97), `f64::cosh` and `f64::ln` (curves.rs 336). -/
structure Lib where
  exp : X64 → X64
  cosh : X64 → X64
  ln : X64 → X64

/-- `NelsonSiegelSvensson` (nelson_siegel_svensson.rs 20-38). -/
structure Nss where
  beta0 : X64
  beta1 : X64
  beta2 : X64
  beta3 : X64
  lambda1 : X64
  lambda2 : X64

/-- `day_count_factor_actual_365_25` (crates/RustQuant_time/src/day_counting.rs 219-221), called at nelson_siegel_svensson.rs 71, 84, 95:
`(end_date - start_date).whole_days() as f64 / 365.25`. -/
def tau (today date : Date) : X64 := (ofQ (wholeDays today date)).div (ofQ 365.25)

/-- The forward rate for a time (nelson_siegel_svensson.rs 73-77). -/
def Nss.forwardAt (l : Lib) (m : Nss) (tau : X64) : X64 :=
  let term1 := l.exp (tau.neg.div m.lambda1)
  let term2 := (tau.div m.lambda1).mul term1
  let term3 := (tau.div m.lambda2).mul (l.exp (tau.neg.div m.lambda2))
  ((m.beta0.add (m.beta1.mul term1)).add (m.beta2.mul term2)).add (m.beta3.mul term3)

/-- `lambda * (1. - f64::exp(-tau / lambda)) / tau` (nelson_siegel_svensson.rs 86 and 88). -/
def slope (l : Lib) (lambda tau : X64) : X64 := (lambda.mul ((ofQ 1).sub (l.exp (tau.neg.div lambda)))).div tau

/-- The spot rate for a time (nelson_siegel_svensson.rs 86-91). -/
def Nss.spotAt (l : Lib) (m : Nss) (tau : X64) : X64 :=
  let term1 := slope l m.lambda1 tau
  let term2 := term1.sub (l.exp (tau.neg.div m.lambda1))
  let term3 := (slope l m.lambda2 tau).sub (l.exp (tau.neg.div m.lambda2))
  ((m.beta0.add (m.beta1.mul term1)).add (m.beta2.mul term2)).add (m.beta3.mul term3)

open Classical in
/-- `forward_rate` (nelson_siegel_svensson.rs 68-78). -/
noncomputable def Nss.forwardRate (l : Lib) (m : Nss) (today date : Date) : Option X64 :=
  if today < date then some (m.forwardAt l (tau today date)) else none

open Classical in
/-- `spot_rate` (nelson_siegel_svensson.rs 81-92). -/
noncomputable def Nss.spotRate (l : Lib) (m : Nss) (today date : Date) : Option X64 :=
  if today < date then some (m.spotAt l (tau today date)) else none

/-- `discount_factor` (nelson_siegel_svensson.rs 94-98): `f64::exp(-self.spot_rate(date) * tau / 100.)`. -/
noncomputable def Nss.discountFactor (l : Lib) (m : Nss) (today date : Date) : Option X64 :=
  (m.spotRate l today date).map fun s => l.exp ((s.neg.mul (tau today date)).div (ofQ 100))

/-- The function fitted (crates/RustQuant_data/src/curves.rs 320-325). -/
noncomputable def model (l : Lib) (t : CurveType) (m : Nss) (today date : Date) : Option X64 :=
  match t with
  | .discount => m.discountFactor l today date
  | .forward => m.forwardRate l today date
  | .spot => m.spotRate l today date
  | .flat => none

/-- `(p - o).cosh().ln()` of one node (curves.rs 336). -/
noncomputable def loss (l : Lib) (t : CurveType) (today : Date) (m : Nss) (node : Date × X64) : Option X64 :=
  (model l t m today node.1).map fun (p : X64) => l.ln (l.cosh (p.sub node.2))

/-- `cost` (crates/RustQuant_data/src/curves.rs 311-339) of a curve with these nodes, in the order of their dates. The sum starts from zero.
Simplified: `params` has its six entries (lines 312-314 panic otherwise). -/
noncomputable def cost (l : Lib) (t : CurveType) (nodes : List (Date × X64)) (today : Date) (m : Nss) : Option X64 :=
  if t = .flat then none
  else (nodes.mapM (loss l t today m)).map fun (losses : List X64) =>
    (losses.foldl X64.add (fin F64.zero)).div (ofQ nodes.length)

end Verif.Float.Curves
