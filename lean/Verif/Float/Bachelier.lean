import Verif.Float.Greeks

/-!
# Bachelier prices and sensitivities on `f64` values

Source: `crates/RustQuant_instruments/src/options/option_models.rs`, lines 986-1206. As in `Float/BlackScholes`, `none`: a step of the calculation
has an infinite or NaN result, and the functions with an `x` carry such results on. `N` is the standard normal distribution (gaussian.rs 33). Not modelled here: `iv` (lines 1053-1097, 1168-1173).
-/

namespace Verif.Float.Bach

open Verif.Options (TypeFlag)
open Verif.Float.Bsm (Libm XLibm cdf pdf xcdf xpdf neg pi)
open X64

/-- `Bachelier` (option_models.rs 72-78). -/
structure Model where
  f : F64
  r : F64
  v : F64

namespace Model

section

variable (m : Libm) (o : Model)

/-- `v * t.sqrt()` (option_models.rs 995, 1005, 1012, 1114). -/
def width (t : F64) : Option F64 := do o.v.mul (← m.sqrt t)

/-- `d` (option_models.rs 1010-1013). -/
def d (k t : F64) : Option F64 := do (← o.f.sub k).div (← o.width m t)

/-- `df` (option_models.rs 1015-1018). -/
def df (t : F64) : Option F64 := do m.exp (← (neg o.r).mul t)

/-- `price` (option_models.rs 1149-1155) with `call_price` and `put_price` (990-1008). -/
def price (k t : F64) (y : TypeFlag) : Option F64 := do
  let d ← o.d m k t
  let df ← o.df m t
  let x ← match y with
    | .call => do (← o.f.sub k).mul (← cdf m d)
    | .put => do (← k.sub o.f).mul (← cdf m (neg d))
  df.mul (← x.add (← (← o.width m t).mul (← pdf m d)))

/-- `atm_price` (option_models.rs 1020-1023, 1157-1160). -/
def atmPrice (t : F64) : Option F64 := do
  o.v.mul (← m.sqrt (← t.div (← (← toF64 2).mul (← pi))))

/-- `delta` (option_models.rs 1175-1181) with `call_delta` and `put_delta` (1099-1109). -/
def delta (k t : F64) (y : TypeFlag) : Option F64 := do
  let c ← cdf m (← o.d m k t)
  match y with
  | .call => some c
  | .put => c.sub (← toF64 1)

/-- `gamma` (option_models.rs 1183-1189), the same for calls and puts (1111-1120). -/
def gamma (k t : F64) : Option F64 := do (← pdf m (← o.d m k t)).div (← o.width m t)

/-- `vega` (option_models.rs 1191-1197), the same for calls and puts (1122-1131). -/
def vega (k t : F64) : Option F64 := do (← m.sqrt t).mul (← pdf m (← o.d m k t))

/-- `theta` (option_models.rs 1199-1205), the same for calls and puts (1133-1145). -/
def theta (k t : F64) : Option F64 := do
  (← (neg o.v).mul (← pdf m (← o.d m k t))).div (← (← toF64 2).mul (← m.sqrt t))

end

/-! The same functions on all of `f64`. -/

section

variable (x : XLibm) (o : Model)

/-- `v * t.sqrt()` (option_models.rs 995, 1005, 1012, 1114). -/
def xwidth (t : F64) : X64 := (fin o.v).mul (x.sqrt (fin t))

/-- `d` (option_models.rs 1010-1013). -/
def xd (k t : F64) : X64 := ((fin o.f).sub (fin k)).div (o.xwidth x t)

/-- `df` (option_models.rs 1015-1018). -/
def xdf (t : F64) : X64 := x.exp ((fin (neg o.r)).mul (fin t))

/-- `price` (option_models.rs 1149-1155) with `call_price` and `put_price` (990-1008). -/
def xprice (k t : F64) (y : TypeFlag) : X64 :=
  let d := o.xd x k t
  (o.xdf x t).mul (((match y with
    | .call => ((fin o.f).sub (fin k)).mul (xcdf x d)
    | .put => ((fin k).sub (fin o.f)).mul (xcdf x d.neg))).add ((o.xwidth x t).mul (xpdf x d)))

/-- `delta` (option_models.rs 1175-1181) with `call_delta` and `put_delta` (1099-1109). -/
def xdelta (k t : F64) : TypeFlag → X64
  | .call => xcdf x (o.xd x k t)
  | .put => (xcdf x (o.xd x k t)).sub (ofQ 1)

/-- `gamma` (option_models.rs 1183-1189), the same for calls and puts (1111-1120). -/
def xgamma (k t : F64) : X64 := (xpdf x (o.xd x k t)).div (o.xwidth x t)

/-- `vega` (option_models.rs 1191-1197), the same for calls and puts (1122-1131). -/
def xvega (k t : F64) : X64 := (x.sqrt (fin t)).mul (xpdf x (o.xd x k t))

/-- `theta` (option_models.rs 1199-1205), the same for calls and puts (1133-1145). -/
def xtheta (k t : F64) : X64 :=
  ((fin (neg o.v)).mul (xpdf x (o.xd x k t))).div ((ofQ 2).mul (x.sqrt (fin t)))

end

end Model

/-- `atm_vol` (option_models.rs 1025-1028, 1162-1165). -/
def atmVol (m : Libm) (price t : F64) : Option F64 := do
  price.mul (← m.sqrt (← (← (← toF64 2).mul (← pi)).div t))

end Verif.Float.Bach
