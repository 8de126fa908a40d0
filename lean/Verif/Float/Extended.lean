import Verif.Float.Ops

/-!
# `f64` with infinities and NaN

The other files about double precision stop at the first result that is not finite. Here such results are carried on as IEEE 754
says. There is one zero: the sign of a zero only matters for a division by it, which has no sign here (`div`).
-/

namespace Verif.Float

/-- A value of `f64`: a finite number, an infinity (with its sign) or NaN.
Models the type `f64` of crates/RustQuant_instruments/src/options/finite_difference_pricer.rs. -/
inductive X64 where
  | fin (a : F64)
  | inf (negative : Bool)
  | nan

namespace X64

/-- The rounded value of an exact result: beyond the largest finite number it is infinite.
Models the type `f64` of crates/RustQuant_instruments/src/options/finite_difference_pricer.rs. -/
def ofQ (q : ℚ) : X64 :=
  match toF64 q with
  | some a => fin a
  | none => inf (decide (q < 0))

/-- `x as f64` for unsigned integers.
Models the type `f64` of crates/RustQuant_instruments/src/options/finite_difference_pricer.rs. -/
def ofNat (n : ℕ) : X64 := ofQ n

/-- `-x`. Models the type `f64` of crates/RustQuant_instruments/src/options/finite_difference_pricer.rs. -/
def neg : X64 → X64
  | fin a => ofQ (-a.val)
  | inf s => inf (!s)
  | nan => nan

/-- `x + y`. Models the type `f64` of crates/RustQuant_instruments/src/options/finite_difference_pricer.rs. -/
def add : X64 → X64 → X64
  | fin a, fin b => ofQ (a.val + b.val)
  | nan, _ => nan
  | _, nan => nan
  | inf s, inf t => if s = t then inf s else nan
  | inf s, fin _ => inf s
  | fin _, inf t => inf t

/-- `x - y`. Models the type `f64` of crates/RustQuant_instruments/src/options/finite_difference_pricer.rs. -/
def sub (x y : X64) : X64 := x.add y.neg

/-- `x * y`. Models the type `f64` of crates/RustQuant_instruments/src/options/finite_difference_pricer.rs. -/
def mul : X64 → X64 → X64
  | fin a, fin b => ofQ (a.val * b.val)
  | nan, _ => nan
  | _, nan => nan
  | inf s, inf t => inf (s != t)
  | inf s, fin b => if b.val = 0 then nan else inf (s != decide (b.val < 0))
  | fin a, inf t => if a.val = 0 then nan else inf (t != decide (a.val < 0))

/-- `x / y`. Simplified: the zero divided by is taken to be `+0.0`.
Models the type `f64` of crates/RustQuant_instruments/src/options/finite_difference_pricer.rs. -/
def div : X64 → X64 → X64
  | fin a, fin b => if b.val = 0 then (if a.val = 0 then nan else inf (decide (a.val < 0))) else ofQ (a.val / b.val)
  | nan, _ => nan
  | _, nan => nan
  | inf _, inf _ => nan
  | inf s, fin b => inf (s != decide (b.val < 0))
  | fin _, inf _ => fin F64.zero

/-- `x < y`: false when either is NaN.
Models the type `f64` of crates/RustQuant_instruments/src/options/finite_difference_pricer.rs. -/
def lt : X64 → X64 → Bool
  | fin a, fin b => decide (a.val < b.val)
  | nan, _ => false
  | _, nan => false
  | inf s, inf t => s && !t
  | inf s, fin _ => s
  | fin _, inf t => !t

/-- `x.max(y)` (`f64::max`): NaN only when both are.
Models the type `f64` of crates/RustQuant_instruments/src/options/finite_difference_pricer.rs. -/
def max (x y : X64) : X64 :=
  match x, y with
  | nan, y => y
  | x, nan => x
  | x, y => if x.lt y then y else x

end X64

end Verif.Float
