import Verif.Autodiff.Model
import Mathlib.Data.Rat.Floor
import Mathlib.Order.WithBot

/-!
# Predicates, equality and ordering of autodiff variables (crates/RustQuant_autodiff/src/variable.rs)

Here a value is a 64-bit IEEE number given by its three fields, so that NaN, the infinities, the two
zeros and the subnormal numbers are there.  The functions of `f64` used by the code are modelled from
the documentation of the standard library.
-/

namespace Verif.Autodiff

/-- An `f64`: sign, biased exponent and fraction. The `value` field (crates/RustQuant_autodiff/src/variable.rs 36). -/
structure F64 where
  neg : Bool
  exp : Fin 2048
  frac : Fin (2 ^ 52)

namespace F64

/-- `f64::is_nan`. Called at crates/RustQuant_autodiff/src/variable.rs 90. -/
def isNan (x : F64) : Bool := x.exp.val = 2047 ∧ x.frac.val ≠ 0

/-- `f64::is_infinite`. Called at crates/RustQuant_autodiff/src/variable.rs 83. -/
def isInfinite (x : F64) : Bool := x.exp.val = 2047 ∧ x.frac.val = 0

/-- `f64::is_finite`. Called at crates/RustQuant_autodiff/src/variable.rs 76. -/
def isFinite (x : F64) : Bool := x.exp.val < 2047

/-- `f64::is_normal`: neither zero, subnormal, infinite nor NaN.
Called at crates/RustQuant_autodiff/src/variable.rs 97. -/
def isNormal (x : F64) : Bool := 0 < x.exp.val ∧ x.exp.val < 2047

/-- `f64::is_subnormal`. Called at crates/RustQuant_autodiff/src/variable.rs 104. -/
def isSubnormal (x : F64) : Bool := x.exp.val = 0 ∧ x.frac.val ≠ 0

/-- `f64::is_sign_positive`. Called at crates/RustQuant_autodiff/src/variable.rs 118. -/
def isSignPositive (x : F64) : Bool := !x.neg

/-- `f64::is_sign_negative`. Called at crates/RustQuant_autodiff/src/variable.rs 125. -/
def isSignNegative (x : F64) : Bool := x.neg

/-- The number written by a finite `f64`.
Compared at crates/RustQuant_autodiff/src/variable.rs 111, 153, 162 and 180. -/
def value (x : F64) : ℚ :=
  (if x.neg then -1 else 1) *
    (if x.exp.val = 0 then (x.frac.val : ℚ) * 2 ^ (-1074 : ℤ)
     else ((2 ^ 52 + x.frac.val : ℕ) : ℚ) * 2 ^ ((x.exp.val : ℤ) - 1075))

/-- The place of an `f64` that is not NaN on the extended line.
Compared at crates/RustQuant_autodiff/src/variable.rs 179-180. -/
def key (x : F64) : WithBot (WithTop ℚ) :=
  if x.isInfinite then (if x.neg then ⊥ else ((⊤ : WithTop ℚ) : WithBot (WithTop ℚ)))
  else ((x.value : WithTop ℚ) : WithBot (WithTop ℚ))

/-- `f64::partial_cmp`. Called at crates/RustQuant_autodiff/src/variable.rs 179-180. -/
def partialCmp (x y : F64) : Option Ordering :=
  if x.isNan || y.isNan then none
  else some (if x.key < y.key then .lt else if y.key < x.key then .gt else .eq)

/-- `==` of `f64`. Used at crates/RustQuant_autodiff/src/variable.rs 111, 153 and 162. -/
def beq (x y : F64) : Bool := x.partialCmp y = some .eq

/-- The literal `0.0`. Written at crates/RustQuant_autodiff/src/variable.rs 111. -/
def zero : F64 := ⟨false, 0, 0⟩

/-- The `f64` with the given sign and a natural number up to `2 ^ 52` as modulus.
Results of `round`, crates/RustQuant_autodiff/src/variable.rs 131. -/
def ofNat (neg : Bool) (n : ℕ) : F64 :=
  if n = 0 then ⟨neg, 0, 0⟩
  else ⟨neg, Fin.ofNat 2048 (1023 + Nat.log2 n),
    Fin.ofNat (2 ^ 52) ((n - 2 ^ Nat.log2 n) * 2 ^ (52 - Nat.log2 n))⟩

/-- `f64::round`: to the nearest integer, halves away from zero; numbers from `2 ^ 52` on, infinities
and NaN are left alone, zero keeps its sign. Called at crates/RustQuant_autodiff/src/variable.rs 131. -/
def round (x : F64) : F64 :=
  if 1075 ≤ x.exp.val then x
  else if x.exp.val = 0 then ⟨x.neg, 0, 0⟩
  else
    let k := 1075 - x.exp.val
    ofNat x.neg ((2 ^ 52 + x.frac.val + 2 ^ (k - 1)) / 2 ^ k)

/-- `f64::signum`: plus or minus one according to the sign bit, NaN for NaN.
Called at crates/RustQuant_autodiff/src/variable.rs 138. -/
def signum (x : F64) : F64 := if x.isNan then x else ⟨x.neg, 1023, 0⟩

end F64

/-- `struct Variable` (variable.rs 30-37); the reference to the graph is its address. -/
structure Variable where
  graph : ℕ
  index : ℕ
  value : F64

namespace Variable

/-- `is_finite` (variable.rs 75-77). -/
def isFinite (v : Variable) : Bool := v.value.isFinite

/-- `is_infinite` (variable.rs 82-84). -/
def isInfinite (v : Variable) : Bool := v.value.isInfinite

/-- `is_nan` (variable.rs 89-91). -/
def isNan (v : Variable) : Bool := v.value.isNan

/-- `is_normal` (variable.rs 96-98). -/
def isNormal (v : Variable) : Bool := v.value.isNormal

/-- `is_subnormal` (variable.rs 103-105). -/
def isSubnormal (v : Variable) : Bool := v.value.isSubnormal

/-- `is_zero` (variable.rs 110-112). -/
def isZero (v : Variable) : Bool := v.value.beq .zero

/-- `is_positive` (variable.rs 117-119). -/
def isPositive (v : Variable) : Bool := v.value.isSignPositive

/-- `is_negative` (variable.rs 124-126). -/
def isNegative (v : Variable) : Bool := v.value.isSignNegative

/-- `round` (variable.rs 130-132): in place, nothing is pushed to the graph. -/
def round (v : Variable) : Variable := { v with value := v.value.round }

/-- `signum` (variable.rs 137-139). -/
def signum (v : Variable) : F64 := v.value.signum

/-- `PartialEq<f64>` (variable.rs 150-155). -/
def eqF64 (v : Variable) (x : F64) : Bool := v.value.beq x

/-- `PartialEq` (variable.rs 157-164). -/
def eq (v w : Variable) : Bool := v.graph == w.graph && v.index == w.index && v.value.beq w.value

/-- `Ord::cmp` (variable.rs 175-182). -/
def cmp (v w : Variable) : Ordering := (v.value.partialCmp w.value).getD .eq

/-- `PartialOrd::partial_cmp` (variable.rs 168-173). -/
def partialCmp (v w : Variable) : Option Ordering := some (v.cmp w)

/-- `v < w`, the default method of `PartialOrd`.
It calls `partial_cmp` (crates/RustQuant_autodiff/src/variable.rs 170-172). -/
def lt (v w : Variable) : Bool := v.partialCmp w = some .lt

/-- `v <= w`, the default method of `PartialOrd`.
It calls `partial_cmp` (crates/RustQuant_autodiff/src/variable.rs 170-172). -/
def le (v w : Variable) : Bool := v.partialCmp w = some .lt ∨ v.partialCmp w = some .eq

end Variable

end Verif.Autodiff
