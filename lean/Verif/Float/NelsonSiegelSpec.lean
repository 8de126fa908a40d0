import Verif.Float.NelsonSiegel
import Verif.Float.SimulationSpec
import Verif.Stochastics.NelsonSiegelProps

/-!
# C110: what is asked of the platform, and the exact curve

The exact rates are those of C58 (`Stochastics.Nss`).
-/

namespace Verif.Float.Curves

open X64 Nan Verif.Float.Sim

/-- What the functions of the platform do. `exp` is in order, right at 0 and at the infinities, and has relative error `ε`, down to the
smallest positive number; close to zero it rounds to one, and so does `cosh`, which is at least one, has relative error `ε` and overflows from 711 on; `ln` is right
at 1 and at infinity, not negative from 1 on, and has error `ε (1 + ln x)`. -/
structure Lib.Good (l : Lib) (ε : ℝ) : Prop where
  exp_nan : l.exp nan = nan
  exp_bottom : l.exp (inf true) = zero
  exp_zero : l.exp zero = ofQ 1
  exp_mono : ∀ x y, le x y = true → le (l.exp x) (l.exp y) = true
  exp_near : ∀ a : F64, |F64.real a| ≤ 680 →
    ∃ r : F64, l.exp (fin a) = fin r ∧ |F64.real r - Real.exp (F64.real a)| ≤ ε * Real.exp (F64.real a)
  exp_down : ∀ a : F64, F64.real a ≤ 0 →
    ∃ r : F64, l.exp (fin a) = fin r ∧ |F64.real r - Real.exp (F64.real a)| ≤ ε * Real.exp (F64.real a) + 2 ^ (-1074 : ℤ)
  exp_one : ∀ a : F64, |a.val| ≤ 2 ^ (-54 : ℤ) → l.exp (fin a) = ofQ 1
  cosh_nan : l.cosh nan = nan
  cosh_one : ∀ a : F64, |a.val| ≤ 2 ^ (-27 : ℤ) → l.cosh (fin a) = ofQ 1
  cosh_up : ∀ x, x ≠ nan → le (ofQ 1) (l.cosh x) = true
  cosh_near : ∀ a : F64, |F64.real a| ≤ 680 →
    ∃ r : F64, l.cosh (fin a) = fin r ∧ |F64.real r - Real.cosh (F64.real a)| ≤ ε * Real.cosh (F64.real a)
  cosh_top : ∀ s, l.cosh (inf s) = inf false
  cosh_over : ∀ a : F64, 711 ≤ |a.val| → l.cosh (fin a) = inf false
  ln_nan : l.ln nan = nan
  ln_one : l.ln (ofQ 1) = zero
  ln_up : ∀ x, le (ofQ 1) x = true → le zero (l.ln x) = true
  ln_near : ∀ a : F64, 1 ≤ F64.real a →
    ∃ r : F64, l.ln (fin a) = fin r ∧ |F64.real r - Real.log (F64.real a)| ≤ ε * (1 + Real.log (F64.real a))
  ln_top : l.ln (inf false) = inf false

/-- Six finite parameters. -/
structure Params where
  beta0 : F64
  beta1 : F64
  beta2 : F64
  beta3 : F64
  lambda1 : F64
  lambda2 : F64

/-- The parameters as the program sees them. -/
def Params.nss (p : Params) : Nss := ⟨fin p.beta0, fin p.beta1, fin p.beta2, fin p.beta3, fin p.lambda1, fin p.lambda2⟩

/-- The parameters as numbers. -/
noncomputable def Params.exact (p : Params) : Stochastics.Nss :=
  ⟨F64.real p.beta0, F64.real p.beta1, F64.real p.beta2, F64.real p.beta3, F64.real p.lambda1, F64.real p.lambda2⟩

/-- The sizes of the `β`s together. -/
noncomputable def Params.size (p : Params) : ℝ :=
  |F64.real p.beta0| + |F64.real p.beta1| + |F64.real p.beta2| + |F64.real p.beta3|

/-- Both `λ`s lie between `2^-500` and `2^500`, and the `β`s together are up to `2^450`. -/
def Params.Moderate (p : Params) : Prop :=
  (2 ^ (-500 : ℤ) ≤ F64.real p.lambda1 ∧ F64.real p.lambda1 ≤ 2 ^ 500) ∧
  (2 ^ (-500 : ℤ) ≤ F64.real p.lambda2 ∧ F64.real p.lambda2 ≤ 2 ^ 500) ∧ p.size ≤ 2 ^ 450

/-- `x` is a finite number from 0 to 1. -/
def Fraction (x : X64) : Prop := ∃ c : F64, x = fin c ∧ 0 ≤ c.val ∧ c.val ≤ 1

/-- A node of the curve, with the value that the fitted function gives for its date. -/
structure Row where
  date : Time.Date
  observed : F64
  fitted : F64

/-- The nodes as the program sees them. -/
def nodes (rows : List Row) : List (Time.Date × X64) := rows.map fun r => (r.date, fin r.observed)

/-- The fitted values are those of the fitted function, all finite. -/
def Fits (l : Lib) (t : Stochastics.CurveType) (m : Nss) (today : Time.Date) (rows : List Row) : Prop :=
  ∀ r ∈ rows, model l t m today r.date = some (fin r.fitted)

/-- The log-cosh loss of the fitted values, exactly. -/
noncomputable def logCosh (rows : List Row) : ℝ :=
  (rows.map fun r => Real.log (Real.cosh (F64.real r.fitted - F64.real r.observed))).sum / rows.length

end Verif.Float.Curves
