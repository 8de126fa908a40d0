import Verif.Float.Activations
import Verif.Float.SimulationSpec
import Verif.Distributions.Gaussian
import Verif.ML.ActivationsSpec

/-!
# C109: what is asked of the platform

The mathematical functions are those of C74 (`ML.Act.math`).
-/

namespace Verif.Float.Activation

open X64 Nan Verif.Float.Sim

/-- What the functions of the platform do: `exp` is in order, right at 0 and at the infinities, overflows from 710 on, and otherwise has
relative error `ε`; `ln` is right at 1 and at infinity; `erf` is right at the infinities and has absolute error `ε`. -/
structure Lib.Good (l : Lib) (ε : ℝ) : Prop where
  exp_nan : l.exp nan = nan
  exp_top : l.exp (inf false) = inf false
  exp_bottom : l.exp (inf true) = zero
  exp_zero : l.exp zero = ofQ 1
  exp_mono : ∀ x y, le x y = true → le (l.exp x) (l.exp y) = true
  exp_over : ∀ a : F64, 710 ≤ a.val → l.exp (fin a) = inf false
  exp_near : ∀ a : F64, |F64.real a| ≤ 680 →
    ∃ r : F64, l.exp (fin a) = fin r ∧ |F64.real r - Real.exp (F64.real a)| ≤ ε * Real.exp (F64.real a)
  ln_one : l.ln (ofQ 1) = zero
  ln_top : l.ln (inf false) = inf false
  ln_near : ∀ a : F64, 0 < F64.real a →
    ∃ r : F64, l.ln (fin a) = fin r ∧ |F64.real r - Real.log (F64.real a)| ≤ ε * (1 + |Real.log (F64.real a)|)
  sqrt_two : ∃ s : F64, l.sqrt (ofQ 2) = fin s ∧ |F64.real s - √2| ≤ ε * √2
  erf_near : ∀ a : F64, ∃ r : F64, l.erf (fin a) = fin r ∧ |F64.real r - Distributions.erf (F64.real a)| ≤ ε
  erf_top : l.erf (inf false) = ofQ 1
  erf_bottom : l.erf (inf true) = ofQ (-1)

/-- `x` is a finite number from 0 to 1. -/
def Probability (x : X64) : Prop := ∃ c : F64, x = fin c ∧ 0 ≤ c.val ∧ c.val ≤ 1

end Verif.Float.Activation
