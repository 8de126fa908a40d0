import Verif.Float.RiskReward

/-! Specification for C113: finite measures of a portfolio, and the exact excess return, sum of squares and Jensen's alpha. -/

namespace Verif.Float.Reward

/-- The measures of a portfolio, all of them finite: return, riskless rate, beta, standard deviation, downside deviation, value-at-risk, market return. -/
structure Data where
  rp : F64
  r : F64
  beta : F64
  sigma : F64
  sigmaDown : F64
  var : F64
  rm : F64

/-- The same as values of `f64`. -/
def Data.measures (d : Data) : Measures := ⟨.fin d.rp, .fin d.r, .fin d.beta, .fin d.sigma, .fin d.sigmaDown, .fin d.var, .fin d.rm⟩

/-- The excess return, exactly. -/
def Data.excess (d : Data) : ℚ := d.rp.val - d.r.val

/-- The sum of the squared drawdowns, exactly. -/
def sumSquares (ds : List F64) : ℚ := (ds.map fun x => x.val ^ 2).sum

/-- Jensen's alpha, exactly. -/
def Data.exactAlpha (d : Data) : ℚ := d.rp.val - (d.r.val + d.beta.val * (d.rm.val - d.r.val))

/-- `v` is a finite number within `rel` of `x`, up to the smallest positive number. -/
def Close (v : X64) (x rel : ℚ) : Prop := ∃ a : F64, v = .fin a ∧ |a.val - x| ≤ rel * |x| + 2 ^ (-1074 : ℤ)

/-- The ratio `v` of an excess return to a risk that is zero: infinite with the sign of the excess, and NaN if there is none. -/
def Degenerate (v : X64) (excess : ℚ) : Prop :=
  (0 < excess → v = .inf false) ∧ (excess < 0 → v = .inf true) ∧ (excess = 0 → v = .nan)

end Verif.Float.Reward
