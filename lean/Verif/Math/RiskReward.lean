import Mathlib.Analysis.SpecialFunctions.Pow.Real

/-!
# Model of crates/RustQuant_math/src/risk_reward.rs

`f64` is `ℝ`; a division by zero, which in the code gives an infinity or a NaN, is excluded by hypotheses.
-/

namespace Verif.Math.RiskReward

/-- `PortfolioMeasures` (risk_reward.rs 15-30). The fields are private and the module offers no constructor, so the
structure can be filled in only inside the module; the methods are public. -/
structure Measures where
  rp : ℝ
  r : ℝ
  beta : ℝ
  sigma : ℝ
  sigmaDown : ℝ
  var : ℝ
  rm : ℝ

/-- `treynors_ratio` (risk_reward.rs 47-49). -/
noncomputable def Measures.treynor (p : Measures) : ℝ := (p.rp - p.r) / p.beta

/-- `sharpe_ratio` (risk_reward.rs 61-63). -/
noncomputable def Measures.sharpe (p : Measures) : ℝ := (p.rp - p.r) / p.sigma

/-- `sortino_ratio` (risk_reward.rs 75-77). -/
noncomputable def Measures.sortino (p : Measures) : ℝ := (p.rp - p.r) / p.sigmaDown

/-- `burke_ratio` (risk_reward.rs 89-93). -/
noncomputable def Measures.burke (p : Measures) (drawdowns : List ℝ) : ℝ :=
  (p.rp - p.r) / (drawdowns.map fun x => x ^ 2).sum

/-- `return_on_var` (risk_reward.rs 104-106). -/
noncomputable def Measures.returnOnVar (p : Measures) : ℝ := p.rp / p.var

/-- `jensens_alpha` (risk_reward.rs 119-121). -/
noncomputable def Measures.alpha (p : Measures) : ℝ := p.rp - (p.r + p.beta * (p.rm - p.r))

end Verif.Math.RiskReward
