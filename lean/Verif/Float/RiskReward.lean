import Verif.Float.NanSpec

/-!
# Risk-reward measures in `f64`

Models crates/RustQuant_math/src/risk_reward.rs 15-122 with the rounding of `f64`; infinities and NaN are carried on as IEEE 754 says.
-/

namespace Verif.Float.Reward

open X64
open Nan (zero)

/-- `PortfolioMeasures` (crates/RustQuant_math/src/risk_reward.rs 15-30). -/
structure Measures where
  rp : X64
  r : X64
  beta : X64
  sigma : X64
  sigmaDown : X64
  var : X64
  rm : X64

/-- `treynors_ratio` (crates/RustQuant_math/src/risk_reward.rs 47-49). -/
def Measures.treynor (p : Measures) : X64 := (p.rp.sub p.r).div p.beta

/-- `sharpe_ratio` (crates/RustQuant_math/src/risk_reward.rs 61-63). -/
def Measures.sharpe (p : Measures) : X64 := (p.rp.sub p.r).div p.sigma

/-- `sortino_ratio` (crates/RustQuant_math/src/risk_reward.rs 75-77). -/
def Measures.sortino (p : Measures) : X64 := (p.rp.sub p.r).div p.sigmaDown

/-- The sum of the squared drawdowns (crates/RustQuant_math/src/risk_reward.rs 90): `powi(2)` is one multiplication, and the squares are added from
the left. Rust starts from `-0.0`, which only matters for an empty list. -/
def squares (drawdowns : List X64) : X64 := (drawdowns.map fun x => x.mul x).foldl X64.add zero

/-- `burke_ratio` (crates/RustQuant_math/src/risk_reward.rs 89-93). -/
def Measures.burke (p : Measures) (drawdowns : List X64) : X64 := (p.rp.sub p.r).div (squares drawdowns)

/-- `return_on_var` (crates/RustQuant_math/src/risk_reward.rs 104-106). -/
def Measures.returnOnVar (p : Measures) : X64 := p.rp.div p.var

/-- `jensens_alpha` (crates/RustQuant_math/src/risk_reward.rs 119-121). -/
def Measures.alpha (p : Measures) : X64 := p.rp.sub (p.r.add (p.beta.mul (p.rm.sub p.r)))

end Verif.Float.Reward
