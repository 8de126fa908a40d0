import Verif.Options.Bsm

/-! # Specification for the implied volatility solver -/

namespace Verif.ImpliedVol

open Real Verif.Options
open Verif.Options.Bsm (N n)

/-- The normalised Black price of a call with log-moneyness `x` and total volatility `s`:
`Φ(x/s + s/2) exp(x/2) - Φ(x/s - s/2) exp(-x/2)`. -/
noncomputable def black (x s : ℝ) : ℝ := N (x / s + s / 2) * exp (x / 2) - N (x / s - s / 2) * exp (-x / 2)

/-- Its derivative in the total volatility (see `C78_derivatives`). -/
noncomputable def blackVega (x s : ℝ) : ℝ := exp (-((x / s) ^ 2 + (s / 2) ^ 2) / 2) / √(2 * π)

/-- The arbitrage bound from below: the discounted intrinsic value. -/
noncomputable def lowerBound (S K T r : ℝ) : TypeFlag → ℝ
  | .call => max (S - K * exp (-(r * T))) 0
  | .put => max (K * exp (-(r * T)) - S) 0

/-- The arbitrage bound from above. -/
noncomputable def upperBound (S K T r : ℝ) : TypeFlag → ℝ
  | .call => S
  | .put => K * exp (-(r * T))

/-- The Black-Scholes price of an option on an asset without dividends, `C47`. -/
noncomputable def optionPrice (S K T r σ : ℝ) : TypeFlag → ℝ
  | .call => Bsm.callPrice S K T r r σ
  | .put => Bsm.putPrice S K T r r σ

end Verif.ImpliedVol
