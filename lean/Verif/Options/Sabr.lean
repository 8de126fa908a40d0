import Mathlib.Analysis.SpecialFunctions.Pow.Real
import Mathlib.Analysis.SpecialFunctions.Log.Basic
import Mathlib.Analysis.Real.Sqrt

/-!
# The SABR volatility formula (crates/RustQuant_instruments/src/options/option_models.rs, `mod sabr` and `Sabr02`)

`f64` is an exact real. The functions are modelled for a positive forward and strike and a correlation strictly between
`-1` and `1`; there the only division by zero is by `chi`, and `none` stands for the NaN or infinity it gives. The
optimiser of `Sabr02::fit` (the particle swarm of the crate `argmin`) is not modelled, only its cost function.
-/

namespace Verif.Options.Sabr

open Real

/-- `fk_power` (option_models.rs 1255-1257). -/
noncomputable def fkPower (f k beta : ℝ) : ℝ := (f * k) ^ ((1 - beta) / 2)

/-- `z` (option_models.rs 1242-1244). -/
noncomputable def z (f k beta : ℝ) : ℝ := log (f / k) * fkPower f k beta

/-- `chi` (option_models.rs 1246-1253). -/
noncomputable def chi (f k beta rho : ℝ) : ℝ :=
  log (√(1 - 2 * rho * z f k beta + z f k beta ^ 2) + z f k beta - rho) / (1 - rho)

open Classical in
/-- `coefficient` (option_models.rs 1224-1226); `none` is the division by zero. -/
noncomputable def coefficient (f k beta rho : ℝ) : Option ℝ :=
  if chi f k beta rho = 0 then none else some (z f k beta / chi f k beta rho)

/-- `numerator` (option_models.rs 1228-1233). -/
noncomputable def numerator (f k t alpha beta rho nu : ℝ) : ℝ :=
  let term1 := (1 - beta) ^ 2 * alpha ^ 2 / (24 * fkPower f k beta ^ 2)
  let term2 := 0.25 * rho * beta * alpha * nu / fkPower f k beta
  let term3 := (2 - 3 * rho ^ 2) * nu ^ 2 / 24
  alpha * (1 + (term1 + term2 + term3) * t)

/-- `denominator` (option_models.rs 1235-1240). -/
noncomputable def denominator (f k beta : ℝ) : ℝ :=
  let term1 := fkPower f k beta
  let term2 := (1 - beta) ^ 2 * log (f / k) ^ 2 / 24
  let term3 := (1 - beta) ^ 4 * log (f / k) ^ 4 / 1920
  term1 * (1 + term2 + term3)

/-- `sabr_volatility` (option_models.rs 1211-1222). -/
noncomputable def sabrVolatility (f k t alpha beta rho nu : ℝ) : Option ℝ :=
  (coefficient f k beta rho).map fun c => c * numerator f k t alpha beta rho nu / denominator f k beta

end Verif.Options.Sabr

namespace Verif.Options

/-- `Sabr02` (option_models.rs 80-88). -/
structure Sabr02 where
  f : ℝ
  alpha : ℝ
  beta : ℝ
  rho : ℝ
  nu : ℝ

namespace Sabr02

/-- `volatility` (option_models.rs 1292-1294). -/
noncomputable def volatility (m : Sabr02) (k t : ℝ) : Option ℝ :=
  Sabr.sabrVolatility m.f k t m.alpha m.beta m.rho m.nu

/-- The loop of `cost` (option_models.rs 1277-1283): `zip` stops at the shorter list; `none` is NaN or infinite. -/
noncomputable def costLoop (m : Sabr02) (t : ℝ) : List (ℝ × ℝ) → ℝ → Option ℝ
  | [], cost => some cost
  | (k, vol) :: data, cost => (m.volatility k t).bind fun v => costLoop m t data (cost + (v - vol) ^ 2)

/-- `Sabr02Calibrator::cost` (option_models.rs 1267-1287) at the parameters `alpha`, `rho`, `nu` of `m`, for the strikes
and volatilities given to `fit` (1303-1317). -/
noncomputable def cost (m : Sabr02) (t : ℝ) (strikes volatilities : List ℝ) : Option ℝ :=
  (m.costLoop t (strikes.zip volatilities) 0).map Real.sqrt

end Sabr02

end Verif.Options
