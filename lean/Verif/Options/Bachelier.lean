import Verif.Options.Bsm
import Mathlib.Analysis.SpecialFunctions.Artanh

/-!
# The Bachelier model

Models `mod bachelier` and `impl Bachelier` (crates/RustQuant_instruments/src/options/option_models.rs 986-1206).
`f64` is modelled by `ℝ`; `N` and `n` are the exact normal cdf and pdf.
-/

namespace Verif.Options

open Real

/-- `struct Bachelier` (option_models.rs 72-78). -/
structure Bachelier where
  f : ℝ
  r : ℝ
  v : ℝ

namespace Bachelier

open Bsm (N n)

/-- `d` (option_models.rs 1010-1013). -/
noncomputable def d (f k t v : ℝ) : ℝ := (f - k) / (v * √t)

/-- `df` (option_models.rs 1015-1018). -/
noncomputable def df (r t : ℝ) : ℝ := exp (-r * t)

/-- `call_price` (option_models.rs 990-998). -/
noncomputable def callPrice (f k t r v : ℝ) : ℝ :=
  df r t * ((f - k) * N (d f k t v) + v * √t * n (d f k t v))

/-- `put_price` (option_models.rs 1000-1008). -/
noncomputable def putPrice (f k t r v : ℝ) : ℝ :=
  df r t * ((k - f) * N (-d f k t v) + v * √t * n (d f k t v))

/-- `atm_price` (option_models.rs 1020-1023, 1157-1160). -/
noncomputable def atmPrice (m : Bachelier) (t : ℝ) : ℝ := m.v * √(t / (2 * π))

/-- `atm_vol` (option_models.rs 1025-1028, 1162-1165). -/
noncomputable def atmVol (price t : ℝ) : ℝ := price * √(2 * π / t)

/-- The table `A` (option_models.rs 1030-1039). -/
def A : List ℚ := [3.99496168734513e-1, 2.10096079506849e+1, 4.98034021785508e+1, 5.98876110269099e+2,
  1.84848969543709e+3, 6.10632240786705e+3, 2.49341528534936e+4, 1.26645805134824e+4]

/-- The table `B` (option_models.rs 1041-1051). -/
def B : List ℚ := [4.99053415358942e+1, 3.09357393674311e+1, 1.49510500831099e+3, 1.32361453789973e+3,
  1.59891969767974e+4, 2.39200889172078e+4, 3.60881710837503e+3, -2.06771948640092e+2, 1.17424059930601e+1]

/-- The loops `for (k, v) in l.iter().enumerate()[.skip(s)] { sum += v * eta.powi(k) }` (option_models.rs 1061-1069,
1084-1092). -/
noncomputable def sumTable (l : List ℚ) (s : ℕ) (eta : ℝ) : ℝ :=
  (l.zipIdx.drop s).foldl (fun sum p => sum + (p.1 : ℝ) * eta ^ p.2) 0

/-- The common body of `call_iv` and `put_iv` (option_models.rs 1053-1097): `den` is `2 price ∓ (f - k)` and `s` is the
number of entries of `B` skipped (0 in `call_iv`, 1 in `put_iv`). `none` stands for NaN: `t ≤ 0`, a zero `den`, `f = k`
(`0 / atanh 0`), and `v` outside the domain of `atanh`; at the end points `atanh` is infinite and `eta` is zero. -/
noncomputable def ivBody (den f k t : ℝ) (s : ℕ) : Option ℝ :=
  let v := |f - k| / den
  if t ≤ 0 ∨ den = 0 ∨ f = k ∨ 1 < |v| then none
  else
    let eta := if |v| = 1 then 0 else v / artanh v
    let hn := √eta * sumTable A 0 eta / (1 + sumTable B s eta)
    some (√(π / 2 / t) * den * hn)

/-- `call_iv` (option_models.rs 1053-1074). -/
noncomputable def callIv (price f k t : ℝ) : Option ℝ := ivBody (2 * price - (f - k)) f k t 0

/-- `put_iv` (option_models.rs 1076-1097). -/
noncomputable def putIv (price f k t : ℝ) : Option ℝ := ivBody (2 * price + (f - k)) f k t 1

/-- `call_delta` (option_models.rs 1099-1103). -/
noncomputable def callDelta (f k t v : ℝ) : ℝ := N (d f k t v)

/-- `put_delta` (option_models.rs 1105-1109). -/
noncomputable def putDelta (f k t v : ℝ) : ℝ := N (d f k t v) - 1

/-- `call_gamma` (option_models.rs 1111-1115). -/
noncomputable def callGamma (f k t v : ℝ) : ℝ := n (d f k t v) / (v * √t)

/-- `put_gamma` (option_models.rs 1117-1120). -/
noncomputable def putGamma (f k t v : ℝ) : ℝ := callGamma f k t v

/-- `call_vega` (option_models.rs 1122-1126). -/
noncomputable def callVega (f k t v : ℝ) : ℝ := √t * n (d f k t v)

/-- `put_vega` (option_models.rs 1128-1131). -/
noncomputable def putVega (f k t v : ℝ) : ℝ := callVega f k t v

/-- `call_theta` (option_models.rs 1133-1138). -/
noncomputable def callTheta (f k t v : ℝ) : ℝ := -v * n (d f k t v) / (2 * √t)

/-- `put_theta` (option_models.rs 1140-1145). -/
noncomputable def putTheta (f k t v : ℝ) : ℝ := -v * n (d f k t v) / (2 * √t)

/-- `Bachelier::price` (option_models.rs 1149-1155). -/
noncomputable def price (m : Bachelier) (k t : ℝ) : TypeFlag → ℝ
  | .call => callPrice m.f k t m.r m.v
  | .put => putPrice m.f k t m.r m.v

/-- `Bachelier::iv` (option_models.rs 1167-1173). -/
noncomputable def iv (m : Bachelier) (price k t : ℝ) : TypeFlag → Option ℝ
  | .call => callIv price m.f k t
  | .put => putIv price m.f k t

/-- `Bachelier::delta` (option_models.rs 1175-1181). -/
noncomputable def delta (m : Bachelier) (k t : ℝ) : TypeFlag → ℝ
  | .call => callDelta m.f k t m.v
  | .put => putDelta m.f k t m.v

/-- `Bachelier::gamma` (option_models.rs 1183-1189). -/
noncomputable def gamma (m : Bachelier) (k t : ℝ) : TypeFlag → ℝ
  | .call => callGamma m.f k t m.v
  | .put => putGamma m.f k t m.v

/-- `Bachelier::vega` (option_models.rs 1191-1197). -/
noncomputable def vega (m : Bachelier) (k t : ℝ) : TypeFlag → ℝ
  | .call => callVega m.f k t m.v
  | .put => putVega m.f k t m.v

/-- `Bachelier::theta` (option_models.rs 1199-1205). -/
noncomputable def theta (m : Bachelier) (k t : ℝ) : TypeFlag → ℝ
  | .call => callTheta m.f k t m.v
  | .put => putTheta m.f k t m.v

end Bachelier

end Verif.Options
