import Verif.Options.Bsm

/-!
# Model of the implied volatility solver

Source: `crates/RustQuant_instruments/src/options/implied_volatility.rs`. `f64` is modelled by `ℝ`: rounding, overflow and
underflow are not modelled, and the constants that stand for irrational numbers (`SQRT_THREE`, `SQRT_TWO_PI`, ...) are those
numbers. `erfcx` comes from an external crate and is its mathematical definition.
-/

namespace Verif.ImpliedVol

open Real Classical Verif.Options Verif.Distributions
open Verif.Options.Bsm (N n)

/-- `Gaussian::default().inv_cdf` (gaussian.rs 157-161). -/
noncomputable def invN (p : ℝ) : ℝ := Gaussian.std.invCdf p

/-- `erfcx` of the external crate `errorfunctions`: `exp(z²) erfc(z)`.
Called at implied_volatility.rs 538 and 586-587. -/
noncomputable def erfcx (z : ℝ) : ℝ := exp (z ^ 2) * erfc z

/-- `f64::EPSILON`. Written at implied_volatility.rs 61, 795 and 858. -/
noncomputable def epsilon : ℝ := 2 ^ (-52 : ℤ)

/-- `f64::MIN_POSITIVE`. Written at implied_volatility.rs 135 and 732. -/
noncomputable def minPositive : ℝ := 2 ^ (-1022 : ℤ)

/-- `f64::MAX`; `f64::MIN` is its negative. Written at implied_volatility.rs 262, 728-733. -/
noncomputable def maxFinite : ℝ := (2 - 2 ^ (-52 : ℤ)) * 2 ^ 1023

/-- `SIXTEENTH_ROOT_DBL_EPSILON` (implied_volatility.rs 38). -/
noncomputable def sixteenthRootEpsilon : ℝ := 0.10511205190671433

/-- `FOURTH_ROOT_DBL_EPSILON` (implied_volatility.rs 39). -/
noncomputable def fourthRootEpsilon : ℝ := 0.0001220703125

/-- `SQRT_DBL_MIN` (implied_volatility.rs 46). -/
noncomputable def sqrtMin : ℝ := 1.4916681462400413e-154

/-- `SQRT_DBL_MAX` (implied_volatility.rs 47). -/
noncomputable def sqrtMax : ℝ := 1.3407807929942596e154

/-- `DENORMALIZATION_CUTOFF` (implied_volatility.rs 51). -/
def cutoff : ℝ := 0

/-- `IMPLIED_VOLATILITY_MAXIMUM_ITERATIONS` (implied_volatility.rs 52). -/
def maxIterations : ℕ := 2

/-- `ASYMPTOTIC_EXPANSION_ACCURACY_THRESHOLD` (implied_volatility.rs 53). -/
def eta : ℝ := -10

/-- `SMALL_T_EXPANSION_OF_NORMALIZED_BLACK_THRESHOLD` (implied_volatility.rs 54-55). -/
noncomputable def tau : ℝ := 2 * sixteenthRootEpsilon

/-- `MINIMUM_RATIONAL_CUBIC_CONTROL_PARAMETER_VALUE` (implied_volatility.rs 59). -/
noncomputable def minControl : ℝ := 1.4901161193847656e-8

/-- `MAXIMUM_RATIONAL_CUBIC_CONTROL_PARAMETER_VALUE` (implied_volatility.rs 60-61). -/
noncomputable def maxControl : ℝ := 2 / (epsilon * epsilon)

/-- `is_below_horizon` (implied_volatility.rs 129-131). -/
def isBelowHorizon (x : ℝ) : Prop := |x| < cutoff

/-- `is_zero` (implied_volatility.rs 134-136). -/
def isZero (x : ℝ) : Prop := |x| < minPositive

/-- `inverse_f_upper_map` (implied_volatility.rs 139-141). -/
noncomputable def inverseFUpperMap (f : ℝ) : ℝ := -2 * invN f

/-- The denominator of `householder_factor` (implied_volatility.rs 145). -/
noncomputable def householderDen (newton halley hh3 : ℝ) : ℝ := 1 + newton * (halley + hh3 * newton / 6)

/-- `householder_factor` (implied_volatility.rs 144-146); `none` is a division by zero. -/
noncomputable def householderFactor (newton halley hh3 : ℝ) : Option ℝ :=
  if householderDen newton halley hh3 = 0 then none
  else some ((1 + 0.5 * halley * newton) / householderDen newton halley hh3)

/-- `small_t_expansion_sum` (implied_volatility.rs 150-170). -/
noncomputable def smallTExpansionSum (t a w h2 : ℝ) : ℝ :=
  2 * t *
    (a +
      w * ((-1+3*a+a*h2)/6+
      w * ((-7+15*a+h2*(-1+10*a+a*h2))/120+
      w * ((-57+105*a+h2*(-18+105*a+h2*(-1+21*a+a*h2)))/5040+
      w * ((-561+945*a+h2*(-285+1260*a+h2*(-33+378*a+h2*(-1+36*a+a*h2))))/362880+
      w * ((-6555+10395*a+
        h2*(-4680+17325*a+
          h2*(-840+6930*a+
            h2*(-52+990*a+
              h2*(-1+55*a+a*
                h2))))) / 39916800+((-89055+135135*a+
                  h2*(-82845+270270*a+
                    h2*(-20370+135135*a+
                      h2*(-1926+25740*a+
                        h2*(-75+2145*a+
                          h2*(-1+78*a+a*
                            h2))))))
      * w) / 6227020800 ))))))

/-- `asymptotic_expansion_sum` (implied_volatility.rs 174-212). -/
noncomputable def asymptoticExpansionSum (e q : ℝ) : ℝ :=
  2 +
    q * (-6-2*e + 3*
    q * (10+e*(20+2*e) + 5*
    q * (-14+e*(-70+e*(-42-2*e)) + 7*
    q * (18+e*(168+e*(252+e*(72+2*e))) + 9*
    q * (-22+e*(-330+e*(-924+e*(-660+e*(-110-2*e)))) + 11*
    q * (26+e*(572+e*(2574+e*(3432+e*(1430+e*(156+2*e))))) + 13*
    q * (-30+e*(-910+e*(-6006+e*(-12870+e*(-10010+e*(-2730+e*(-210-2*e)))))) + 15*
    q * (34+e*(1360+e*(12376+e*(38896+e*(48620+e*(24752+e*(4760+e*(272+2*e))))))) + 17*
    q * (-38+e*(-1938+e*(-23256+e*(-100776+e*(-184756+e*(-151164+e*(-54264+e*(-7752+e*(-342-2*e)))))))) + 19*
    q * (42+e*(2660+e*(40698+e*(232560+e*(587860+e*(705432+e*(406980+e*(108528+e*(11970+e*(420+2*e))))))))) + 21*
    q * (-46+e*(-3542+e*(-67298+e*(-490314+e*(-1634380+e*(-2704156+e*(-2288132+e*(-980628+e*(-201894+e*(-17710+e*(-506
      -2*e)))))))))) + 23*
    q * (50+e*(4600+e*(106260+e*(961400+e*(4085950+e*(8914800+e*(10400600+e*(6537520+e*(2163150+e*(354200+e*(25300+e*(600
      +2*e))))))))))) + 25*
    q * (-54+e*(-5850+e*(-161460+e*(-1776060+e*(-9373650+e*(-26075790+e*(-40116600+e*(-34767720+e*(-16872570+e*(-4440150
      +e*(-592020+e*(-35100+e*(-702-2*e)))))))))))) + 27*
    q * (58+e*(7308+e*(237510+e*(3121560+e*(20030010+e*(69194580+e*(135727830+e*(155117520+e*(103791870+e*(40060020
      +e*(8584290+e*(950040+e*(47502+e*(812+2*e))))))))))))) + 29*
    q * (-62+e*(-8990+e*(-339822+e*(-5259150+e*(-40320150+e*(-169344630+e*(-412506150+e*(-601080390+e*(-530365050
      +e*(-282241050+e*(-88704330+e*(-15777450+e*(-1472562+e*(-62930+e*(-930-2*e)))))))))))))) + 31*
    q * (66+e*(10912+e*(474672+e*(8544096+e*(77134200+e*(387073440+e*(1146332880+e*(2074316640+e*(2333606220
      +e*(1637618400+e*(709634640+e*(185122080+e*(27768312+e*(2215136+e*(81840+e*(1056+2*e
      )))))))))))))))
    + 33*(-70+e*(-13090+e*(-649264+e*(-13449040+e*(-141214920+e*(-834451800+e*(-2952675600+e*(-6495886320
      +e*(-9075135300+e*(-8119857900+e*(-4639918800+e*(-1668903600+e*(-367158792+e*(-47071640+e*(-3246320
      +e*(-104720+e*(-1190-2*e))))))))))))))))) * q ))))))))))))))))

/-- `rational_cubic_control_parameter_to_fit_second_derivative_at_left_side` (implied_volatility.rs 218-244). -/
noncomputable def controlLeft (xl xr yl yr dl dr second : ℝ) : ℝ :=
  let h := xr - xl
  let num := 0.5 * h * second + (dr - dl)
  let den := (yr - yl) / h - dl
  if isZero num then 0
  else if isZero den then (if 0 < num then maxControl else minControl)
  else num / den

/-- The quotients of implied_volatility.rs 279. An infinite quotient is `maxControl`, which has the same effect in
`interpolation`; `0/0` is a NaN, which `f64::max` ignores, and is 0 here. -/
noncomputable def absQuotient (a b : ℝ) : ℝ := if b = 0 then (if a = 0 then 0 else maxControl) else |a / b|

/-- `minimum_rational_cubic_control_parameter` (implied_volatility.rs 246-290). -/
noncomputable def minimumControl (dl dr s : ℝ) (preferShape : Bool) : ℝ :=
  let monotonic := 0 ≤ dl * s ∧ 0 ≤ dr * s
  let convex := dl ≤ s ∧ s ≤ dr
  let concave := s ≤ dl ∧ dr ≤ s
  if ¬ monotonic ∧ ¬ convex ∧ ¬ concave then minControl
  else
    let r1 := if monotonic then
        (if ¬ isZero s then (dr + dl) / s else if preferShape then maxControl else -maxFinite)
      else -maxFinite
    let r2 := if convex ∨ concave then
        (if ¬ isZero (s - dl) ∨ isZero (dr - s) then max (absQuotient (dr - dl) (dr - s)) (absQuotient (dr - dl) (s - dl))
          else if preferShape then maxControl else -maxFinite)
      else if monotonic ∧ preferShape then maxControl else -maxFinite
    max minControl (max r1 r2)

/-- `rational_cubic_control_parameter_to_fit_second_derivative_at_right_side` (implied_volatility.rs 292-314). -/
noncomputable def controlRight (xl xr yl yr dl dr second : ℝ) : ℝ :=
  let h := xr - xl
  let num := 0.5 * h * second + (dr - dl)
  let den := dr - (yr - yl) / h
  if isZero num then 0 else if isZero den then maxControl else num / den

/-- `interpolation` (implied_volatility.rs 317-347). -/
noncomputable def interpolation (x xl xr yl yr dl dr r : ℝ) : ℝ :=
  let h := xr - xl
  if |h| ≤ 0 then 0.5 * (yl + yr)
  else
    let t := (x - xl) / h
    if r < maxControl then
      let omt := 1 - t
      let t2 := t * t
      let omt2 := omt * omt
      (yr * t2 * t + (r * yr - h * dr) * t2 * omt + (r * yl + h * dl) * t * omt2 + yl * omt2 * omt)
        / (1 + (r - 3) * t * omt)
    else yr * t + yl * (1 - t)

/-- `convex_rational_cubic_control_parameter_to_fit_second_derivative_at_left_side` (implied_volatility.rs 350-378). -/
noncomputable def convexControlLeft (xl xr yl yr dl dr second : ℝ) (preferShape : Bool) : ℝ :=
  max (controlLeft xl xr yl yr dl dr second) (minimumControl dl dr ((yr - yl) / (xr - xl)) preferShape)

/-- `convex_rational_cubic_control_parameter_to_fit_second_derivative_at_right_side` (implied_volatility.rs 381-409). -/
noncomputable def convexControlRight (xl xr yl yr dl dr second : ℝ) (preferShape : Bool) : ℝ :=
  max (controlRight xl xr yl yr dl dr second) (minimumControl dl dr ((yr - yl) / (xr - xl)) preferShape)

/-- `compute_f_lower_map_and_first_two_derivatives` (implied_volatility.rs 411-438). -/
noncomputable def fLowerMap (x s : ℝ) : ℝ × ℝ × ℝ :=
  let ax := |x|
  let z := √(1 / 3) * ax / s
  let y := z * z
  let s2 := s * s
  let PHI := N (-z)
  let phi := n z
  let fpp := π / 6 * y / (s2 * s) * PHI * (8 * √3 * s * ax + (3 * s2 * (s2 - 8) - 8 * x * x) * PHI / phi)
    * exp (2 * y + 0.25 * s2)
  let PHI2 := PHI * PHI
  let fp := if ¬ isBelowHorizon s then 2 * π * y * PHI2 * exp (y + 0.125 * s * s) else 1
  let f := if ¬ isBelowHorizon s ∧ ¬ isBelowHorizon x then 2 * π / √27 * ax * (PHI2 * PHI) else 0
  (f, fp, fpp)

/-- `compute_f_upper_map_and_first_two_derivatives` (implied_volatility.rs 440-454). -/
noncomputable def fUpperMap (x s : ℝ) : ℝ × ℝ × ℝ :=
  let f := N (-0.5 * s)
  if ¬ isBelowHorizon x then
    let w := (x / s) ^ 2
    (f, -0.5 * exp (0.5 * w), √(π / 2) * exp (w + 0.125 * s * s) * (w / s))
  else (f, -0.5, 0)

/-- `inverse_f_lower_map` (implied_volatility.rs 456-465). -/
noncomputable def inverseFLowerMap (x f : ℝ) : ℝ :=
  if isBelowHorizon f then 0 else |x / (√3 * invN ((f / (2 * π / √27 * |x|)) ^ (1 / 3 : ℝ)))|

/-- `normalized_black_call_using_norm_cdf` (implied_volatility.rs 467-482). -/
noncomputable def blackUsingNormCdf (x s : ℝ) : ℝ :=
  let h := x / s
  let t := 0.5 * s
  let bMax := exp (0.5 * x)
  max (N (h + t) * bMax - N (h - t) / bMax) 0

/-- `asymptotic_expansion_of_normalized_black_call` (implied_volatility.rs 484-517). -/
noncomputable def asymptoticExpansion (h t : ℝ) : ℝ :=
  let e := (t / h) * (t / h)
  let r := (h + t) * (h - t)
  let q := (h / r) * (h / r)
  max (1 / √(2 * π) * exp (-0.5 * (h * h + t * t)) * (t / r) * asymptoticExpansionSum e q) 0

/-- `small_t_expansion_of_normalized_black_call` (implied_volatility.rs 519-545). -/
noncomputable def smallTExpansion (h t : ℝ) : ℝ :=
  let a := 1 + h * (0.5 * √(2 * π)) * erfcx (-(1 / √2) * h)
  let w := t * t
  let h2 := h * h
  max (1 / √(2 * π) * exp (-0.5 * (h * h + t * t)) * smallTExpansionSum t a w h2) 0

/-- `normalised_black_call_using_erfcx` (implied_volatility.rs 547-590). -/
noncomputable def blackUsingErfcx (h t : ℝ) : ℝ :=
  max (0.5 * exp (-0.5 * (h * h + t * t)) * (erfcx (-(1 / √2) * (h + t)) - erfcx (-(1 / √2) * (h - t)))) 0

/-- `normalised_intrinsic` (implied_volatility.rs 592-621). -/
noncomputable def normalisedIntrinsic (x q : ℝ) : ℝ :=
  if q * x ≤ 0 then 0
  else
    let x2 := x * x
    if x2 < 98 * fourthRootEpsilon then
      let ret := x * (1 + x2 * (1 / 24 + x2 * (1 / 1920 + x2 * (1 / 322560 + 1 / 92897280 * x2))))
      max (if q < 0 then -ret else ret) 0
    else
      let bMax := exp (0.5 * x)
      let ret := bMax - 1 / bMax
      max (if q < 0 then -ret else ret) 0

/-- `normalised_intrinsic_call` (implied_volatility.rs 124-126). -/
noncomputable def normalisedIntrinsicCall (x : ℝ) : ℝ := normalisedIntrinsic x 1

/-- `normalised_black_call` for `x ≤ 0` (implied_volatility.rs 628-660). -/
noncomputable def normalisedBlackCallOtm (x s : ℝ) : ℝ :=
  if s ≤ |x| * cutoff then normalisedIntrinsicCall x
  else if x < s * eta ∧ 0.5 * s * s + x < s * (tau + eta) then asymptoticExpansion (x / s) (0.5 * s)
  else if 0.5 * s < tau then smallTExpansion (x / s) (0.5 * s)
  else if s * 0.85 < x + 0.5 * s * s then blackUsingNormCdf x s
  else blackUsingErfcx (x / s) (0.5 * s)

/-- `normalised_black_call` (implied_volatility.rs 623-661); the recursive call is for a negative first argument. -/
noncomputable def normalisedBlackCall (x s : ℝ) : ℝ :=
  if 0 < x then normalisedIntrinsicCall x + normalisedBlackCallOtm (-x) s else normalisedBlackCallOtm x s

/-- `normalised_vega` (implied_volatility.rs 663-675). -/
noncomputable def normalisedVega (x s : ℝ) : ℝ :=
  let ax := |x|
  if ax ≤ 0 then 1 / √(2 * π) * exp (-0.125 * s * s)
  else if s ≤ 0 ∨ s ≤ ax * sqrtMin then 0
  else 1 / √(2 * π) * exp (-0.5 * ((x / s) ^ 2 + (0.5 * s) ^ 2))

/-- The variables of the three iterations (implied_volatility.rs 726-733). -/
structure State where
  iterations : ℕ
  reversals : ℕ
  s : ℝ
  ds : ℝ
  dsPrevious : ℝ
  sLeft : ℝ
  sRight : ℝ

/-- The step of the lowest segment (implied_volatility.rs 818-834); the arguments are the call price and vega at `s` and the
bracket. `none` is a division by zero. -/
noncomputable def lowerStep (beta x b bp s sLeft sRight : ℝ) : Option ℝ :=
  if b ≤ 0 ∨ bp ≤ 0 then some (0.5 * (sLeft + sRight) - s)
  else
    let lnB := log b
    let lnBeta := log beta
    if lnB = 0 ∨ lnBeta = 0 ∨ s = 0 then none
    else
      let bpob := bp / b
      let h := x / s
      let bHalley := h * h / s - s / 4
      let newton := (lnBeta - lnB) * lnB / lnBeta / bpob
      let halley := bHalley - bpob * (1 + 2 / lnB)
      let bHh3 := bHalley * bHalley - 3 * (h / s) ^ 2 - 0.25
      let hh3 := bHh3 + 2 * bpob ^ 2 * (1 + 3 / lnB * (1 + 1 / lnB)) - 3 * bHalley * bpob * (1 + 2 / lnB)
      (householderFactor newton halley hh3).map (newton * ·)

/-- The step of the highest segment (implied_volatility.rs 949-962). -/
noncomputable def upperStep (beta bMax x b bp s sLeft sRight : ℝ) : Option ℝ :=
  if bMax ≤ b ∨ bp ≤ epsilon then some (0.5 * (sLeft + sRight) - s)
  else if s = 0 then none
  else
    let d := bMax - b
    let g := log ((bMax - beta) / d)
    let gp := bp / d
    let bHalley := (x / s) ^ 2 / s - s / 4
    let bHh3 := bHalley * bHalley - 3 * (x / (s * s)) ^ 2 - 0.25
    let newton := -g / gp
    let halley := bHalley + gp
    let hh3 := bHh3 + gp * (2 * gp + 3 * bHalley)
    (householderFactor newton halley hh3).map (newton * ·)

/-- The step of the two middle segments (implied_volatility.rs 1000-1004). -/
noncomputable def middleStep (beta x b bp s _sLeft _sRight : ℝ) : Option ℝ :=
  if bp = 0 ∨ s = 0 then none
  else
    let newton := (beta - b) / bp
    let halley := (x / s) ^ 2 - s / 4
    let hh3 := halley * halley - 3 * (x / (s * s)) ^ 2 - 0.25
    (householderFactor newton halley hh3).map (newton * ·)

/-- The part of a round after the check for inefficiency, up to the new `s` (implied_volatility.rs 810-837, 941-965,
992-1007); `step` is one of the three steps. -/
noncomputable def body (step : ℝ → ℝ → ℝ → ℝ → ℝ → Option ℝ) (beta x : ℝ) (st : State) : Option State :=
  let b := normalisedBlackCall x st.s
  let bp := normalisedVega x st.s
  let sRight := if beta < b ∧ st.s < st.sRight then st.s else st.sRight
  let sLeft := if ¬ (beta < b ∧ st.s < st.sRight) ∧ (b < beta ∧ st.sLeft < st.s) then st.s else st.sLeft
  (step b bp st.s sLeft sRight).map fun ds =>
    let ds := max ds (-0.5 * st.s)
    { iterations := st.iterations + 1, reversals := st.reversals, s := st.s + ds, ds := ds, dsPrevious := st.ds,
      sLeft := sLeft, sRight := sRight }

/-- The three `while` loops (implied_volatility.rs 795-839, 925-967, 978-1009) with at most `n` more rounds: the value of `s`
at the end, `none` after a division by zero. -/
noncomputable def iterate (step : ℝ → ℝ → ℝ → ℝ → ℝ → Option ℝ) (beta x : ℝ) : ℕ → State → Option ℝ
  | 0, st => some st.s
  | k + 1, st =>
    if epsilon * st.s < |st.ds| then
      let reversals := if st.ds * st.dsPrevious < 0 then st.reversals + 1 else st.reversals
      if 0 < st.iterations ∧ (reversals = 3 ∨ ¬ (st.sLeft < st.s ∧ st.s < st.sRight)) then
        let s := 0.5 * (st.sLeft + st.sRight)
        if st.sRight - st.sLeft ≤ epsilon * s then some s
        else (body step beta x { st with s := s, ds := 0, reversals := 0 }).bind (iterate step beta x k)
      else (body step beta x { st with reversals := reversals }).bind (iterate step beta x k)
    else some st.s

/-- The result of the solver. `undefined` stands for a division by zero in an iteration.
See implied_volatility.rs 720-1000. -/
inductive Outcome
  | negInfinity
  | infinity
  | finite (s : ℝ)
  | undefined

/-- The start of an iteration (implied_volatility.rs 726-733) from a guess in a bracket. -/
noncomputable def start (s sLeft sRight : ℝ) : State :=
  { iterations := 0, reversals := 0, s := s, ds := -maxFinite, dsPrevious := 0, sLeft := sLeft, sRight := sRight }

/-- The iterations as an outcome. See implied_volatility.rs 978-1000. -/
noncomputable def run (step : ℝ → ℝ → ℝ → ℝ → ℝ → Option ℝ) (beta x : ℝ) (k : ℕ) (st : State) : Outcome :=
  match iterate step beta x k st with
  | some s => .finite s
  | none => .undefined

/-- The critical point `s_c` (implied_volatility.rs 739). -/
noncomputable def sC (x : ℝ) : ℝ := √|2 * x|

/-- `b_c` (implied_volatility.rs 740). -/
noncomputable def bC (x : ℝ) : ℝ := normalisedBlackCall x (sC x)

/-- `v_c` (implied_volatility.rs 741). -/
noncomputable def vC (x : ℝ) : ℝ := normalisedVega x (sC x)

/-- `s_l` (implied_volatility.rs 745). -/
noncomputable def sL (x : ℝ) : ℝ := sC x - bC x / vC x

/-- `b_l` (implied_volatility.rs 746). -/
noncomputable def bL (x : ℝ) : ℝ := normalisedBlackCall x (sL x)

/-- `s_u` (implied_volatility.rs 857-860). -/
noncomputable def sU (x : ℝ) : ℝ := if epsilon < vC x then sC x + (exp (0.5 * x) - bC x) / vC x else sC x

/-- `b_u` (implied_volatility.rs 861). -/
noncomputable def bU (x : ℝ) : ℝ := normalisedBlackCall x (sU x)

/-- The guess in the lowest segment (implied_volatility.rs 749-780). -/
noncomputable def lowerGuess (beta x : ℝ) : ℝ :=
  let m := fLowerMap x (sL x)
  let r := convexControlRight 0 (bL x) 0 m.1 1 m.2.1 m.2.2 true
  let f := interpolation beta 0 (bL x) 0 m.1 1 m.2.1 r
  let f := if f ≤ 0 then (m.1 * (beta / bL x) + bL x * (1 - beta / bL x)) * (beta / bL x) else f
  inverseFLowerMap x f

/-- The guess in the lower middle segment (implied_volatility.rs 842-853). -/
noncomputable def lowerMiddleGuess (beta x : ℝ) : ℝ :=
  let vL := normalisedVega x (sL x)
  let r := convexControlRight (bL x) (bC x) (sL x) (sC x) (1 / vL) (1 / vC x) 0 false
  interpolation beta (bL x) (bC x) (sL x) (sC x) (1 / vL) (1 / vC x) r

/-- The guess in the upper middle segment (implied_volatility.rs 863-875). -/
noncomputable def upperMiddleGuess (beta x : ℝ) : ℝ :=
  let vU := normalisedVega x (sU x)
  let r := convexControlLeft (bC x) (bU x) (sC x) (sU x) (1 / vC x) (1 / vU) 0 false
  interpolation beta (bC x) (bU x) (sC x) (sU x) (1 / vC x) (1 / vU) r

/-- The guess in the highest segment (implied_volatility.rs 879-910). -/
noncomputable def upperGuess (beta x : ℝ) : ℝ :=
  let bMax := exp (0.5 * x)
  let m := fUpperMap x (sU x)
  let f := if -sqrtMax < m.2.2 ∧ m.2.2 < sqrtMax then
      interpolation beta (bU x) bMax m.1 0 m.2.1 (-0.5) (convexControlLeft (bU x) bMax m.1 0 m.2.1 (-0.5) m.2.2 true)
    else -maxFinite
  let h := bMax - bU x
  let t := (beta - bU x) / h
  let f := if f ≤ 0 then (m.1 * (1 - t) + 0.5 * h * t) * (1 - t) else f
  inverseFUpperMap f

/-- The four segments for an out-of-the-money call (implied_volatility.rs 735-1009). -/
noncomputable def solveOtm (beta x : ℝ) (k : ℕ) : Outcome :=
  if beta < bC x then
    if beta < bL x then run (lowerStep beta x) beta x k (start (lowerGuess beta x) minPositive (sL x))
    else run (middleStep beta x) beta x k (start (lowerMiddleGuess beta x) (sL x) (sC x))
  else if beta ≤ bU x then run (middleStep beta x) beta x k (start (upperMiddleGuess beta x) (sC x) (sU x))
  else if 0.5 * exp (0.5 * x) < beta then
    run (upperStep beta (exp (0.5 * x)) x) beta x k (start (upperGuess beta x) (sU x) maxFinite)
  else run (middleStep beta x) beta x k (start (upperGuess beta x) (sU x) maxFinite)

/-- `unchecked_normalised_implied_volatility_from_a_transformed_rational_guess_with_limited_iterations`
(implied_volatility.rs 678-1010). -/
noncomputable def unchecked (beta x q : ℝ) (k : ℕ) : Outcome :=
  let beta' := if 0 < q * x then beta - normalisedIntrinsic x q else beta
  let q' := if 0 < q * x then -q else q
  let x' := if q' < 0 then -x else x
  if beta' < 0 then .negInfinity
  else if beta' ≤ cutoff then .finite 0
  else if exp (0.5 * x') ≤ beta' then .infinity
  else solveOtm beta' x' k

/-- Multiplication by the positive number `1 / √T`. Of implied_volatility.rs 1042. -/
noncomputable def Outcome.scale (c : ℝ) : Outcome → Outcome
  | .negInfinity => .negInfinity
  | .infinity => .infinity
  | .finite s => .finite (c * s)
  | .undefined => .undefined

/-- `implied_volatility_from_a_transformed_rational_guess_with_limited_iterations` (implied_volatility.rs 1012-1048), for
positive `F`, `K` and `T`. -/
noncomputable def fromRationalGuess (price F K T q : ℝ) : Outcome :=
  let intrinsic := max (if q < 0 then K - F else F - K) 0
  if price < intrinsic then .negInfinity
  else if (if q < 0 then K else F) ≤ price then .infinity
  else
    let x := log (F / K)
    let newPrice := if 0 < q * x then max (price - intrinsic) 0 else price
    let newQ := if 0 < q * x then -q else q
    (unchecked (newPrice / (√F * √K)) x newQ maxIterations).scale (1 / √T)

/-- `implied_volatility` and `iv` (implied_volatility.rs 92-117). -/
noncomputable def impliedVolatility (price S K T r : ℝ) (flag : TypeFlag) : Outcome :=
  let rate := exp (r * T)
  fromRationalGuess (price * rate) (S * rate) K T (match flag with | .call => 1 | .put => -1)

end Verif.ImpliedVol
