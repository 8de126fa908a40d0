import Verif.Float.FiniteDifference

/-! Specification: the options and grids for which the C96 theorems are stated. -/

namespace Verif.Float.Fd

/-- An ordinary option on an ordinary grid: volatility between 0.1 % and 1600 %, between 9 hours and a thousand years to expiry, a spot
price whose logarithm is at most 1024, any strike, up to a million price steps and five times their square of time steps, and a drift
that the grid resolves (`21 * sqrt T * (|r| + volatility^2 / 2) ≤ volatility * price_steps`, a little weaker). The platform's
logarithm may be anything in the stated range, its square root must be right to 20 bits. -/
structure Ordinary (m : Libm) (o : Pricer) : Prop where
  inputs : ∃ r σ T L Q : F64, o.riskFreeRate = .fin r ∧ o.volatility = .fin σ ∧ o.T = .fin T ∧ m.ln o.initialPrice = .fin L ∧
    m.sqrt o.T = .fin Q ∧ 2 ^ (-10 : ℤ) ≤ σ.val ∧ σ.val ≤ 2 ^ 4 ∧ 2 ^ (-10 : ℤ) ≤ T.val ∧ T.val ≤ 2 ^ 10 ∧ |L.val| ≤ 2 ^ 10 ∧
    0 < Q.val ∧ |Q.val ^ 2 - T.val| ≤ 2 ^ (-20 : ℤ) * T.val ∧ |r.val| ≤ 2 ^ 10 ∧
    450 * T.val * (|r.val| + σ.val ^ 2 / 2) ^ 2 ≤ σ.val ^ 2 * o.priceSteps ^ 2
  steps : 4 ≤ o.priceSteps ∧ o.priceSteps ≤ 2 ^ 20 ∧ 1 ≤ o.timeSteps ∧ o.timeSteps ≤ 5 * o.priceSteps ^ 2

/-- The number that a finite value is. -/
def num : X64 → ℚ
  | .fin a => a.val
  | _ => 0

/-- A finite value, at most `B` in size. -/
def Within (B : ℚ) (x : X64) : Prop := ∃ a : F64, x = .fin a ∧ |a.val| ≤ B

namespace Pricer

variable (m : Libm) (o : Pricer)

/-- The value below the first price of the grid at time step `t`: a put has the put boundary there, a call 0. -/
def below (t : ℕ) : X64 :=
  match o.typeFlag with
  | .call => .fin F64.zero
  | .put => o.putBoundary m ((X64.ofNat t).mul o.dt) (o.xMin m)

/-- The value above the last price of the grid at time step `t`: a call has the call boundary there, a put 0. -/
def above (t : ℕ) : X64 :=
  match o.typeFlag with
  | .call => o.callBoundary m ((X64.ofNat t).mul o.dt) (o.xMax m)
  | .put => .fin F64.zero

/-- The explicit scheme without rounding errors in the time stepping: the value after `t` steps at price number `i` (the `i + 1`st point
of the grid) is the sum of three neighbouring values one step earlier with the weights `x - y`, `1 - 2 x` and `x + y`; American options
are worth at least their exercise value. Grid, weights, payoffs and boundary values are those that the program computes. -/
def exactScheme : ℕ → ℕ → ℚ
  | 0, i => num (o.payoff (m.exp ((o.xMin m).add ((X64.ofNat (i + 1)).mul (o.dx m)))))
  | t + 1, i =>
    let s := num ((o.cx m).sub (o.cy m)) * (if i = 0 then num (o.below m (t + 1)) else exactScheme t (i - 1)) +
      num ((c 1).sub ((c 2).mul (o.cx m))) * exactScheme t i +
      num ((o.cx m).add (o.cy m)) * (if i = o.priceSteps - 2 then num (o.above m (t + 1)) else exactScheme t (i + 1))
    if o.exerciseFlag = .american Options.dateMin Options.dateMax then
      max s (num (o.exerciseValue m ((X64.ofNat (t + 1)).mul o.dt) (o.xMin m) (o.dx m) (i + 1)))
    else s

/-- The value at the spot price: the middle point of the grid, or the mean of the two points around it. -/
def exactMiddle : ℚ :=
  if o.priceSteps % 2 = 0 then o.exactScheme m o.timeSteps (o.priceSteps / 2 - 1)
  else (o.exactScheme m o.timeSteps ((o.priceSteps - 1) / 2) + o.exactScheme m o.timeSteps ((o.priceSteps - 3) / 2)) / 2

/-- All payoffs, boundary values and exercise values are finite and at most `B` in size. -/
structure Bounded (B : ℚ) : Prop where
  ge_one : 1 ≤ B
  le_pow : B ≤ 2 ^ 100
  payoff : ∀ i < o.priceSteps - 1, Within B (o.payoff (m.exp ((o.xMin m).add ((X64.ofNat (i + 1)).mul (o.dx m)))))
  below : ∀ t, 1 ≤ t → t ≤ o.timeSteps → Within B (o.below m t)
  above : ∀ t, 1 ≤ t → t ≤ o.timeSteps → Within B (o.above m t)
  exercise : o.exerciseFlag = .american Options.dateMin Options.dateMax → ∀ t i, 1 ≤ t → t ≤ o.timeSteps → i < o.priceSteps - 1 →
    Within B (o.exerciseValue m ((X64.ofNat t).mul o.dt) (o.xMin m) (o.dx m) (i + 1))

end Pricer

end Verif.Float.Fd
