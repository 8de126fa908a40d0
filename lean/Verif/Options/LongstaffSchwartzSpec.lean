import Verif.Options.Payoffs
import Mathlib.Algebra.Polynomial.Eval.Degree
import Mathlib.Analysis.Real.Sqrt

/-!
# Specification of least-squares Monte Carlo (C75)

Written from the method, not from the code: log-price paths filled in backwards from their end (a Brownian bridge),
and a backward sweep in which a path is exercised when its payoff beats the value of going on, estimated by the best
polynomial of degree at most four in the asset price.
-/

namespace Verif.Options.Spec

open Polynomial

/-- What the option pays at price `s`. -/
noncomputable def lsPayoff (flag : TypeFlag) (strike s : ℝ) : ℝ :=
  max (match flag with
    | .call => s - strike
    | .put => strike - s) 0

/-- `X 1, …, X N` is the log-return path driven by `z`: its end is that of the price process, and each earlier point
is pinned between `0` at time zero and the next point. -/
structure LsPath (rate vol T : ℝ) (N : ℕ) (z X : ℕ → ℝ) : Prop where
  last : X N = (rate - vol ^ 2 / 2) * T + vol * √T * z 0
  bridge : ∀ t : ℕ, 1 ≤ t → t < N →
    X t = (t : ℝ) / (t + 1) * X (t + 1) + vol * √((t : ℝ) / (t + 1) * (T / N)) * z t

/-- `p` is a polynomial of degree at most four closest to the points `(x i, y i)`, `i ∈ s`, in squared distance. -/
def BestFit {n : ℕ} (s : Finset (Fin n)) (x y : Fin n → ℝ) (p : ℝ[X]) : Prop :=
  p.degree < 5 ∧ ∀ q : ℝ[X], q.degree < 5 →
    ∑ i ∈ s, (p.eval (x i) - y i) ^ 2 ≤ ∑ i ∈ s, (q.eval (x i) - y i) ^ 2

open Classical in
/-- The paths that pay something at prices `S`. -/
noncomputable def inTheMoney {n : ℕ} (flag : TypeFlag) (strike : ℝ) (S : Fin n → ℝ) : Finset (Fin n) :=
  Finset.univ.filter fun i => 0 < lsPayoff flag strike (S i)

open Classical in
/-- One step of the sweep: `later` are the values one step later, `now` the values after the step, `d` the discount
factor of a step. With fewer than five distinct prices in the money every path goes on. -/
def LsStep {n : ℕ} (flag : TypeFlag) (strike d : ℝ) (S later now : Fin n → ℝ) : Prop :=
  (((inTheMoney flag strike S).image S).card < 5 ∧ ∀ i, now i = d * later i) ∨
  (5 ≤ ((inTheMoney flag strike S).image S).card ∧
    ∃ p : ℝ[X], (∀ q, BestFit (inTheMoney flag strike S) S (fun i => d * later i) q ↔ q = p) ∧
      ∀ i, now i = if 0 < lsPayoff flag strike (S i) ∧ p.eval (S i) < lsPayoff flag strike (S i)
        then lsPayoff flag strike (S i) else d * later i)

end Verif.Options.Spec
