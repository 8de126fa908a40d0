import Verif.Math.RiskReward

/-!
# C81: risk-reward measures
-/

namespace Verif.Math.RiskReward

/-! ## Specification -/

/-- The measures of a position with a fraction `w` of the capital in the portfolio `p` and the rest at the riskless
rate: the return is the weighted average, beta and the deviations scale with `w`. -/
noncomputable def Measures.levered (p : Measures) (w : ℝ) : Measures :=
  { p with rp := w * p.rp + (1 - w) * p.r, beta := w * p.beta, sigma := w * p.sigma, sigmaDown := w * p.sigmaDown }

/-! ## C81 -/

/-- C81: borrowing or lending at the riskless rate does not change the Treynor, Sharpe and Sortino ratios, and scales
Jensen's alpha: they measure the portfolio, not the leverage. -/
theorem C81_leverage (p : Measures) (w : ℝ) (hw : w ≠ 0) :
    (p.levered w).treynor = p.treynor ∧ (p.levered w).sharpe = p.sharpe ∧ (p.levered w).sortino = p.sortino ∧
      (p.levered w).alpha = w * p.alpha := by
  have e : w * p.rp + (1 - w) * p.r - p.r = w * (p.rp - p.r) := by ring
  refine ⟨?_, ?_, ?_, ?_⟩
  · simp only [Measures.treynor, Measures.levered, e, mul_div_mul_left _ _ hw]
  · simp only [Measures.sharpe, Measures.levered, e, mul_div_mul_left _ _ hw]
  · simp only [Measures.sortino, Measures.levered, e, mul_div_mul_left _ _ hw]
  · simp only [Measures.alpha, Measures.levered]; ring

example := C81_leverage ⟨0.08, 0.05, 0.75, 0.1, 0.05, 0.5, 0.07⟩ (-2) (by norm_num)

/-- C81: the Burke ratio divides by the sum of the squared drawdowns, as documented, and not by its square root. So it
does depend on leverage: doubling the position halves it. Burke's ratio with the root does not. -/
theorem C81_burke_leverage (p : Measures) (w : ℝ) (hw : 0 < w) (dd : List ℝ) :
    (p.levered w).burke (dd.map (w * ·)) = p.burke dd / w ∧
      ((p.levered w).rp - (p.levered w).r) / √(((dd.map (w * ·)).map fun x => x ^ 2).sum) =
        (p.rp - p.r) / √((dd.map fun x => x ^ 2).sum) := by
  have e : w * p.rp + (1 - w) * p.r - p.r = w * (p.rp - p.r) := by ring
  have hs : ((dd.map (w * ·)).map fun x => x ^ 2).sum = w ^ 2 * (dd.map fun x => x ^ 2).sum := by
    rw [List.map_map, ← List.sum_map_mul_left]
    congr 1
    exact List.map_congr_left fun x _ => by simp [mul_pow]
  constructor
  · simp only [Measures.burke, Measures.levered, e, hs]
    rw [div_div, show w ^ 2 * (dd.map fun x => x ^ 2).sum = w * ((dd.map fun x => x ^ 2).sum * w) by ring,
      mul_div_mul_left _ _ hw.ne']
  · simp only [Measures.levered, e, hs]
    rw [Real.sqrt_mul (sq_nonneg w), Real.sqrt_sq hw.le, mul_div_mul_left _ _ hw.ne']

example := C81_burke_leverage ⟨0.08, 0.05, 0.75, 0.1, 0.05, 0.5, 0.07⟩ 2 (by norm_num) [0.1, 0.2]

/-- C81: the Burke ratio does not depend on the order of the drawdowns or on drawdowns of zero, nor on their signs, and
falls when a drawdown is added to a portfolio that beats the riskless rate. -/
theorem C81_burke (p : Measures) (dd dd' : List ℝ) :
    (dd.Perm dd' → p.burke dd = p.burke dd') ∧ p.burke (0 :: dd) = p.burke dd ∧
      p.burke (dd.map (-·)) = p.burke dd ∧
      (∀ d, d ≠ 0 → p.r < p.rp → (∃ x ∈ dd, x ≠ 0) → p.burke (d :: dd) < p.burke dd) := by
  have hpos : (∃ x ∈ dd, x ≠ 0) → 0 < (dd.map fun x => x ^ 2).sum := by
    rintro ⟨x, hx, hne⟩
    have h1 : x ^ 2 ≤ (dd.map fun x => x ^ 2).sum := List.single_le_sum (by
      intro y hy
      obtain ⟨z, -, rfl⟩ := List.mem_map.1 hy
      exact sq_nonneg z) _ (List.mem_map.2 ⟨x, hx, rfl⟩)
    exact lt_of_lt_of_le (by positivity) h1
  refine ⟨fun h => ?_, by simp [Measures.burke], ?_, fun d hd hr hx => ?_⟩
  · simp only [Measures.burke, (h.map _).sum_eq]
  · simp [Measures.burke, List.map_map, Function.comp_def]
  · simp only [Measures.burke, List.map_cons, List.sum_cons]
    have := hpos hx
    have : 0 < d ^ 2 := by positivity
    exact div_lt_div_of_pos_left (by linarith) (hpos hx) (by linarith)

/-- C81: Jensen's alpha is zero exactly on the security market line, positive above it. With a positive beta that is the
same as a Treynor ratio above the market's excess return, and in general the Treynor ratio is that excess return plus
alpha per unit of beta. -/
theorem C81_alpha (p : Measures) :
    (p.alpha = 0 ↔ p.rp - p.r = p.beta * (p.rm - p.r)) ∧
      (p.beta ≠ 0 → p.treynor = (p.rm - p.r) + p.alpha / p.beta) ∧
      (0 < p.beta → (0 < p.alpha ↔ p.rm - p.r < p.treynor)) := by
  refine ⟨?_, fun h => ?_, fun h => ?_⟩
  · simp only [Measures.alpha]
    constructor <;> intro h <;> linarith
  · simp only [Measures.alpha, Measures.treynor]
    field_simp
    ring
  · simp only [Measures.alpha, Measures.treynor, lt_div_iff₀ h]
    constructor <;> intro h <;> linarith

/-- The measures of a combination of portfolios traded against the same riskless rate `r` and market return `rm`: return
and beta are the weighted sums. -/
def IsCombination (r rm : ℝ) (l : List (ℝ × Measures)) (p : Measures) : Prop :=
  p.r = r ∧ p.rm = rm ∧ (∀ q ∈ l, q.2.r = r ∧ q.2.rm = rm) ∧
    p.rp = (l.map fun q => q.1 * q.2.rp).sum ∧ p.beta = (l.map fun q => q.1 * q.2.beta).sum

/-- C81: the alpha of a combination of any number of portfolios, with weights that sum to one, is the weighted sum of
their alphas. -/
theorem C81_alpha_linear (r rm : ℝ) (l : List (ℝ × Measures)) (p : Measures) (h : IsCombination r rm l p)
    (hw : (l.map (·.1)).sum = 1) : p.alpha = (l.map fun q => q.1 * q.2.alpha).sum := by
  obtain ⟨hr, hm, hl, hp, hb⟩ := h
  have key : ∀ l : List (ℝ × Measures), (∀ q ∈ l, q.2.r = r ∧ q.2.rm = rm) →
      (l.map fun q => q.1 * q.2.alpha).sum = (l.map fun q => q.1 * q.2.rp).sum -
        ((l.map (·.1)).sum * r + (l.map fun q => q.1 * q.2.beta).sum * (rm - r)) := by
    intro l hl
    induction l with
    | nil => simp
    | cons q l ih =>
      have hq := hl q (by simp)
      simp only [List.map_cons, List.sum_cons]
      rw [ih fun q' h' => hl q' (by simp [h']), Measures.alpha, hq.1, hq.2]
      ring
  rw [key l hl, hw, Measures.alpha, hr, hm, hp, hb]
  ring

/-- C81: for a portfolio that does not lose against the riskless rate, the Sortino ratio is at least the Sharpe ratio,
since the downside deviation is at most the deviation; for one that does lose it is at most the Sharpe ratio. -/
theorem C81_sortino_sharpe (p : Measures) (h0 : 0 < p.sigmaDown) (h1 : p.sigmaDown ≤ p.sigma) :
    (p.r ≤ p.rp → p.sharpe ≤ p.sortino) ∧ (p.rp ≤ p.r → p.sortino ≤ p.sharpe) := by
  simp only [Measures.sharpe, Measures.sortino]
  refine ⟨fun h => div_le_div_of_nonneg_left (by linarith) h0 h1, fun h => ?_⟩
  rw [← neg_le_neg_iff, ← neg_div, ← neg_div]
  exact div_le_div_of_nonneg_left (by linarith) h0 h1

example := C81_sortino_sharpe ⟨0.08, 0.05, 0.75, 0.1, 0.05, 0.5, 0.07⟩ (by norm_num) (by norm_num)

/-- C81: the return on value-at-risk is the return itself per unit of VaR, not the excess over the riskless rate: it is
the return for VaR one, scales with the return, and inversely with VaR. -/
theorem C81_return_on_var (p : Measures) (k : ℝ) (hk : k ≠ 0) (hv : p.var ≠ 0) :
    p.returnOnVar * p.var = p.rp ∧ ({ p with rp := k * p.rp } : Measures).returnOnVar = k * p.returnOnVar ∧
      ({ p with var := k * p.var } : Measures).returnOnVar = p.returnOnVar / k := by
  refine ⟨?_, ?_, ?_⟩
  · simp only [Measures.returnOnVar]; field_simp
  · simp only [Measures.returnOnVar]; ring
  · simp only [Measures.returnOnVar]; field_simp

/-- A portfolio with 8 % return at 5 % riskless, levered two to one. -/
example : let p : Measures := ⟨0.08, 0.05, 0.75, 0.1, 0.05, 0.5, 0.07⟩
    p.sharpe = 0.3 ∧ (p.levered 2).rp = 0.11 ∧ (p.levered 2).sharpe = 0.3 ∧ 0 < p.sigmaDown ∧ p.sigmaDown ≤ p.sigma ∧
      0 < p.alpha ∧ (p.levered 2).burke [0.2, 0.4] ≠ p.burke [0.1, 0.2] := by
  simp only [Measures.sharpe, Measures.levered, Measures.alpha, Measures.burke]
  norm_num

example : IsCombination 0.05 0.07 [(0.25, ⟨0.08, 0.05, 0.75, 0.1, 0.05, 0.5, 0.07⟩), (0.75, ⟨0.06, 0.05, 1, 0.1, 0.05, 0.5, 0.07⟩)]
    ⟨0.065, 0.05, 0.9375, 0.1, 0.05, 0.5, 0.07⟩ := by
  refine ⟨rfl, rfl, ?_, ?_, ?_⟩
  · simp
  · norm_num
  · norm_num

end Verif.Math.RiskReward
