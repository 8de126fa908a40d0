import Verif.Float.RiskRewardLemmas
import Verif.Float.RiskRewardSpec

/-!
# C113: risk-reward measures in double precision
-/

namespace Verif.Float.Reward

open X64
open Nan (zero nan_div)
open Sorting (value)

theorem eta_le : (2 : ℚ) ^ (-1075 : ℤ) ≤ 2 ^ (-1074 : ℤ) := zpow_le_zpow_right₀ (by norm_num) (by norm_num)

theorem ratio_close {a b c : F64} (hc : c.val ≠ 0) (h1 : |a.val - b.val| ≤ 2 ^ 1023) (h2 : |(a.val - b.val) / c.val| ≤ 2 ^ 1022) :
    Close (((fin a).sub (fin b)).div (fin c)) ((a.val - b.val) / c.val) (3 * 2 ^ (-53 : ℤ)) := by
  obtain ⟨v, h3, h4⟩ := ratio (y := c) (κ := 0) hc h1 le_rfl (by norm_num) (by simp) h2
  refine ⟨v, h3, h4.trans ?_⟩
  have := eta_le
  have hu := u_pos
  have h0 := mul_nonneg hu.le (abs_nonneg ((a.val - b.val) / c.val))
  rw [show (2 : ℚ) ^ (-53 : ℤ) = u from rfl]
  linarith

/-! ## C113 -/

/-- C113: the Sharpe, Sortino and Treynor ratios of finite measures are within three units of roundoff of the exact ratio of the excess return to the risk, unless the
excess or the ratio is above `2^1022`; so is the return on value-at-risk. -/
theorem C113_ratios (d : Data) (h : |d.excess| ≤ 2 ^ 1023) :
    (d.sigma.val ≠ 0 → |d.excess / d.sigma.val| ≤ 2 ^ 1022 → Close d.measures.sharpe (d.excess / d.sigma.val) (3 * 2 ^ (-53 : ℤ))) ∧
    (d.sigmaDown.val ≠ 0 → |d.excess / d.sigmaDown.val| ≤ 2 ^ 1022 →
      Close d.measures.sortino (d.excess / d.sigmaDown.val) (3 * 2 ^ (-53 : ℤ))) ∧
    (d.beta.val ≠ 0 → |d.excess / d.beta.val| ≤ 2 ^ 1022 → Close d.measures.treynor (d.excess / d.beta.val) (3 * 2 ^ (-53 : ℤ))) ∧
    (d.var.val ≠ 0 → |d.rp.val / d.var.val| ≤ 2 ^ 1022 → Close d.measures.returnOnVar (d.rp.val / d.var.val) (2 ^ (-53 : ℤ))) := by
  refine ⟨fun h0 h1 => ratio_close h0 h h1, fun h0 h1 => ratio_close h0 h h1, fun h0 h1 => ratio_close h0 h h1, fun h0 h1 => ?_⟩
  have h2 : |d.rp.val / d.var.val| ≤ 2 ^ 1023 := h1.trans (pow_le_pow_right₀ (by norm_num) (by norm_num))
  obtain ⟨v, hv, vv⟩ := ofQ_ok h2
  refine ⟨v, ?_, ?_⟩
  · show (if d.var.val = 0 then _ else ofQ (d.rp.val / d.var.val)) = fin v
    rw [if_neg h0, hv]
  · have := rnd_error' (d.rp.val / d.var.val)
    rw [abs_sub_comm] at this
    rw [vv]
    exact this.trans (add_le_add le_rfl eta_le)

/-- C113: the Burke ratio of up to `2^40` drawdowns, with a sum of squares between `2^-900` and `2^1000`, is within `9/8 (n + 4) 2^-52` of the exact one. -/
theorem C113_burke (d : Data) (ds : List F64) (hn : ds.length ≤ 2 ^ 40) (h : |d.excess| ≤ 2 ^ 1023) (h1 : (2 : ℚ) ^ (-900 : ℤ) ≤ sumSquares ds)
    (h2 : sumSquares ds ≤ 2 ^ 1000) (h3 : |d.excess / sumSquares ds| ≤ 2 ^ 1022) :
    Close (d.measures.burke (ds.map fin)) (d.excess / sumSquares ds) (9 / 8 * (ds.length + 4) * 2 ^ (-52 : ℤ)) := by
  obtain ⟨s, hs, es⟩ := squares_error ds hn h1 h2
  have hS : 0 < sumSquares ds := lt_of_lt_of_le (zpos _) h1
  have hnq : (ds.length : ℚ) ≤ 2 ^ 40 := by exact_mod_cast hn
  have hκ : ((ds.length : ℚ) + 1) * 2 ^ (-52 : ℤ) ≤ 1 / 10 := by
    have h4 : ((ds.length : ℚ) + 1) * 2 ^ (-52 : ℤ) ≤ (2 ^ 40 + 1) * 2 ^ (-52 : ℤ) := mul_le_mul_of_nonneg_right (by linarith) (zpos _).le
    refine h4.trans ?_
    norm_num
  have h0 : 0 ≤ ((ds.length : ℚ) + 1) * 2 ^ (-52 : ℤ) := mul_nonneg (add_nonneg (Nat.cast_nonneg _) (by norm_num)) (zpos _).le
  obtain ⟨v, h5, h6⟩ := ratio (a := d.rp) (b := d.r) (y := s) hS.ne' h h0 hκ (by rw [abs_of_pos hS]; exact es) h3
  refine ⟨v, ?_, h6.trans (add_le_add ?_ eta_le)⟩
  · show ((fin d.rp).sub (fin d.r)).div (squares (ds.map fin)) = _
    rw [hs]
    exact h5
  · apply mul_le_mul_of_nonneg_right _ (abs_nonneg _)
    have hu2 : (2 : ℚ) ^ (-52 : ℤ) = 2 * u := by unfold u; norm_num
    rw [hu2]
    have := u_pos
    nlinarith [mul_nonneg (Nat.cast_nonneg (α := ℚ) ds.length) this.le]

theorem sign_core (a b c : F64) (hc : 0 < c.val) :
    ((fin a).sub (fin b)).div (fin c) ≠ nan ∧ (b.val ≤ a.val → 0 ≤ value (((fin a).sub (fin b)).div (fin c))) ∧
    (a.val ≤ b.val → value (((fin a).sub (fin b)).div (fin c)) ≤ 0) ∧ (a.val = b.val → ((fin a).sub (fin b)).div (fin c) = zero) := by
  rw [sub_fin]
  have hz : value (zero.div (fin c)) = 0 := by rw [zero_div hc, value_zero]
  refine ⟨div_ne_nan (ofQ_ne_nan _) hc, fun h => ?_, fun h => ?_, fun h => ?_⟩
  · rw [← hz]
    apply div_mono (by simp [zero]) (ofQ_ne_nan _) _ hc
    rw [← ofQ_zero']
    exact ofQ_mono (by linarith)
  · rw [← hz]
    apply div_mono (ofQ_ne_nan _) (by simp [zero]) _ hc
    rw [← ofQ_zero']
    exact ofQ_mono (by linarith)
  · rw [h, sub_self, ofQ_zero', zero_div hc]

/-- C113: with a positive risk, the sign of the Sharpe, Sortino and Treynor ratios is never wrong, also when they overflow: they are not NaN, not negative for a
portfolio that returns at least the riskless rate, not positive for one that returns at most that, and exactly zero for one that returns just that. -/
theorem C113_sign (d : Data) (v : X64)
    (hv : (v = d.measures.sharpe ∧ 0 < d.sigma.val) ∨ (v = d.measures.sortino ∧ 0 < d.sigmaDown.val) ∨ (v = d.measures.treynor ∧ 0 < d.beta.val)) :
    v ≠ nan ∧ (d.r.val ≤ d.rp.val → 0 ≤ value v) ∧ (d.rp.val ≤ d.r.val → value v ≤ 0) ∧ (d.rp.val = d.r.val → v = zero) := by
  rcases hv with ⟨rfl, h⟩ | ⟨rfl, h⟩ | ⟨rfl, h⟩
  · exact sign_core d.rp d.r d.sigma h
  · exact sign_core d.rp d.r d.sigmaDown h
  · exact sign_core d.rp d.r d.beta h

theorem ranking_core (a a' b c c' : F64) (hc' : 0 < c'.val) (h1 : a.val ≤ a'.val) (h2 : c'.val ≤ c.val) (h3 : b.val ≤ a'.val) :
    value (((fin a).sub (fin b)).div (fin c)) ≤ value (((fin a').sub (fin b)).div (fin c')) := by
  have hc := lt_of_lt_of_le hc' h2
  rw [sub_fin, sub_fin]
  refine (div_mono (ofQ_ne_nan _) (ofQ_ne_nan _) (ofQ_mono (sub_le_sub_right h1 _)) hc).trans (div_anti (ofQ_ne_nan _) ?_ hc' h2)
  rw [← value_zero, ← ofQ_zero']
  exact ofQ_mono (by linarith)

/-- C113: rounding never reverses a ranking. A portfolio with at least the return of another, at most its (positive) risk and at least the riskless rate never has the
smaller Sharpe, Sortino or Treynor ratio, also when they overflow. -/
theorem C113_ranking (d e : Data) (hr : e.r = d.r) (h1 : d.rp.val ≤ e.rp.val) (h2 : e.r.val ≤ e.rp.val) :
    (0 < e.sigma.val → e.sigma.val ≤ d.sigma.val → value d.measures.sharpe ≤ value e.measures.sharpe) ∧
    (0 < e.sigmaDown.val → e.sigmaDown.val ≤ d.sigmaDown.val → value d.measures.sortino ≤ value e.measures.sortino) ∧
    (0 < e.beta.val → e.beta.val ≤ d.beta.val → value d.measures.treynor ≤ value e.measures.treynor) := by
  refine ⟨fun h3 h4 => ?_, fun h3 h4 => ?_, fun h3 h4 => ?_⟩
  · show value (((fin d.rp).sub (fin d.r)).div (fin d.sigma)) ≤ value (((fin e.rp).sub (fin e.r)).div (fin e.sigma))
    rw [hr] at h2 ⊢
    exact ranking_core _ _ _ _ _ h3 h1 h4 h2
  · show value (((fin d.rp).sub (fin d.r)).div (fin d.sigmaDown)) ≤ value (((fin e.rp).sub (fin e.r)).div (fin e.sigmaDown))
    rw [hr] at h2 ⊢
    exact ranking_core _ _ _ _ _ h3 h1 h4 h2
  · show value (((fin d.rp).sub (fin d.r)).div (fin d.beta)) ≤ value (((fin e.rp).sub (fin e.r)).div (fin e.beta))
    rw [hr] at h2 ⊢
    exact ranking_core _ _ _ _ _ h3 h1 h4 h2

/-- C113: the Sortino ratio of a portfolio that returns at least the riskless rate is at least its Sharpe ratio, if the downside deviation is positive and at most the
standard deviation; for one that returns at most the riskless rate it is at most its Sharpe ratio. -/
theorem C113_sortino_sharpe (d : Data) (h0 : 0 < d.sigmaDown.val) (h : d.sigmaDown.val ≤ d.sigma.val) :
    (d.r.val ≤ d.rp.val → value d.measures.sharpe ≤ value d.measures.sortino) ∧
    (d.rp.val ≤ d.r.val → value d.measures.sortino ≤ value d.measures.sharpe) := by
  refine ⟨fun hr => ranking_core _ _ _ _ _ h0 le_rfl h hr, fun hr => ?_⟩
  have hc := lt_of_lt_of_le h0 h
  show value (((fin d.rp).sub (fin d.r)).div (fin d.sigmaDown)) ≤ value (((fin d.rp).sub (fin d.r)).div (fin d.sigma))
  rw [sub_fin]
  rcases ofQ_cases (d.rp.val - d.r.val) with ⟨x, hx, vx⟩ | ⟨_, hx⟩ | ⟨hx, _⟩
  · rw [hx, show (fin x).div (fin d.sigmaDown) = ofQ (x.val / d.sigmaDown.val) from if_neg h0.ne',
      show (fin x).div (fin d.sigma) = ofQ (x.val / d.sigma.val) from if_neg hc.ne']
    have hx0 : x.val ≤ 0 := by rw [vx]; exact rnd_le rep_zero (by linarith)
    apply ofQ_mono
    have := div_le_div_of_nonneg_left (neg_nonneg.2 hx0) h0 h
    rw [neg_div, neg_div] at this
    linarith
  · have : rnd (d.rp.val - d.r.val) ≤ 0 := rnd_le rep_zero (by linarith)
    have hb := big_pos
    generalize (2 : ℚ) ^ 1024 = T at *
    linarith
  · rw [hx]
    have hi : ∀ c : F64, 0 < c.val → (inf true).div (fin c) = inf true := fun c hc => by
      show inf (true != decide (c.val < 0)) = inf true
      simp [not_lt.2 hc.le]
    rw [hi _ h0, hi _ hc]

theorem degenerate_core (a b : F64) (z : F64) (hz : z.val = 0) : Degenerate (((fin a).sub (fin b)).div (fin z)) (a.val - b.val) := by
  have hd : ∀ x : F64, (fin x).div (fin z) = if x.val = 0 then nan else inf (decide (x.val < 0)) := fun x => if_pos hz
  have hi : ∀ s : Bool, (inf s).div (fin z) = inf s := fun s => by
    show inf (s != decide (z.val < 0)) = inf s
    simp [hz]
  rw [sub_fin]
  have hp := rnd_sub_pos a.rep b.rep
  have hn := rnd_sub_neg a.rep b.rep
  have hb := big_pos
  refine ⟨fun h => ?_, fun h => ?_, fun h => ?_⟩
  · have h1 := hp.2 (by linarith)
    rcases ofQ_cases (a.val - b.val) with ⟨x, hx, vx⟩ | ⟨hx, _⟩ | ⟨_, hx⟩
    · rw [hx, hd, vx, if_neg h1.ne']
      simp [h1.le]
    · rw [hx, hi]
    · generalize (2 : ℚ) ^ 1024 = T at *
      linarith
  · have h1 := hn.2 (by linarith)
    rcases ofQ_cases (a.val - b.val) with ⟨x, hx, vx⟩ | ⟨_, hx⟩ | ⟨hx, _⟩
    · rw [hx, hd, vx, if_neg h1.ne]
      simp [h1]
    · generalize (2 : ℚ) ^ 1024 = T at *
      linarith
    · rw [hx, hi]
  · rw [h, ofQ_zero']
    show (fin F64.zero).div (fin z) = nan
    rw [hd, if_pos (show F64.zero.val = 0 from rfl)]

/-- C113 (defect): with a risk of zero the Sharpe, Sortino and Treynor ratios are reported without any error as an infinity, or as NaN if there is no excess return. -/
theorem C113_no_risk (d : Data) :
    (d.sigma.val = 0 → Degenerate d.measures.sharpe d.excess) ∧ (d.sigmaDown.val = 0 → Degenerate d.measures.sortino d.excess) ∧
    (d.beta.val = 0 → Degenerate d.measures.treynor d.excess) :=
  ⟨fun h => degenerate_core _ _ _ h, fun h => degenerate_core _ _ _ h, fun h => degenerate_core _ _ _ h⟩

theorem squares_tiny (ds : List F64) (h : ∀ x ∈ ds, |x.val| ≤ 2 ^ (-538 : ℤ)) : squares (ds.map fin) = zero := by
  unfold squares
  have hz : ∀ l : List F64, (∀ x ∈ l, |x.val| ≤ 2 ^ (-538 : ℤ)) → ((l.map fin).map fun x => x.mul x).foldl X64.add zero = zero := by
    intro l
    induction l with
    | nil => intro _; rfl
    | cons d l ih =>
      intro hl
      have hd := hl d (by simp)
      have h1 : |d.val * d.val| ≤ 2 ^ (-1076 : ℤ) := by
        rw [abs_mul]
        refine (mul_le_mul hd hd (abs_nonneg _) (zpos _).le).trans (le_of_eq ?_)
        rw [← zpow_add₀ (by norm_num)]
        norm_num
      have h2 : rnd (d.val * d.val) = 0 := by
        obtain ⟨n, hn⟩ := rep_grid (rep_rnd (d.val * d.val))
        have h3 := rnd_nearest (d.val * d.val) rep_zero
        rw [sub_zero] at h3
        have h4 : |rnd (d.val * d.val)| ≤ 2 * 2 ^ (-1076 : ℤ) := by
          have := abs_sub_abs_le_abs_sub (rnd (d.val * d.val)) (d.val * d.val)
          rw [abs_sub_comm] at this
          linarith
        have h5 : (2 : ℚ) * 2 ^ (-1076 : ℤ) = 1 / 2 * 2 ^ (-1074 : ℤ) := by
          rw [show (-1076 : ℤ) = -2 + -1074 by norm_num, zpow_add₀ (by norm_num)]
          generalize (2 : ℚ) ^ (-1074 : ℤ) = T
          norm_num
          ring
        rw [hn, abs_mul, abs_of_pos (zpos (-1074)), h5] at h4
        have h6 : |(n : ℚ)| ≤ 1 / 2 := le_of_mul_le_mul_right h4 (zpos _)
        have h7 : n = 0 := by
          have h8 : |n| < 1 := by
            have : ((|n| : ℤ) : ℚ) < 1 := by push_cast; linarith
            exact_mod_cast this
          exact Int.abs_lt_one_iff.1 h8
        rw [hn, h7]
        simp
      have h8 : (fin d).mul (fin d) = zero := by
        show ofQ (d.val * d.val) = zero
        obtain ⟨x, hx, vx⟩ := ofQ_fin (q := d.val * d.val) (by rw [h2, abs_zero]; exact big_pos)
        rw [hx]
        exact congrArg fin (F64.ext (by rw [vx, h2]; rfl))
      have h9 : zero.add zero = zero := by
        show ofQ (F64.zero.val + F64.zero.val) = zero
        rw [show F64.zero.val = 0 from rfl, _root_.add_zero, ofQ_zero']
      rw [List.map_cons, List.map_cons, List.foldl_cons, h8, h9]
      exact ih fun x hx => hl x (by simp [hx])
  exact hz ds h

/-- C113 (defect): the squares of drawdowns up to `2^-538` are lost to underflow, so the Burke ratio of a portfolio that had only such drawdowns is infinite or NaN. (Without
drawdowns the zero is `-0.0`, which the model does not tell apart: see `C113_burke_none`.) -/
theorem C113_burke_underflow (d : Data) (ds : List F64) (_hne : ds ≠ []) (h : ∀ x ∈ ds, |x.val| ≤ 2 ^ (-538 : ℤ)) :
    Degenerate (d.measures.burke (ds.map fin)) d.excess := by
  show Degenerate (((fin d.rp).sub (fin d.r)).div (squares (ds.map fin))) (d.rp.val - d.r.val)
  rw [squares_tiny ds h]
  exact degenerate_core _ _ F64.zero rfl

/-- C113: without any drawdown the Burke ratio is not finite. -/
theorem C113_burke_none (d : Data) (v : F64) : d.measures.burke [] ≠ fin v := by
  have h : Degenerate (d.measures.burke []) d.excess := degenerate_core d.rp d.r F64.zero rfl
  obtain ⟨h1, h2, h3⟩ := h
  rcases lt_trichotomy d.excess 0 with h | h | h
  · rw [h2 h]; simp
  · rw [h3 h]; simp
  · rw [h1 h]; simp

/-- C113: Jensen's alpha of measures up to `2^500` is finite and within five units of roundoff of the exact one, relative to the return, the riskless rate and the risk
premium together. -/
theorem C113_alpha (d : Data) (h : ∀ x ∈ [d.rp, d.r, d.beta, d.rm], |x.val| ≤ 2 ^ 500) :
    ∃ v : F64, d.measures.alpha = fin v ∧ |v.val - d.exactAlpha| ≤
      5 * 2 ^ (-53 : ℤ) * (|d.rp.val| + |d.r.val| + |d.beta.val * (d.rm.val - d.r.val)|) + 2 ^ (-1074 : ℤ) := by
  have hu := u_pos
  have hu1 : u ≤ 1 / 1000 := by unfold u; norm_num
  obtain ⟨T, W, hT1, htop, hok, h⟩ : ∃ T W : ℚ, 1 ≤ T ∧ 8 * (T * T) ≤ W ∧ (∀ q, |q| ≤ W → ∃ a : F64, ofQ q = fin a ∧ a.val = rnd q) ∧
      ∀ x ∈ [d.rp, d.r, d.beta, d.rm], |x.val| ≤ T := by
    refine ⟨2 ^ 500, 2 ^ 1023, one_le_pow₀ (by norm_num), ?_, fun q hq => ofQ_ok hq, h⟩
    rw [show (8 : ℚ) = 2 ^ 3 by norm_num, ← pow_add, ← pow_add]
    exact pow_le_pow_right₀ (by norm_num) (by norm_num)
  obtain ⟨η, hη, hη1, hηη, herr⟩ : ∃ η : ℚ, 0 < η ∧ η ≤ 1 ∧ (2 : ℚ) ^ (-1074 : ℤ) = 2 * η ∧ ∀ x, |x - rnd x| ≤ u * |x| + η := by
    refine ⟨2 ^ (-1075 : ℤ), zpos _, ?_, ?_, rnd_error'⟩
    · rw [show (1 : ℚ) = 2 ^ (0 : ℤ) by norm_num]
      exact zpow_le_zpow_right₀ (by norm_num) (by norm_num)
    · rw [show (-1074 : ℤ) = 1 + -1075 by norm_num, zpow_add₀ (by norm_num), zpow_one]
  have a1 := h d.rp (by simp)
  have a2 := h d.r (by simp)
  have a3 := h d.beta (by simp)
  have a4 := h d.rm (by simp)
  rw [hηη, show (2 : ℚ) ^ (-53 : ℤ) = u from rfl]
  clear hηη
  have e1 := rnd_sub d.rm.rep d.r.rep
  have n1 : |d.rm.val - d.r.val| ≤ 2 * T := (abs_sub _ _).trans (by linarith)
  have hTT : T ≤ T * T := by nlinarith
  obtain ⟨m, hm, vm⟩ := hok (d.rm.val - d.r.val) (by linarith)
  rw [← vm, abs_sub_comm] at e1
  have bM : |m.val| ≤ 21 / 10 * T := by
    have := abs_sub_abs_le_abs_sub m.val (d.rm.val - d.r.val)
    nlinarith [abs_nonneg (d.rm.val - d.r.val)]
  have n2 : |d.beta.val * m.val| ≤ 21 / 10 * (T * T) := by
    rw [abs_mul]
    have := mul_le_mul a3 bM (abs_nonneg _) (by linarith)
    linarith
  obtain ⟨b, hb, vb⟩ := hok _ (n2.trans (by nlinarith))
  have e2 := herr (d.beta.val * m.val)
  rw [← vb, abs_sub_comm] at e2
  have bb : |b.val| ≤ 22 / 10 * (T * T) + 1 := by
    have := abs_sub_abs_le_abs_sub b.val (d.beta.val * m.val)
    nlinarith [abs_nonneg (d.beta.val * m.val)]
  have e3 := rnd_add d.r.rep b.rep
  obtain ⟨s, hs, vs⟩ := hok (d.r.val + b.val) (by
    refine (abs_add_le _ _).trans ?_
    nlinarith)
  rw [← vs, abs_sub_comm] at e3
  have bs : |s.val| ≤ (1 + u) * (|d.r.val| + |b.val|) := by
    have h1 := abs_sub_abs_le_abs_sub s.val (d.r.val + b.val)
    have h2 := abs_add_le d.r.val b.val
    nlinarith
  have e4 := rnd_sub d.rp.rep s.rep
  obtain ⟨v, hv, vv⟩ := hok (d.rp.val - s.val) (by
    refine (abs_sub _ _).trans ?_
    nlinarith)
  rw [← vv, abs_sub_comm] at e4
  refine ⟨v, ?_, ?_⟩
  · show (fin d.rp).sub ((fin d.r).add ((fin d.beta).mul ((fin d.rm).sub (fin d.r)))) = fin v
    rw [sub_fin d.rm d.r, hm, show (fin d.beta).mul (fin m) = ofQ (d.beta.val * m.val) from rfl, hb,
      show (fin d.r).add (fin b) = ofQ (d.r.val + b.val) from rfl, hs, sub_fin, hv]
  · clear bM n2 bb a1 a2 a3 a4 n1 htop hTT hT1
    unfold Data.exactAlpha
    generalize d.rm.val - d.r.val = M at *
    -- the product
    have p1 : |d.beta.val * m.val - d.beta.val * M| ≤ u * |d.beta.val * M| := by
      rw [← mul_sub, abs_mul, abs_mul]
      have := mul_le_mul_of_nonneg_left e1 (abs_nonneg d.beta.val)
      linarith
    generalize d.beta.val * M = B at *
    generalize d.beta.val * m.val = B' at *
    have hB := abs_nonneg B
    have p2 : |B'| ≤ (1 + u) * |B| := by
      have := abs_sub_abs_le_abs_sub B' B
      linarith
    have p3 : |b.val - B| ≤ (21 / 10 * u) * |B| + η := by
      have := abs_sub_le b.val B' B
      nlinarith [mul_nonneg hu.le hB]
    have p4 : |b.val| ≤ (1 + 21 / 10 * u) * |B| + η := by
      have := abs_sub_abs_le_abs_sub b.val B
      linarith
    have hr := abs_nonneg d.r.val
    have hrp := abs_nonneg d.rp.val
    have p5 : |d.r.val + b.val| ≤ |d.r.val| + |b.val| := abs_add_le _ _
    have p6 : |s.val - (d.r.val + B)| ≤ u * |d.r.val| + (16 / 5 * u) * |B| + 11 / 10 * η := by
      have h1 := abs_sub_le s.val (d.r.val + b.val) (d.r.val + B)
      rw [show d.r.val + b.val - (d.r.val + B) = b.val - B by ring] at h1
      have h2 := mul_le_mul_of_nonneg_left (p5.trans (add_le_add le_rfl p4)) hu.le
      nlinarith [mul_nonneg hu.le hB, mul_nonneg hu.le hr]
    have p7 : |d.rp.val - s.val| ≤ |d.rp.val| + |s.val| := abs_sub _ _
    have p8 : |s.val| ≤ 11 / 10 * |d.r.val| + 11 / 10 * |B| + 11 / 10 * η := by
      nlinarith [abs_nonneg b.val]
    have p9 := abs_sub_le v.val (d.rp.val - s.val) (d.rp.val - (d.r.val + B))
    rw [show d.rp.val - s.val - (d.rp.val - (d.r.val + B)) = -(s.val - (d.r.val + B)) by ring, abs_neg] at p9
    have p10 := mul_le_mul_of_nonneg_left (p7.trans (add_le_add le_rfl p8)) hu.le
    nlinarith [mul_nonneg hu.le hB, mul_nonneg hu.le hr, mul_nonneg hu.le hrp]

/-- C113: rounding never reverses a ranking by Jensen's alpha: with the other measures the same, whatever they are, the larger return never has the smaller alpha. -/
theorem C113_alpha_ranking (p : Measures) (x y : F64) (h : x.val ≤ y.val) :
    value { p with rp := fin x }.alpha ≤ value { p with rp := fin y }.alpha := by
  show value ((fin x).sub (p.r.add (p.beta.mul (p.rm.sub p.r)))) ≤ value ((fin y).sub (p.r.add (p.beta.mul (p.rm.sub p.r))))
  cases p.r.add (p.beta.mul (p.rm.sub p.r)) with
  | nan => rw [sub_nan, sub_nan]
  | inf s => exact le_refl (value (inf (!s)))
  | fin s => rw [sub_fin, sub_fin]; exact ofQ_mono (by linarith)

/-- C113: an account at the riskless rate has an alpha of exactly zero, and so has the market itself if its return is within a factor of two of the riskless rate, or the
riskless rate is zero. -/
theorem C113_alpha_zero (d : Data) :
    (d.rp = d.r → d.beta.val = 0 → |d.rm.val - d.r.val| ≤ 2 ^ 1023 → d.measures.alpha = zero) ∧
    (d.rp = d.rm → d.beta.val = 1 → (d.r.val ≤ 2 * d.rm.val ∧ d.rm.val ≤ 2 * d.r.val) ∨ d.r.val = 0 → d.measures.alpha = zero) := by
  have hself : ∀ a : F64, (fin a).sub (fin a) = zero := fun a => by rw [sub_fin, sub_self, ofQ_zero']
  constructor
  · intro h1 h2 h3
    obtain ⟨m, hm, _⟩ := ofQ_ok h3
    show (fin d.rp).sub ((fin d.r).add ((fin d.beta).mul ((fin d.rm).sub (fin d.r)))) = zero
    rw [sub_fin d.rm d.r, hm, show (fin d.beta).mul (fin m) = ofQ (d.beta.val * m.val) from rfl, h2, zero_mul, ofQ_zero',
      show (fin d.r).add zero = ofQ (d.r.val + 0) from rfl, _root_.add_zero, ofQ_val, h1, hself]
  · intro h1 h2 h3
    have hrep : Rep (d.rm.val - d.r.val) := by
      rcases h3 with ⟨h3, h4⟩ | h3
      · exact sterbenz d.rm.rep d.r.rep h3 h4
      · rw [h3, sub_zero]; exact d.rm.rep
    have hfin : |d.rm.val - d.r.val| < 2 ^ 1024 := by
      rcases h3 with ⟨h3, h4⟩ | h3
      · have h5 := abs_lt.1 d.rm.fin
        have h6 := abs_lt.1 d.r.fin
        have hb := big_pos
        generalize (2 : ℚ) ^ 1024 = T at *
        rw [abs_lt]
        constructor <;> linarith
      · rw [h3, sub_zero]; exact d.rm.fin
    show (fin d.rp).sub ((fin d.r).add ((fin d.beta).mul ((fin d.rm).sub (fin d.r)))) = zero
    rw [sub_fin d.rm d.r, ofQ_of_eq ⟨_, hrep, hfin⟩ rfl, show ∀ m : F64, (fin d.beta).mul (fin m) = ofQ (d.beta.val * m.val) from fun _ => rfl,
      h2, one_mul, ofQ_val, show ∀ m : F64, (fin d.r).add (fin m) = ofQ (d.r.val + m.val) from fun _ => rfl]
    show (fin d.rp).sub (ofQ (d.r.val + (d.rm.val - d.r.val))) = zero
    rw [show d.r.val + (d.rm.val - d.r.val) = d.rm.val by ring, ofQ_val, h1, hself]

/-- The market as a portfolio: a return of 29 percent, a riskless rate of 3 percent. -/
def market : Data := ⟨lit (29 / 100), lit (3 / 100), lit 1, lit (1 / 5), lit (1 / 10), lit (1 / 20), lit (29 / 100)⟩

/-- C113 (defect): otherwise the market can have an alpha against itself: with a riskless rate of 3 percent and a return of 29 percent it is `-2^-54`. -/
theorem C113_market_alpha : market.rp = market.rm ∧ market.beta.val = 1 ∧ ∃ v : F64, market.measures.alpha = fin v ∧ v.val = -2 ^ (-54 : ℤ) := by
  refine ⟨rfl, by decide +kernel, ?_⟩
  have h : (match market.measures.alpha with | fin v => some v.val | _ => none) = some (-2 ^ (-54 : ℤ)) := by decide +kernel
  cases hm : market.measures.alpha with
  | fin v => rw [hm] at h; exact ⟨v, rfl, Option.some.inj h⟩
  | inf s => rw [hm] at h; cases h
  | nan => rw [hm] at h; cases h

/-- C113: a NaN among the measures that a ratio uses makes it NaN. -/
theorem C113_nan (p : Measures) (ds : List X64) :
    (p.rp = nan → p.sharpe = nan ∧ p.sortino = nan ∧ p.treynor = nan ∧ p.burke ds = nan ∧ p.returnOnVar = nan ∧ p.alpha = nan) ∧
    (p.r = nan → p.sharpe = nan ∧ p.sortino = nan ∧ p.treynor = nan ∧ p.burke ds = nan ∧ p.alpha = nan) ∧
    (p.sigma = nan → p.sharpe = nan) ∧ (p.sigmaDown = nan → p.sortino = nan) ∧ (p.beta = nan → p.treynor = nan ∧ p.alpha = nan) ∧
    (p.var = nan → p.returnOnVar = nan) ∧ (p.rm = nan → p.alpha = nan) ∧ (nan ∈ ds → p.burke ds = nan) := by
  have dn : ∀ x : X64, x.div nan = nan := fun x => by cases x <;> rfl
  have mn : ∀ x : X64, x.mul nan = nan := fun x => by cases x <;> rfl
  have nm : ∀ x : X64, nan.mul x = nan := fun x => by cases x <;> rfl
  have an : ∀ x : X64, x.add nan = nan := fun x => by cases x <;> rfl
  unfold Measures.sharpe Measures.sortino Measures.treynor Measures.burke Measures.returnOnVar Measures.alpha
  refine ⟨fun h => ?_, fun h => ?_, fun h => ?_, fun h => ?_, fun h => ?_, fun h => ?_, fun h => ?_, fun h => ?_⟩
  · simp only [h, nan_sub, nan_div, and_self]
  · simp only [h, sub_nan, nan_div, nan_add, and_self]
  · rw [h, dn]
  · rw [h, dn]
  · simp only [h, dn, nm, an, sub_nan, and_self]
  · rw [h, dn]
  · simp only [h, nan_sub, mn, an, sub_nan]
  · have h1 : squares ds = nan := by
      unfold squares
      exact Nan.foldl_add_mem (List.mem_map.2 ⟨nan, h, rfl⟩) _
    rw [h1, dn]

/-! ## The hypotheses hold in concrete cases -/

theorem market_excess : |market.excess| ≤ 1 ∧ 0 < market.excess := by decide +kernel

theorem one_le_big (k : ℕ) : (1 : ℚ) ≤ 2 ^ k := one_le_pow₀ (by norm_num)

example : Close market.measures.sharpe (market.excess / market.sigma.val) (3 * 2 ^ (-53 : ℤ)) :=
  (C113_ratios market (market_excess.1.trans (one_le_big _))).1 (by decide +kernel) (by
    have h : |market.excess / market.sigma.val| ≤ 2 := by decide +kernel
    exact h.trans (by simpa using pow_le_pow_right₀ (a := (2 : ℚ)) (by norm_num) (show 1 ≤ 1022 by norm_num)))

/-- Drawdowns of 5, 10 and 20 percent. -/
def drawdowns : List F64 := [lit (1 / 20), lit (1 / 10), lit (1 / 5)]

example : Close (market.measures.burke (drawdowns.map fin)) (market.excess / sumSquares drawdowns) (9 / 8 * (3 + 4) * 2 ^ (-52 : ℤ)) := by
  have hs : 1 / 100 ≤ sumSquares drawdowns ∧ sumSquares drawdowns ≤ 1 ∧ |market.excess / sumSquares drawdowns| ≤ 2 ^ 5 := by decide +kernel
  have := C113_burke market drawdowns (by decide) (market_excess.1.trans (one_le_big _)) (le_trans (by
    have : (2 : ℚ) ^ (-900 : ℤ) ≤ 2 ^ (-7 : ℤ) := zpow_le_zpow_right₀ (by norm_num) (by norm_num)
    exact this.trans (by norm_num)) hs.1) (hs.2.1.trans (one_le_big _)) (hs.2.2.trans (pow_le_pow_right₀ (by norm_num) (by norm_num)))
  simpa [drawdowns] using this

example : 0 ≤ value market.measures.sharpe :=
  (C113_sign market _ (Or.inl ⟨rfl, by decide +kernel⟩)).2.1 (by decide +kernel)

example : value { market with sigma := lit (1 / 4) }.measures.sharpe ≤ value market.measures.sharpe :=
  (C113_ranking { market with sigma := lit (1 / 4) } market rfl le_rfl (by decide +kernel)).1 (by decide +kernel) (by decide +kernel)

example : value market.measures.sharpe ≤ value market.measures.sortino :=
  (C113_sortino_sharpe market (by decide +kernel) (by decide +kernel)).1 (by decide +kernel)

example : { market with sigma := F64.zero }.measures.sharpe = inf false :=
  ((C113_no_risk { market with sigma := F64.zero }).1 rfl).1 market_excess.2

/-- A drawdown of `2^-540`. -/
example : market.measures.burke ([⟨2 ^ (-540 : ℤ), ⟨1, -540, by norm_num, by norm_num, by norm_num⟩, by decide +kernel⟩].map fin) = inf false :=
  (C113_burke_underflow market [⟨2 ^ (-540 : ℤ), ⟨1, -540, by norm_num, by norm_num, by norm_num⟩, by decide +kernel⟩] (by simp) (by
    intro x hx
    rw [List.mem_singleton.1 hx]
    show |(2 : ℚ) ^ (-540 : ℤ)| ≤ _
    rw [abs_of_pos (zpos _)]
    exact zpow_le_zpow_right₀ (by norm_num) (by norm_num))).1 market_excess.2

example := C113_burke_none market F64.zero

example := C113_alpha market (by
  have h : ∀ x ∈ [market.rp, market.r, market.beta, market.rm], |x.val| ≤ 1 := by decide +kernel
  exact fun x hx => (h x hx).trans (one_le_big _))

example := C113_alpha_ranking market.measures market.r market.rp (by decide +kernel)

example : { market with r := lit (1 / 5) }.measures.alpha = zero :=
  (C113_alpha_zero { market with r := lit (1 / 5) }).2 rfl (by decide +kernel) (Or.inl ⟨by decide +kernel, by decide +kernel⟩)

example : { market with rp := market.r, beta := F64.zero }.measures.alpha = zero :=
  (C113_alpha_zero { market with rp := market.r, beta := F64.zero }).1 rfl rfl (by
    have h : |market.rm.val - market.r.val| ≤ 1 := by decide +kernel
    exact h.trans (one_le_big _))

example : { market.measures with rm := nan }.alpha = nan := (C113_nan { market.measures with rm := nan } []).2.2.2.2.2.2.1 rfl

end Verif.Float.Reward
