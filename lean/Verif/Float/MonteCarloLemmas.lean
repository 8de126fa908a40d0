import Verif.Float.MonteCarloSpec
import Verif.Float.CorrelationLemmas
import Verif.Float.FftLemmas
import Verif.Float.BlackScholesLemmas
import Mathlib.Analysis.Complex.ExponentialBounds

/-! Helper lemmas: discounting, averaging, and lists of payoffs. -/

namespace Verif.Float.Mc

open Verif.Float.Sim
open Verif.Float.Fft (ur mu top rnd_real toF64_total ur_pos mu_pos ur_le sub_real mu_le)

theorem exp_close {x y ξ : ℝ} (hξ : |y - x| ≤ ξ) (h1 : ξ ≤ 1) : |Real.exp y - Real.exp x| ≤ 2 * ξ * Real.exp x := by
  have h := Real.abs_exp_sub_one_le (x := y - x) (hξ.trans h1)
  have e : Real.exp y - Real.exp x = (Real.exp (y - x) - 1) * Real.exp x := by
    rw [sub_mul, ← Real.exp_add, one_mul, sub_add_cancel]
  rw [e, abs_mul, abs_of_pos (Real.exp_pos x)]
  exact mul_le_mul_of_nonneg_right (h.trans (by linarith)) (Real.exp_pos x).le

theorem factor_le {rate t0 tn : F64} (h : |F64.real rate * (F64.real tn - F64.real t0)| ≤ 300) : factor rate t0 tn ≤ 2 ^ 450 := by
  have h2 : Real.exp 2 ≤ 2 ^ 3 := by
    have := Real.exp_one_lt_d9
    have e : Real.exp 2 = Real.exp 1 * Real.exp 1 := by rw [← Real.exp_add]; norm_num
    rw [e]
    have h0 := Real.exp_pos 1
    nlinarith
  calc factor rate t0 tn ≤ Real.exp 300 := Real.exp_le_exp.2 (by have := (abs_le.1 h).1; linarith)
    _ = Real.exp 2 ^ 150 := by rw [← Real.exp_nat_mul]; norm_num
    _ ≤ (2 ^ 3) ^ 150 := by gcongr
    _ = 2 ^ 450 := by rw [← pow_mul]

theorem delta_nonneg {exp : F64 → Option F64} {δ : ℝ} (h : AccurateExp exp δ) : 0 ≤ δ := by
  obtain ⟨y, _, hy⟩ := h F64.zero (by simp [F64.real, F64.zero])
  have := (abs_nonneg _).trans hy
  by_contra hc
  have h0 := Real.exp_pos (F64.real F64.zero)
  nlinarith

theorem discount_error {exp : F64 → Option F64} {δ : ℝ} {rate t0 tn : F64} {n : ℕ} (h : Ordinary exp δ rate t0 tn n) :
    ∃ df, discount exp rate t0 tn = some df ∧ |F64.real df - factor rate t0 tn| ≤
      (3 / 2 * δ + 5 * ur * |F64.real rate * (F64.real tn - F64.real t0)| + ur) * factor rate t0 tn := by
  have hδ := delta_nonneg h.exp
  have hu := ur_pos
  have hm := mu_pos
  have hu1 : ur ≤ 1 / 10 ^ 6 := by unfold ur; norm_num
  have hmu : 4 * mu ≤ ur := by
    unfold mu ur
    rw [show (2 : ℝ) ^ (-1075 : ℤ) = 2 ^ (-1022 : ℤ) * 2 ^ (-53 : ℤ) by rw [← zpow_add₀ (by norm_num)]; norm_num]
    have : (2 : ℝ) ^ (-1022 : ℤ) ≤ 2 ^ (-2 : ℤ) := zpow_le_zpow_right₀ (by norm_num) (by norm_num)
    have h2 : (0 : ℝ) < 2 ^ (-53 : ℤ) := by positivity
    calc 4 * ((2 : ℝ) ^ (-1022 : ℤ) * 2 ^ (-53 : ℤ)) ≤ 4 * (2 ^ (-2 : ℤ) * 2 ^ (-53 : ℤ)) := by gcongr
      _ = _ := by norm_num
  have hexpo := h.exponent
  have hper : |F64.real tn - F64.real t0| ≤ 2 ^ 1001 := by
    rw [pow_succ, mul_two]
    exact (abs_sub _ _).trans (by rw [add_comm]; exact _root_.add_le_add h.period.1 h.period.2) |>.trans le_rfl
  obtain ⟨d, hd, hdv⟩ := toF64_total (x := tn.val - t0.val) (by
    push_cast
    refine hper.trans ?_
    unfold top
    exact pow_le_pow_right₀ (by norm_num) (by norm_num))
  have hde : |F64.real d - (F64.real tn - F64.real t0)| ≤ ur * |F64.real tn - F64.real t0| := by
    have := sub_real tn.rep t0.rep
    rw [← hdv] at this
    exact this
  clear hdv hper
  set R := F64.real rate with hR
  set T := F64.real tn - F64.real t0 with hT
  set X := |R * T| with hX
  have hX0 : 0 ≤ X := abs_nonneg _
  have hrd : |-R * F64.real d - -(R * T)| ≤ ur * X := by
    rw [show -R * F64.real d - -(R * T) = -(R * (F64.real d - T)) by ring, abs_neg, abs_mul, hX, abs_mul]
    have := mul_le_mul_of_nonneg_left hde (abs_nonneg R)
    linarith
  have hrd' : |-R * F64.real d| ≤ X * (1 + ur) := by
    have := abs_add_le (-R * F64.real d - -(R * T)) (-(R * T))
    rw [sub_add_cancel, abs_neg] at this
    linarith
  have hnr : F64.real (Bsm.neg rate) = -R := by rw [hR]; unfold Bsm.neg F64.real; push_cast; rfl
  have hcast : (((Bsm.neg rate).val * d.val : ℚ) : ℝ) = -R * F64.real d := by
    rw [← hnr]; unfold F64.real; push_cast; rfl
  obtain ⟨x, hx, hxv⟩ := toF64_total (x := (Bsm.neg rate).val * d.val) (by
    rw [hcast]
    refine hrd'.trans ?_
    have : X * (1 + ur) ≤ 2 ^ 10 := by nlinarith
    exact this.trans Verif.Float.Fft.top_ge)
  have hxe := rnd_real ((Bsm.neg rate).val * d.val)
  rw [← hxv, hcast] at hxe
  change |F64.real x - _| ≤ _ at hxe
  have hξ : |F64.real x - -(R * T)| ≤ 41 / 20 * ur * X + mu := by
    have := abs_sub_le (F64.real x) (-R * F64.real d) (-(R * T))
    have h2 : ur * |-R * F64.real d| ≤ ur * (X * (1 + ur)) := mul_le_mul_of_nonneg_left hrd' hu.le
    have h3 : ur * (X * ur) ≤ ur * (X * (1 / 20)) := by gcongr; linarith
    linarith
  have hξ1 : 41 / 20 * ur * X + mu ≤ 1 / 100 := by nlinarith
  have hx5 : |F64.real x| ≤ 500 := by
    have := abs_add_le (F64.real x - -(R * T)) (-(R * T))
    rw [sub_add_cancel, abs_neg] at this
    linarith
  obtain ⟨df, hdf, hdfe⟩ := h.exp x hx5
  refine ⟨df, ?_, ?_⟩
  · unfold discount
    have e1 : tn.sub t0 = some d := hd
    have e2 : (Bsm.neg rate).mul d = some x := hx
    simp only [Option.bind_eq_bind, e1, e2, Option.bind_some, hdf]
  · have hc := exp_close hξ (hξ1.trans (by norm_num))
    have hD : factor rate t0 tn = Real.exp (-(R * T)) := rfl
    rw [hD]
    set D := Real.exp (-(R * T))
    have hD0 : 0 < D := Real.exp_pos _
    have hE : Real.exp (F64.real x) ≤ 5 / 4 * D := by
      have := (abs_le.1 hc).2
      have h2 := mul_le_mul_of_nonneg_right hξ1 hD0.le
      linarith
    have h1 := abs_sub_le (F64.real df) (Real.exp (F64.real x)) D
    have h2 := mul_le_mul_of_nonneg_left hE hδ
    have h3 := mul_le_mul_of_nonneg_right hmu hD0.le
    have h4 : 0 ≤ ur * X * D := by positivity
    have h5 : 0 ≤ δ * D := by positivity
    have h6 : 0 ≤ ur * D := by positivity
    have h7 : 0 ≤ mu * D := by positivity
    linarith

theorem estimate_key {D A S S' d q v n ρ σ w m : ℝ} (hD : 0 < D) (hA : 0 ≤ A) (hS : |S| ≤ A) (hS' : |S' - S| ≤ σ * A)
    (hd : |d - D| ≤ ρ * D) (hq : |q - d * S'| ≤ w * |d * S'| + m) (hv : |v - q / n| ≤ w * |q / n| + m) (hn : 1 ≤ n)
    (hρ : 0 ≤ ρ) (hρ1 : ρ ≤ 1 / 10) (hσ : 0 ≤ σ) (hσ1 : σ ≤ 1 / 100) (hw : 0 ≤ w) (hw1 : w ≤ 1 / 1000) (hm : 0 ≤ m) :
    |v - D * (S / n)| ≤ (21 / 20 * ρ + 21 / 20 * σ + 5 / 2 * w) * (D * (A / n)) + 3 * m := by
  have hn0 : 0 < n := by linarith
  have hDA : 0 ≤ D * A := by positivity
  have hS1 : |S'| ≤ (1 + σ) * A := by
    have := abs_add_le (S' - S) S
    rw [sub_add_cancel] at this
    linarith
  have e1 : |d * S' - D * S| ≤ (ρ * (1 + σ) + σ) * (D * A) := by
    have := abs_add_le ((d - D) * S') (D * (S' - S))
    rw [show (d - D) * S' + D * (S' - S) = d * S' - D * S by ring, abs_mul, abs_mul, abs_of_pos hD] at this
    have h1 := mul_le_mul hd hS1 (abs_nonneg _) (by positivity)
    have h2 := mul_le_mul_of_nonneg_left hS' hD.le
    nlinarith
  have e1' : ρ * (1 + σ) + σ ≤ 101 / 100 * ρ + σ := by nlinarith
  have e2 : |d * S' - D * S| ≤ (101 / 100 * ρ + σ) * (D * A) := e1.trans (mul_le_mul_of_nonneg_right e1' hDA)
  have e3 : |d * S'| ≤ 6 / 5 * (D * A) := by
    have := abs_add_le (d * S' - D * S) (D * S)
    rw [sub_add_cancel, abs_mul D S, abs_of_pos hD] at this
    have h1 := mul_le_mul_of_nonneg_left hS hD.le
    have h2 : (101 / 100 * ρ + σ) * (D * A) ≤ 1 / 5 * (D * A) := mul_le_mul_of_nonneg_right (by linarith) hDA
    linarith
  have e4 : |q - D * S| ≤ (101 / 100 * ρ + σ + 6 / 5 * w) * (D * A) + m := by
    have := abs_sub_le q (d * S') (D * S)
    have h1 := mul_le_mul_of_nonneg_left e3 hw
    nlinarith
  set B := D * (A / n) with hB
  have hB0 : 0 ≤ B := by positivity
  have eB : D * A / n = B := by rw [hB]; ring
  have hmn : m / n ≤ m := div_le_self hm hn
  have e5 : |q / n - D * (S / n)| ≤ (101 / 100 * ρ + σ + 6 / 5 * w) * B + m := by
    rw [show q / n - D * (S / n) = (q - D * S) / n by ring, abs_div, abs_of_pos hn0]
    have := div_le_div_of_nonneg_right e4 hn0.le
    rw [add_div, mul_div_assoc, eB] at this
    linarith
  have hSB : |D * (S / n)| ≤ B := by
    rw [hB, abs_mul, abs_of_pos hD, abs_div, abs_of_pos hn0]
    gcongr
  have e6 : |q / n| ≤ 5 / 4 * B + m := by
    have := abs_add_le (q / n - D * (S / n)) (D * (S / n))
    rw [sub_add_cancel] at this
    have h2 : (101 / 100 * ρ + σ + 6 / 5 * w) * B ≤ 1 / 4 * B := mul_le_mul_of_nonneg_right (by linarith) hB0
    linarith
  have e7 := abs_sub_le v (q / n) (D * (S / n))
  have e8 := mul_le_mul_of_nonneg_left e6 hw
  have e9 : w * m ≤ m := by nlinarith
  have h1 : 0 ≤ ρ * B := by positivity
  have h2 : 0 ≤ σ * B := by positivity
  have h3 : 0 ≤ w * B := by positivity
  nlinarith

theorem exactSum_real (ps : List F64) : ((exactSum ps : ℚ) : ℝ) = (ps.map F64.real).sum := by
  induction ps with
  | nil => simp [exactSum]
  | cons p ps ih => rw [exactSum_cons, List.map_cons, List.sum_cons, ← ih]; push_cast; rfl

theorem absSum_real (ps : List F64) : ((absSum ps : ℚ) : ℝ) = (ps.map fun p => |F64.real p|).sum := by
  induction ps with
  | nil => simp [absSum]
  | cons p ps ih => rw [absSum_cons, List.map_cons, List.sum_cons, ← ih]; unfold F64.real; push_cast; rfl

theorem abs_sum_le (ps : List F64) : |(ps.map F64.real).sum| ≤ (ps.map fun p => |F64.real p|).sum := by
  induction ps with
  | nil => simp
  | cons p ps ih =>
    rw [List.map_cons, List.sum_cons, List.map_cons, List.sum_cons]
    exact (abs_add_le _ _).trans (by linarith)

/-- Discounting and averaging: the relative error, and that nothing overflows. -/
theorem estimate_error {exp : F64 → Option F64} {δ : ℝ} {rate t0 tn : F64} (ps : List F64)
    (h : Ordinary exp δ rate t0 tn ps.length) (hsum : (ps.map fun p => |F64.real p|).sum ≤ 2 ^ 500) :
    ∃ v, estimate exp rate t0 tn ps = some v ∧
      |F64.real v - factor rate t0 tn * avg F64.real ps| ≤
        tolerance δ ps.length rate t0 tn * (factor rate t0 tn * avg (fun p => |F64.real p|) ps) + 3 * mu := by
  have hδ := delta_nonneg h.exp
  have hδ1 := h.error
  have hu := ur_pos
  have hm := mu_pos
  have hu1 : ur ≤ 1 / 10 ^ 6 := by unfold ur; norm_num
  have hn := h.paths
  have hlen : (1 : ℝ) ≤ ps.length := by exact_mod_cast hn.1
  obtain ⟨n, hn1, hnv⟩ := ofNat_small ps.length (by omega)
  have hnr : F64.real n = ps.length := by unfold F64.real; rw [hnv]; push_cast; rfl
  obtain ⟨df, hdf, hdfe⟩ := discount_error h
  have hA0 : 0 ≤ (ps.map fun p => |F64.real p|).sum := by
    rw [← absSum_real]; exact_mod_cast absSum_nonneg ps
  have hq500 : absSum ps ≤ 2 ^ 500 := by
    rw [← absSum_real] at hsum
    exact_mod_cast hsum
  obtain ⟨s, hs⟩ := Corr.sum_total ps (by omega) (hq500.trans_lt (pow_lt_pow_right₀ (by norm_num) (by norm_num)))
  have hse := sum_error ps (by omega) s hs
  have hse' : |F64.real s - (ps.map F64.real).sum| ≤ 2 * ps.length * ur * (ps.map fun p => |F64.real p|).sum := by
    have h1 := (Rat.cast_le (K := ℝ)).2 hse
    push_cast at h1
    rw [exactSum_real, absSum_real] at h1
    refine h1.trans (mul_le_mul_of_nonneg_right ?_ hA0)
    rw [show (2 : ℝ) ^ (-52 : ℤ) = 2 * ur by unfold ur; norm_num]
    have : ((ps.length - 1 : ℕ) : ℝ) ≤ ps.length := by exact_mod_cast Nat.sub_le _ _
    nlinarith
  have hSA := abs_sum_le ps
  set A := (ps.map fun p => |F64.real p|).sum with hA
  set S := (ps.map F64.real).sum with hS
  set D := factor rate t0 tn with hD
  have hD0 : 0 < D := Real.exp_pos _
  have hD1 : D ≤ 2 ^ 450 := factor_le h.exponent
  set X := |F64.real rate * (F64.real tn - F64.real t0)| with hX
  have hX0 : 0 ≤ X := abs_nonneg _
  have hX1 : X ≤ 300 := h.exponent
  set ρ := 3 / 2 * δ + 5 * ur * X + ur with hρ
  set σ := 2 * ps.length * ur with hσ
  have hlen2 : (ps.length : ℝ) ≤ 2 ^ 40 := by exact_mod_cast hn.2
  have hσ0 : 0 ≤ σ := by positivity
  have hσ1 : σ ≤ 1 / 100 := by
    calc σ ≤ 2 * 2 ^ 40 * ur := by rw [hσ]; gcongr
      _ ≤ _ := by unfold ur; norm_num
  have hρ0 : 0 ≤ ρ := by positivity
  have hρ1 : ρ ≤ 1 / 10 := by
    have : 5 * ur * X ≤ 5 * (1 / 10 ^ 6) * 300 := by gcongr
    rw [hρ]; linarith
  have hdf1 : |F64.real df| ≤ 2 * 2 ^ 450 := by
    have := abs_add_le (F64.real df - D) D
    rw [sub_add_cancel, abs_of_pos hD0] at this
    have h2 : ρ * D ≤ 1 / 10 * D := mul_le_mul_of_nonneg_right hρ1 hD0.le
    have h3 : |F64.real df| ≤ 2 * D := by linarith
    exact h3.trans (mul_le_mul_of_nonneg_left hD1 (by norm_num))
  have hs1 : |F64.real s| ≤ 2 * 2 ^ 500 := by
    have := abs_add_le (F64.real s - S) S
    rw [sub_add_cancel] at this
    have h2 : σ * A ≤ 1 * A := mul_le_mul_of_nonneg_right (by linarith) hA0
    have h3 : |F64.real s| ≤ 2 * A := by linarith
    exact h3.trans (mul_le_mul_of_nonneg_left hsum (by norm_num))
  have hprod : |F64.real df * F64.real s| ≤ 2 ^ 952 := by
    rw [abs_mul]
    refine (mul_le_mul hdf1 hs1 (abs_nonneg _) (by positivity)).trans (le_of_eq ?_)
    rw [← pow_succ', ← pow_succ', ← pow_add]
  obtain ⟨q, hq, hqv⟩ := toF64_total (x := df.val * s.val) (by
    push_cast
    refine hprod.trans ?_
    unfold top
    exact pow_le_pow_right₀ (by norm_num) (by norm_num))
  have hqe := rnd_real (df.val * s.val)
  rw [← hqv] at hqe
  push_cast at hqe
  change |F64.real q - F64.real df * F64.real s| ≤ ur * |F64.real df * F64.real s| + mu at hqe
  have hq1 : |F64.real q| ≤ 2 ^ 953 := by
    have := abs_add_le (F64.real q - F64.real df * F64.real s) (F64.real df * F64.real s)
    rw [sub_add_cancel] at this
    have h1 : (1 : ℝ) ≤ 2 ^ 952 := one_le_pow₀ (by norm_num)
    have h2 : mu ≤ 1 / 4 := mu_le.trans (by linarith)
    rw [pow_succ, mul_two]
    generalize (2 : ℝ) ^ 952 = B at *
    have h3 : ur * |F64.real df * F64.real s| ≤ 1 / 4 * |F64.real df * F64.real s| :=
      mul_le_mul_of_nonneg_right (by linarith) (abs_nonneg _)
    linarith
  have hn0 : n.val ≠ 0 := by rw [hnv]; exact_mod_cast hn.1.ne'
  have hqn : ((q.val / n.val : ℚ) : ℝ) = F64.real q / ps.length := by rw [← hnr]; unfold F64.real; push_cast; rfl
  obtain ⟨v, hv, hvv⟩ := toF64_total (x := q.val / n.val) (by
    rw [hqn, abs_div, abs_of_pos (by linarith : (0 : ℝ) < ps.length)]
    refine (div_le_self (abs_nonneg _) hlen).trans (hq1.trans ?_)
    unfold top
    exact pow_le_pow_right₀ (by norm_num) (by norm_num))
  have hve := rnd_real (q.val / n.val)
  rw [← hvv, hqn] at hve
  change |F64.real v - F64.real q / ps.length| ≤ _ at hve
  refine ⟨v, ?_, ?_⟩
  · unfold estimate
    have e1 : df.mul s = some q := hq
    have e2 : q.div n = some v := by unfold F64.div; rw [if_neg hn0, hv]
    have e3 : ps.foldlM F64.add F64.zero = some s := hs
    simp only [Option.bind_eq_bind, hn1, hdf, e3, e1, e2, Option.bind_some]
  · clear hsum hD1 hdf1 hs1 hprod hq1 hq500 hse hv hvv hq hqv
    have := estimate_key hD0 hA0 hSA hse' hdfe hqe hve hlen hρ0 hρ1 hσ0 hσ1 hu.le ur_le hm.le
    refine this.trans ?_
    change (21 / 20 * ρ + 21 / 20 * σ + 5 / 2 * ur) * (D * (A / ps.length)) + 3 * mu ≤
      (2 * δ + 2 ^ (-51 : ℤ) * (ps.length + 2 * X + 2)) * (D * (A / ps.length)) + 3 * mu
    have hB : 0 ≤ D * (A / ps.length) := by positivity
    rw [show (2 : ℝ) ^ (-51 : ℤ) = 4 * ur by unfold ur; norm_num]
    have h0 : 0 ≤ ur * X := by positivity
    have h1 : 0 ≤ ur * ps.length := by positivity
    have : 21 / 20 * ρ + 21 / 20 * σ + 5 / 2 * ur ≤ 2 * δ + 4 * ur * (ps.length + 2 * X + 2) := by
      rw [hρ, hσ]; nlinarith
    have := mul_le_mul_of_nonneg_right this hB
    linarith

/-- A list of payoffs, each close to what it should be. -/
theorem mapM_error {α β : Type} (zs : List α) (sim : α → Option β) (payoff : β → Option F64) (P E : α → ℝ)
    (h : ∀ z ∈ zs, ∃ path p, sim z = some path ∧ payoff path = some p ∧ |F64.real p - P z| ≤ E z) :
    ∃ paths ps, zs.mapM sim = some paths ∧ paths.mapM payoff = some ps ∧ ps.length = zs.length ∧
      |(ps.map F64.real).sum - (zs.map P).sum| ≤ (zs.map E).sum ∧
      (ps.map fun p => |F64.real p|).sum ≤ (zs.map fun z => |P z|).sum + (zs.map E).sum := by
  induction zs with
  | nil => exact ⟨[], [], by simp⟩
  | cons z zs ih =>
    obtain ⟨paths, ps, h1, h2, h3, h4, h5⟩ := ih fun y hy => h y (by simp [hy])
    obtain ⟨path, p, g1, g2, g3⟩ := h z (by simp)
    refine ⟨path :: paths, p :: ps, by simp [h1, g1], by simp [h2, g2], by simp [h3], ?_, ?_⟩
    · simp only [List.map_cons, List.sum_cons]
      rw [show F64.real p + (ps.map F64.real).sum - (P z + (zs.map P).sum) =
        (F64.real p - P z) + ((ps.map F64.real).sum - (zs.map P).sum) by ring]
      exact (abs_add_le _ _).trans (_root_.add_le_add g3 h4)
    · simp only [List.map_cons, List.sum_cons]
      have := abs_add_le (F64.real p - P z) (P z)
      rw [sub_add_cancel] at this
      linarith

end Verif.Float.Mc
