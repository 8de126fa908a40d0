import Verif.Float.NelsonSiegelNan
import Verif.Float.ActivationsLemmas

/-!
# C110: the cost of a fit
-/

namespace Verif.Float.Curves

open X64 Nan Verif.Float.Sim Verif.Float.Bsm Verif.Float.Laws Verif.Time
open Verif.Float.Activation (up_cases le_self)
open Verif.Float.Fft (ur mu top ur_pos mu_pos ur_le)
open Verif.Stochastics (CurveType)

/-! ## Helper lemmas -/

theorem mapM_all {α β : Type} (f : α → Option β) (g : α → β) (xs : List α) (h : ∀ x ∈ xs, f x = some (g x)) : xs.mapM f = some (xs.map g) := by
  induction xs with
  | nil => rfl
  | cons x xs ih =>
    rw [List.mapM_cons, h x (by simp), ih fun y hy => h y (by simp [hy])]
    rfl

theorem mapM_none {α β : Type} (f : α → Option β) (xs : List α) (h : ∃ x ∈ xs, f x = none) : xs.mapM f = none := by
  induction xs with
  | nil => simp at h
  | cons x xs ih =>
    rw [List.mapM_cons]
    cases hx : f x with
    | none => rfl
    | some y =>
      obtain ⟨z, hz, hn⟩ := h
      rcases List.mem_cons.1 hz with rfl | hz
      · rw [hx] at hn; simp at hn
      · rw [ih ⟨z, hz, hn⟩]; rfl

/-- The loss of one row. -/
def rowLoss (l : Lib) (r : Row) : X64 := l.ln (l.cosh ((fin r.fitted).sub (fin r.observed)))

theorem cost_rows {l : Lib} {t : CurveType} (ht : t ≠ .flat) {m : Nss} {today : Date} {rows : List Row} (hf : Fits l t m today rows) :
    cost l t (nodes rows) today m = some (((rows.map (rowLoss l)).foldl X64.add (fin F64.zero)).div (ofQ rows.length)) := by
  unfold cost
  rw [if_neg ht]
  have : (nodes rows).mapM (loss l t today m) = some (rows.map (rowLoss l)) := by
    unfold nodes
    rw [List.mapM_map]
    refine mapM_all _ _ _ fun r hr => ?_
    change loss l t today m (r.date, fin r.observed) = _
    unfold loss
    rw [hf r hr]
    rfl
  rw [this]
  simp [nodes]

theorem Fits.tail {l : Lib} {t : CurveType} {m : Nss} {today : Date} {r : Row} {rows : List Row} (h : Fits l t m today (r :: rows)) :
    Fits l t m today rows := fun x hx => h x (List.mem_cons_of_mem _ hx)

theorem sub_ne (a b : F64) : (fin a).sub (fin b) ≠ nan := by
  rw [X64.sub_fin]
  unfold ofQ
  split <;> nofun

theorem rowLoss_up {l : Lib} {ε : ℝ} (hl : l.Good ε) (r : Row) : le zero (rowLoss l r) = true :=
  hl.ln_up _ (hl.cosh_up _ (sub_ne _ _))

theorem add_up {x y : X64} (hx : le zero x = true) (hy : le zero y = true) : le zero (x.add y) = true := by
  rcases up_cases hx with rfl | ⟨a, rfl, ha⟩
  · rcases up_cases hy with rfl | ⟨b, rfl, hb⟩ <;> rfl
  · rcases up_cases hy with rfl | ⟨b, rfl, hb⟩
    · rfl
    · change le zero (ofQ (a.val + b.val)) = true
      rw [← ofQ_zero]
      exact ofQ_mono (by linarith)

theorem foldl_up {xs : List X64} (h : ∀ x ∈ xs, le zero x = true) {a : X64} (ha : le zero a = true) : le zero (xs.foldl X64.add a) = true := by
  induction xs generalizing a with
  | nil => exact ha
  | cons x xs ih => exact ih (fun y hy => h y (by simp [hy])) (add_up ha (h x (by simp)))

theorem top_add {x : X64} (hx : le zero x = true) : (inf false).add x = inf false := by
  rcases up_cases hx with rfl | ⟨a, rfl, ha⟩ <;> rfl

theorem add_top {x : X64} (hx : le zero x = true) : x.add (inf false) = inf false := by
  rcases up_cases hx with rfl | ⟨a, rfl, ha⟩ <;> rfl

theorem foldl_from_top {xs : List X64} (h : ∀ x ∈ xs, le zero x = true) : xs.foldl X64.add (inf false) = inf false := by
  induction xs with
  | nil => rfl
  | cons x xs ih =>
    rw [List.foldl_cons, top_add (h x (by simp))]
    exact ih fun y hy => h y (by simp [hy])

theorem foldl_top {xs : List X64} (h : ∀ x ∈ xs, le zero x = true) (hi : inf false ∈ xs) {a : X64} (ha : le zero a = true) :
    xs.foldl X64.add a = inf false := by
  induction xs generalizing a with
  | nil => simp at hi
  | cons x xs ih =>
    rw [List.foldl_cons]
    rcases List.mem_cons.1 hi with rfl | hi
    · rw [add_top ha]
      exact foldl_from_top fun y hy => h y (by simp [hy])
    · exact ih (fun y hy => h y (by simp [hy])) hi (add_up ha (h x (by simp)))

theorem foldl_nan {xs : List X64} (h : nan ∈ xs) (a : X64) : xs.foldl X64.add a = nan := by
  induction xs generalizing a with
  | nil => simp at h
  | cons x xs ih =>
    rw [List.foldl_cons]
    rcases List.mem_cons.1 h with rfl | h
    · rw [X64.add_nan]; exact foldl_add_nan _
    · exact ih h _

theorem cosh_step (x y : ℝ) : Real.cosh x ≤ Real.cosh y * Real.exp |x - y| := by
  rw [Real.cosh_eq, Real.cosh_eq]
  have h1 : Real.exp x ≤ Real.exp y * Real.exp |x - y| := by
    rw [← Real.exp_add]
    exact Real.exp_le_exp.2 (by linarith [le_abs_self (x - y)])
  have h2 : Real.exp (-x) ≤ Real.exp (-y) * Real.exp |x - y| := by
    rw [← Real.exp_add]
    exact Real.exp_le_exp.2 (by linarith [neg_le_abs (x - y)])
  linarith

theorem logCosh_le (x y : ℝ) : Real.log (Real.cosh x) ≤ Real.log (Real.cosh y) + |x - y| := by
  have h := Real.log_le_log (Real.cosh_pos x) (cosh_step x y)
  rwa [Real.log_mul (Real.cosh_pos y).ne' (Real.exp_pos _).ne', Real.log_exp] at h

theorem logCosh_lip (x y : ℝ) : |Real.log (Real.cosh x) - Real.log (Real.cosh y)| ≤ |x - y| := by
  rw [abs_le]
  have h1 := logCosh_le x y
  have h2 := logCosh_le y x
  rw [abs_sub_comm] at h2
  constructor <;> linarith

theorem logCosh_abs (x : ℝ) : 0 ≤ Real.log (Real.cosh x) ∧ Real.log (Real.cosh x) ≤ |x| := by
  refine ⟨Real.log_nonneg (Real.one_le_cosh x), ?_⟩
  have := logCosh_le x 0
  rwa [Real.cosh_zero, Real.log_one, _root_.zero_add, sub_zero] at this

/-- The rounded loss of one row. -/
theorem rowLoss_near {l : Lib} {ε : ℝ} (hl : l.Good ε) (hε0 : 0 ≤ ε) (hε : ε ≤ 1 / 16) {M : ℝ} (hM : M ≤ 600) (r : Row)
    (hr : |F64.real r.fitted - F64.real r.observed| ≤ M) :
    ∃ v : F64, rowLoss l r = fin v ∧
      |F64.real v - Real.log (Real.cosh (F64.real r.fitted - F64.real r.observed))| ≤ (11 / 5 * ε + ur) * (1 + M) ∧ |F64.real v| ≤ 2 * (1 + M) := by
  set δ := F64.real r.fitted - F64.real r.observed with hδ
  have hu : ur ≤ 1 / 1000000 := by unfold ur; norm_num
  have hu0 := ur_pos
  have hM0 : 0 ≤ M := (abs_nonneg _).trans hr
  have htop : (2 : ℝ) ^ 10 ≤ top := Fft.top_ge
  obtain ⟨d, d1, d2⟩ := subR (a := r.fitted) (b := r.observed) (by rw [← hδ]; exact hr.trans (le_trans (by linarith) htop))
  rw [← hδ] at d2
  have hd := size_le d2
  have hud : ur * |δ| ≤ ur * M := by gcongr
  have hdM : |F64.real d| ≤ 1001 / 1000 * M := by nlinarith
  obtain ⟨c, c1, c2⟩ := hl.cosh_near d (by linarith)
  have c3 := hl.cosh_up (fin d) (by nofun)
  obtain ⟨i, i1, i2⟩ := one_fin
  have c4 : 1 ≤ F64.real c := by
    rw [c1, i1] at c3
    have := (le_fin _ _).1 c3
    rw [i2] at this
    unfold F64.real
    exact_mod_cast this
  obtain ⟨v, v1, v2⟩ := hl.ln_near c c4
  have hC := Real.cosh_pos (F64.real d)
  have c0 : 0 < F64.real c := by linarith
  obtain ⟨g1, g2⟩ := logCosh_abs (F64.real d)
  have k : |Real.log (F64.real c) - Real.log (Real.cosh (F64.real d))| ≤ 16 / 15 * ε := by
    obtain ⟨b1, b2⟩ := abs_le.1 c2
    rw [abs_le]
    constructor
    · have h1 := Real.log_le_sub_one_of_pos (x := Real.cosh (F64.real d) / F64.real c) (by positivity)
      rw [Real.log_div hC.ne' c0.ne'] at h1
      have h2 : Real.cosh (F64.real d) / F64.real c ≤ 1 + 16 / 15 * ε := by
        rw [div_le_iff₀ c0]
        nlinarith
      linarith
    · have h1 := Real.log_le_sub_one_of_pos (x := F64.real c / Real.cosh (F64.real d)) (by positivity)
      rw [Real.log_div c0.ne' hC.ne'] at h1
      have h2 : F64.real c / Real.cosh (F64.real d) ≤ 1 + ε := by
        rw [div_le_iff₀ hC]
        linarith
      linarith
  have lip := logCosh_lip (F64.real d) δ
  have hlc : Real.log (F64.real c) ≤ 1001 / 1000 * M + 1 / 15 := by linarith [(abs_le.1 k).2]
  have hv : |F64.real v - Real.log (Real.cosh δ)| ≤ (11 / 5 * ε + ur) * (1 + M) := by
    rw [show F64.real v - Real.log (Real.cosh δ) = (F64.real v - Real.log (F64.real c)) +
      (Real.log (F64.real c) - Real.log (Real.cosh (F64.real d))) + (Real.log (Real.cosh (F64.real d)) - Real.log (Real.cosh δ)) by ring]
    refine (abs_add_le _ _).trans ((_root_.add_le_add (abs_add_le _ _) le_rfl).trans ?_)
    have e1 : ε * (1 + Real.log (F64.real c)) ≤ ε * (1 + (1001 / 1000 * M + 1 / 15)) := by gcongr
    have e2 : 0 ≤ ε * M := by positivity
    nlinarith
  refine ⟨v, ?_, hv, ?_⟩
  · unfold rowLoss
    rw [sub_of d1, c1, v1]
  · have h1 := size_le hv
    obtain ⟨g3, g4⟩ := logCosh_abs δ
    rw [abs_of_nonneg g3] at h1
    have : (11 / 5 * ε + ur) * (1 + M) ≤ 1 * (1 + M) := by gcongr; linarith
    linarith

theorem losses_near {l : Lib} {ε : ℝ} (hl : l.Good ε) (hε0 : 0 ≤ ε) (hε : ε ≤ 1 / 16) {M : ℝ} (hM : M ≤ 600) (rows : List Row)
    (hr : ∀ r ∈ rows, |F64.real r.fitted - F64.real r.observed| ≤ M) :
    ∃ vs : List F64, rows.map (rowLoss l) = vs.map fin ∧ vs.length = rows.length ∧
      |((exactSum vs : ℚ) : ℝ) - (rows.map fun r => Real.log (Real.cosh (F64.real r.fitted - F64.real r.observed))).sum| ≤
        rows.length * ((11 / 5 * ε + ur) * (1 + M)) ∧ ((absSum vs : ℚ) : ℝ) ≤ rows.length * (2 * (1 + M)) := by
  induction rows with
  | nil => exact ⟨[], rfl, rfl, by simp [exactSum], by simp [absSum]⟩
  | cons r rows ih =>
    obtain ⟨vs, h1, h2, h3, h4⟩ := ih fun x hx => hr x (by simp [hx])
    obtain ⟨v, v1, v2, v3⟩ := rowLoss_near hl hε0 hε hM r (hr r (by simp))
    refine ⟨v :: vs, by rw [List.map_cons, h1, v1, List.map_cons], by simp [h2], ?_, ?_⟩
    · rw [exactSum_cons, List.map_cons, List.sum_cons, List.length_cons]
      push_cast
      have : (v.val : ℝ) = F64.real v := rfl
      rw [this, show ∀ a b c d : ℝ, a + b - (c + d) = (a - c) + (b - d) by intros; ring, add_mul, one_mul, _root_.add_comm ((rows.length : ℝ) * _)]
      exact (abs_add_le _ _).trans (_root_.add_le_add v2 h3)
    · rw [absSum_cons, List.length_cons]
      push_cast
      have : |(v.val : ℝ)| = |F64.real v| := rfl
      rw [this]
      linarith

/-! ## Theorems -/

/-- **C110.** The cost function panics for a flat curve and when the date of a node is not in the future. -/
theorem C110_cost_panics (l : Lib) (t : CurveType) (ns : List (Date × X64)) (today : Date) (m : Nss)
    (h : t = .flat ∨ ∃ n ∈ ns, ¬ today < n.1) : cost l t ns today m = none := by
  unfold cost
  by_cases ht : t = .flat
  · rw [if_pos ht]
  · rw [if_neg ht]
    obtain ⟨n, hn, hd⟩ := h.resolve_left ht
    obtain ⟨e1, e2, e3⟩ := C110_panics l m hd
    rw [mapM_none _ _ ⟨n, hn, by unfold loss model; cases t <;> simp_all⟩]
    rfl

/-- **C110.** The cost is not negative and not NaN while all fitted values and all nodes are finite. -/
theorem C110_cost_nonneg {l : Lib} {ε : ℝ} (hl : l.Good ε) {t : CurveType} (ht : t ≠ .flat) {m : Nss} {today : Date} {rows : List Row}
    (hr : rows ≠ []) (hn : rows.length < 2 ^ 53) (hf : Fits l t m today rows) : ∃ c, cost l t (nodes rows) today m = some c ∧ le zero c = true := by
  refine ⟨_, cost_rows ht hf, ?_⟩
  have h1 : le zero ((rows.map (rowLoss l)).foldl X64.add (fin F64.zero)) = true :=
    foldl_up (by simp only [List.mem_map]; rintro x ⟨r, -, rfl⟩; exact rowLoss_up hl r) (le_self (by nofun))
  obtain ⟨c, c1, c2⟩ := ofNat_small rows.length hn.le
  have c3 : (ofQ (rows.length : ℚ)) = fin c := fin_of c1
  have hp : 0 < c.val := by rw [c2]; exact_mod_cast List.length_pos_of_ne_nil hr
  rw [c3]
  have h2 := div_mono hp h1
  have h3 : zero.div (fin c) = zero := by
    change (if c.val = 0 then _ else ofQ (F64.zero.val / c.val)) = _
    rw [if_neg hp.ne', Laws.zero_val, zero_div, ofQ_zero]
  rwa [h3] at h2

/-- **C110.** A NaN among the nodes or among the fitted values makes the cost NaN. -/
theorem C110_cost_nan {l : Lib} {ε : ℝ} (hl : l.Good ε) {t : CurveType} (ht : t ≠ .flat) {m : Nss} {today : Date} {ns : List (Date × X64)}
    (hd : ∀ n ∈ ns, today < n.1) (hn : ∃ n ∈ ns, n.2 = nan ∨ model l t m today n.1 = some nan) : cost l t ns today m = some nan := by
  unfold cost
  rw [if_neg ht]
  have hm : ∀ n ∈ ns, ∃ v, model l t m today n.1 = some v := by
    intro n hn
    have h := hd n hn
    cases t with
    | flat => exact absurd rfl ht
    | spot => exact ⟨_, by simp only [model, Nss.spotRate, if_pos h]; rfl⟩
    | forward => exact ⟨_, by simp only [model, Nss.forwardRate, if_pos h]; rfl⟩
    | discount => exact ⟨_, by simp only [model, Nss.discountFactor, Nss.spotRate, if_pos h, Option.map_some]; rfl⟩
  have hL : ∀ n ∈ ns, loss l t today m n = some ((loss l t today m n).getD nan) := by
    intro n hn
    obtain ⟨v, hv⟩ := hm n hn
    unfold loss
    rw [hv]
    rfl
  rw [mapM_all _ _ _ hL]
  obtain ⟨n, hn1, hn2⟩ := hn
  have : nan ∈ ns.map fun n => (loss l t today m n).getD nan := by
    refine List.mem_map.2 ⟨n, hn1, ?_⟩
    obtain ⟨v, hv⟩ := hm n hn1
    unfold loss
    rcases hn2 with e | e
    · rw [hv, e]
      simp only [Option.map_some, Option.getD_some, X64.sub_nan, hl.cosh_nan, hl.ln_nan]
    · rw [e]
      simp only [Option.map_some, Option.getD_some, X64.nan_sub, hl.cosh_nan, hl.ln_nan]
  rw [Option.map_some, foldl_nan this, nan_div]

/-- C110 (defect): the cost of a curve without nodes is NaN, not zero or an error. -/
theorem C110_cost_empty (l : Lib) {t : CurveType} (ht : t ≠ .flat) (m : Nss) (today : Date) : cost l t [] today m = some nan := by
  unfold cost
  rw [if_neg ht]
  change some ((fin F64.zero).div (ofQ ((0 : ℕ) : ℚ))) = _
  rw [Nat.cast_zero, ofQ_zero]
  rfl

/-- C110 (defect): the cost does not see misfits up to `2^-27`: when every fitted value is this close to its node the cost is zero, so that such
parameters cannot be told from a perfect fit (for discount factors, whose last digits matter, an error of `7e-9`). -/
theorem C110_cost_flat {l : Lib} {ε : ℝ} (hl : l.Good ε) {t : CurveType} (ht : t ≠ .flat) {m : Nss} {today : Date} {rows : List Row}
    (hr : rows ≠ []) (hn : rows.length < 2 ^ 53) (hf : Fits l t m today rows)
    (hc : ∀ r ∈ rows, |r.fitted.val - r.observed.val| ≤ 2 ^ (-27 : ℤ)) : cost l t (nodes rows) today m = some zero := by
  rw [cost_rows ht hf]
  have h1 : ∀ x ∈ rows.map (rowLoss l), x = zero := by
    intro x hx
    obtain ⟨r, hr, rfl⟩ := List.mem_map.1 hx
    unfold rowLoss
    rw [X64.sub_fin]
    have hb := abs_le.1 (hc r hr)
    have h27 := rep_pow (-27) (by norm_num)
    have u1 := rnd_le h27 hb.2
    have u2 : -2 ^ (-27 : ℤ) ≤ rnd (r.fitted.val - r.observed.val) := by
      have := rnd_mono hb.1
      rwa [rnd_neg, rnd_rep h27] at this
    have h3 : |rnd (r.fitted.val - r.observed.val)| ≤ 2 ^ (-27 : ℤ) := abs_le.2 ⟨u2, u1⟩
    obtain ⟨d, d1, d2⟩ := ofQ_fin (h3.trans_lt (by rw [← zpow_natCast]; exact zpow_lt_zpow_right₀ (by norm_num) (by norm_num)))
    rw [d1, hl.cosh_one d (by rw [d2]; exact h3), hl.ln_one]
  have h2 : ∀ xs : List X64, (∀ x ∈ xs, x = zero) → xs.foldl X64.add (fin F64.zero) = zero := by
    intro xs hx
    induction xs with
    | nil => rfl
    | cons x xs ih =>
      rw [List.foldl_cons, hx x (by simp), add_zero']
      exact ih fun y hy => hx y (by simp [hy])
  rw [h2 _ h1]
  obtain ⟨c, c1, c2⟩ := ofNat_small rows.length hn.le
  have c3 : (ofQ (rows.length : ℚ)) = fin c := fin_of c1
  have hp : 0 < c.val := by rw [c2]; exact_mod_cast List.length_pos_of_ne_nil hr
  rw [c3]
  change some (if c.val = 0 then _ else ofQ (F64.zero.val / c.val)) = _
  rw [if_neg hp.ne', Laws.zero_val, zero_div, ofQ_zero]

/-- C110 (defect): one misfit of 711 or more makes the cost infinite, whatever the other nodes, although its exact value is near the misfit
divided by the number of nodes: two such parameter sets cannot be compared. -/
theorem C110_cost_overflow {l : Lib} {ε : ℝ} (hl : l.Good ε) {t : CurveType} (ht : t ≠ .flat) {m : Nss} {today : Date} {rows : List Row}
    (hn : rows.length < 2 ^ 53) (hf : Fits l t m today rows) (hc : ∃ r ∈ rows, 711 ≤ |r.fitted.val - r.observed.val|) :
    cost l t (nodes rows) today m = some (inf false) := by
  rw [cost_rows ht hf]
  obtain ⟨r, hr, hb⟩ := hc
  have h1 : rowLoss l r = inf false := by
    unfold rowLoss
    rw [X64.sub_fin]
    by_cases hfin : |rnd (r.fitted.val - r.observed.val)| < 2 ^ 1024
    · obtain ⟨d, d1, d2⟩ := ofQ_fin hfin
      have h711 : Rep (711 : ℚ) := by
        have := rep_of_le 711 0 (by norm_num) (by norm_num)
        simpa using this
      have h3 : 711 ≤ |d.val| := by
        rw [d2]
        rcases le_abs.1 hb with h | h
        · exact (le_rnd h711 h).trans (le_abs_self _)
        · have := le_rnd h711 h
          rw [rnd_neg] at this
          exact this.trans (neg_le_abs _)
      rw [d1, hl.cosh_over d h3, hl.ln_top]
    · rw [ofQ_inf hfin, hl.cosh_top, hl.ln_top]
  have h2 : (rows.map (rowLoss l)).foldl X64.add (fin F64.zero) = inf false :=
    foldl_top (by simp only [List.mem_map]; rintro x ⟨r, -, rfl⟩; exact rowLoss_up hl r) (List.mem_map.2 ⟨r, hr, h1⟩) (le_self (by nofun))
  rw [h2]
  obtain ⟨c, c1, c2⟩ := ofNat_small rows.length hn.le
  have c3 : (ofQ (rows.length : ℚ)) = fin c := fin_of c1
  have hp : 0 < c.val := by rw [c2]; exact_mod_cast List.length_pos_of_mem hr
  rw [c3]
  change some (inf (false != decide (c.val < 0))) = _
  rw [decide_eq_false (not_lt.2 hp.le)]
  rfl

/-- **C110.** While no misfit is beyond 600, the cost is the mean of the log-cosh of the misfits up to `3 ε + n / 2^50` times one plus the largest
misfit, for `n` nodes. -/
theorem C110_cost_error {l : Lib} {ε : ℝ} (hl : l.Good ε) (hε0 : 0 ≤ ε) (hε : ε ≤ 1 / 16) {t : CurveType} (ht : t ≠ .flat) {m : Nss}
    {today : Date} {rows : List Row} (hr : rows ≠ []) (hn : rows.length ≤ 2 ^ 50) (hf : Fits l t m today rows) {M : ℝ} (hM : M ≤ 600)
    (hc : ∀ r ∈ rows, |F64.real r.fitted - F64.real r.observed| ≤ M) :
    ∃ c : F64, cost l t (nodes rows) today m = some (fin c) ∧ |F64.real c - logCosh rows| ≤ (3 * ε + rows.length * 2 ^ (-50 : ℤ)) * (1 + M) := by
  have hM0 : 0 ≤ M := by
    obtain ⟨r, hr⟩ := List.exists_mem_of_ne_nil rows hr
    exact (abs_nonneg _).trans (hc r hr)
  obtain ⟨vs, h1, h2, h3, h4⟩ := losses_near hl hε0 hε hM rows hc
  have hu : ur ≤ 1 / 1000000 := by unfold ur; norm_num
  have hu0 := ur_pos
  have hm0 := mu_pos
  have hmu : mu ≤ ur := Fft.mu_le
  have hnpos : 0 < rows.length := List.length_pos_of_ne_nil hr
  have hn1 : (1 : ℝ) ≤ rows.length := by exact_mod_cast hnpos
  have hnb : (rows.length : ℝ) ≤ 2 ^ 50 := by exact_mod_cast hn
  have habs : ((absSum vs : ℚ) : ℝ) ≤ 2 ^ 61 := by
    refine h4.trans ?_
    have : (rows.length : ℝ) * (2 * (1 + M)) ≤ 2 ^ 50 * (2 * (1 + 600)) := by gcongr
    linarith
  have habs' : absSum vs ≤ 2 ^ 61 := by exact_mod_cast habs
  have hlen : vs.length ≤ 2 ^ 52 := by rw [h2]; omega
  have hpow := pow_bound vs.length hlen
  have hpow2 : (1 + u) ^ vs.length ≤ 2 := by
    refine hpow.trans ?_
    have h5 : (vs.length : ℚ) ≤ 2 ^ 52 := by exact_mod_cast hlen
    have h6 : (vs.length : ℚ) * 2 ^ (-52 : ℤ) ≤ 2 ^ 52 * 2 ^ (-52 : ℤ) := by gcongr
    have h7 : (2 : ℚ) ^ 52 * 2 ^ (-52 : ℤ) = 1 := by norm_num
    linarith
  obtain ⟨s, hs⟩ := sum_from_total vs F64.zero (by
    rw [Laws.zero_val, abs_zero, _root_.zero_add]
    have h0 := absSum_nonneg vs
    calc (1 + u) ^ vs.length * absSum vs ≤ 2 * 2 ^ 61 := by gcongr
      _ = 2 ^ 62 := by norm_num
      _ < 2 ^ 1024 := pow_lt_pow_right₀ (by norm_num) (by norm_num))
  have he := sum_error vs hlen s hs
  have he' : |F64.real s - ((exactSum vs : ℚ) : ℝ)| ≤ (rows.length - 1 : ℕ) * (2 * ur) * (rows.length * (2 * (1 + M))) := by
    have h5 := (Rat.cast_le (K := ℝ)).2 he
    rw [Rat.cast_abs, Rat.cast_sub, Rat.cast_mul, Rat.cast_mul, Rat.cast_natCast, h2] at h5
    have h6 : (((2 : ℚ) ^ (-52 : ℤ) : ℚ) : ℝ) = 2 * ur := by unfold ur; norm_num
    rw [h6] at h5
    refine h5.trans ?_
    gcongr
  have hc1 : ((rows.length - 1 : ℕ) : ℝ) = rows.length - 1 := by
    rw [Nat.cast_sub hnpos]; norm_num
  rw [hc1] at he'
  set n : ℝ := (rows.length : ℝ) with hndef
  set L := (rows.map fun r => Real.log (Real.cosh (F64.real r.fitted - F64.real r.observed))).sum with hL
  have hnear : Near ((rows.map (rowLoss l)).foldl X64.add (fin F64.zero)) L
      ((n - 1) * (2 * ur) * (n * (2 * (1 + M))) + n * ((11 / 5 * ε + ur) * (1 + M))) := by
    refine ⟨s, by rw [h1]; exact sum_of hs, ?_⟩
    rw [show F64.real s - L = (F64.real s - ((exactSum vs : ℚ) : ℝ)) + (((exactSum vs : ℚ) : ℝ) - L) by ring]
    exact (abs_add_le _ _).trans (_root_.add_le_add he' h3)
  have hLb : |L| ≤ n * M := by
    rw [hL, hndef]
    clear hL hndef hnear he' hc1 h3 h4 hnb hn1 hf hr he h1 h2 hn hnpos
    induction rows with
    | nil => simp
    | cons r rows ih =>
      rw [List.map_cons, List.sum_cons, List.length_cons]
      push_cast
      obtain ⟨g3, g4⟩ := logCosh_abs (F64.real r.fitted - F64.real r.observed)
      have h5 := hc r (by simp)
      have h6 := ih fun x hx => hc x (by simp [hx])
      refine (abs_add_le _ _).trans ?_
      rw [abs_of_nonneg g3]
      linarith
  obtain ⟨k, k1, k2⟩ := ofNat_small rows.length (hn.trans (by norm_num))
  have k3 : Near (ofQ (rows.length : ℚ)) n (0 * n) := ⟨k, fin_of k1, by unfold F64.real; rw [k2]; simp [hndef]⟩
  have hn0 : 0 < n := by linarith
  have hq : |L / n| ≤ M := by
    rw [abs_div, abs_of_pos hn0, div_le_iff₀ hn0]
    linarith
  have hw : (n - 1) * ur ≤ 1 / 8 := by
    have h5 : (n - 1) * ur ≤ 2 ^ 50 * ur := by gcongr; linarith
    have h6 : (2 : ℝ) ^ 50 * ur = 1 / 8 := by unfold ur; norm_num
    linarith
  have hw0 : 0 ≤ (n - 1) * ur := mul_nonneg (by linarith) hu0.le
  have hE : 8 / 7 * (((n - 1) * (2 * ur) * (n * (2 * (1 + M))) + n * ((11 / 5 * ε + ur) * (1 + M))) / n + 0 * (|L| / n)) =
      8 / 7 * ((4 * ((n - 1) * ur) + 11 / 5 * ε + ur) * (1 + M)) := by
    field_simp
    ring
  have hEb : 8 / 7 * ((4 * ((n - 1) * ur) + 11 / 5 * ε + ur) * (1 + M)) ≤ 1 + M := by
    have : (4 * ((n - 1) * ur) + 11 / 5 * ε + ur) * (1 + M) ≤ 7 / 8 * (1 + M) := by gcongr; linarith
    linarith
  obtain ⟨c, c1, c2⟩ := hnear.div (δ := 0) hn0 (by norm_num) k3 hE.le (big_top (k := 11) (by norm_num) (by linarith))
  refine ⟨c, by rw [cost_rows ht hf, c1], ?_⟩
  have hlog : logCosh rows = L / n := rfl
  rw [hlog]
  refine c2.trans ?_
  have h51 : (2 : ℝ) ^ (-50 : ℤ) = 8 * ur := by unfold ur; norm_num
  rw [h51]
  have e1 : ur * (|L / n| + 8 / 7 * ((4 * ((n - 1) * ur) + 11 / 5 * ε + ur) * (1 + M))) ≤ ur * (2 * (1 + M)) :=
    mul_le_mul_of_nonneg_left (by linarith) hu0.le
  have e2 : mu ≤ ur * (1 + M) := by nlinarith
  have e3 : 8 / 7 * (4 * ((n - 1) * ur) + 11 / 5 * ε + ur) + 3 * ur ≤ 3 * ε + n * (8 * ur) := by nlinarith
  have e4 := mul_le_mul_of_nonneg_right e3 (by linarith : 0 ≤ 1 + M)
  linarith

end Verif.Float.Curves
