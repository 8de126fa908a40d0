import Verif.Float.FdInputs

/-! Helper lemmas: one time step of the explicit method with all roundings. -/

namespace Verif.Float.Fd

open X64
open Verif.Options (TypeFlag ExerciseFlag dateMin dateMax)

theorem mul_fin {p x : F64} {b : ℚ} (h : |p.val * x.val| ≤ b) (hb : b ≤ 2 ^ 200) :
    ∃ e, (fin p).mul (fin x) = fin e ∧ |e.val - p.val * x.val| ≤ u * |p.val * x.val| + 2 ^ (-1075 : ℤ) := by
  obtain ⟨e, e1, e2⟩ := fin_of_le h hb
  exact ⟨e, e1, by rw [e2, abs_sub_comm]; exact rnd_error' _⟩

theorem add_fin {p x : F64} {b : ℚ} (h : |p.val + x.val| ≤ b) (hb : b ≤ 2 ^ 200) :
    ∃ e, (fin p).add (fin x) = fin e ∧ |e.val - (p.val + x.val)| ≤ u * |p.val + x.val| := by
  obtain ⟨e, e1, e2⟩ := fin_of_le h hb
  exact ⟨e, e1, by rw [e2, abs_sub_comm]; exact rnd_add p.rep x.rep⟩

/-- Three weighted values, added from left to right. -/
theorem three {p q r x y z : F64} {W : ℚ} (hp : 0 ≤ p.val) (hq : 0 ≤ q.val) (hr : 0 ≤ r.val)
    (hs : p.val + q.val + r.val ≤ 1 + 4 * u) (hx : |x.val| ≤ W) (hy : |y.val| ≤ W) (hz : |z.val| ≤ W) (h1 : 1 ≤ W)
    (h2 : W ≤ 2 ^ 150) :
    ∃ e, (((fin p).mul (fin x)).add ((fin q).mul (fin y))).add ((fin r).mul (fin z)) = fin e ∧
      |e.val - (p.val * x.val + q.val * y.val + r.val * z.val)| ≤ 5 * u * W := by
  have hu : u = 1 / 9007199254740992 := by norm_num [u]
  have hmu : (2:ℚ) ^ (-1075 : ℤ) ≤ u / 1000 :=
    (zpow_le_zpow_right₀ (by norm_num) (by norm_num : (-1075 : ℤ) ≤ -100)).trans (by norm_num [u])
  have hmu0 : (0:ℚ) ≤ 2 ^ (-1075 : ℤ) := by positivity
  have bound : ∀ a b : ℚ, 0 ≤ a → |b| ≤ W → |a * b| ≤ a * W := fun a b ha hb => by
    rw [abs_mul, abs_of_nonneg ha]; exact mul_le_mul_of_nonneg_left hb ha
  have bp := bound _ _ hp hx
  have bq := bound _ _ hq hy
  have br := bound _ _ hr hz
  have hW : 0 ≤ W := by linarith
  have sW : p.val * W + q.val * W + r.val * W ≤ (1 + 4 * u) * W := by
    have := mul_le_mul_of_nonneg_right hs hW
    linarith
  have p0 := mul_nonneg hp hW
  have q0 := mul_nonneg hq hW
  have r0 := mul_nonneg hr hW
  rw [hu] at sW hmu
  have big : 2 * W ≤ 2 ^ 200 := by norm_num at h2 ⊢; linarith
  have big' : 4 * W ≤ 2 ^ 200 := by norm_num at h2 ⊢; linarith
  obtain ⟨P, P1, P2⟩ := mul_fin (bp.trans (show p.val * W ≤ 2 * W by linarith)) big
  obtain ⟨Q, Q1, Q2⟩ := mul_fin (bq.trans (show q.val * W ≤ 2 * W by linarith)) big
  obtain ⟨R, R1, R2⟩ := mul_fin (br.trans (show r.val * W ≤ 2 * W by linarith)) big
  rw [hu] at P2 Q2 R2
  generalize (2:ℚ) ^ (-1075 : ℤ) = μ at *
  have aP : |P.val| ≤ (1 + 1 / 9007199254740992) * (p.val * W) + μ := by
    have : |P.val| ≤ |P.val - p.val * x.val| + |p.val * x.val| := by
      have := abs_add_le (P.val - p.val * x.val) (p.val * x.val); rwa [sub_add_cancel] at this
    linarith
  have aQ : |Q.val| ≤ (1 + 1 / 9007199254740992) * (q.val * W) + μ := by
    have : |Q.val| ≤ |Q.val - q.val * y.val| + |q.val * y.val| := by
      have := abs_add_le (Q.val - q.val * y.val) (q.val * y.val); rwa [sub_add_cancel] at this
    linarith
  have aR : |R.val| ≤ (1 + 1 / 9007199254740992) * (r.val * W) + μ := by
    have : |R.val| ≤ |R.val - r.val * z.val| + |r.val * z.val| := by
      have := abs_add_le (R.val - r.val * z.val) (r.val * z.val); rwa [sub_add_cancel] at this
    linarith
  have aPQ := abs_add_le P.val Q.val
  obtain ⟨S, S1, S2⟩ := add_fin (p := P) (x := Q) (b := 4 * W) (by linarith) big'
  rw [hu] at S2
  have aS : |S.val| ≤ (1 + 1 / 9007199254740992) * |P.val + Q.val| := by
    have := abs_add_le (S.val - (P.val + Q.val)) (P.val + Q.val)
    rw [sub_add_cancel] at this
    linarith
  have aSR := abs_add_le S.val R.val
  obtain ⟨E, E1, E2⟩ := add_fin (p := S) (x := R) (b := 4 * W) (by linarith) big'
  rw [hu] at E2
  refine ⟨E, by rw [P1, Q1, R1, S1, E1], ?_⟩
  have tri : |E.val - (p.val * x.val + q.val * y.val + r.val * z.val)| ≤
      |E.val - (S.val + R.val)| + |S.val - (P.val + Q.val)| + |P.val - p.val * x.val| + |Q.val - q.val * y.val| +
        |R.val - r.val * z.val| := by
    rw [abs_le]
    have e1 := abs_le.1 (le_refl |E.val - (S.val + R.val)|)
    have e2 := abs_le.1 (le_refl |S.val - (P.val + Q.val)|)
    have e3 := abs_le.1 (le_refl |P.val - p.val * x.val|)
    have e4 := abs_le.1 (le_refl |Q.val - q.val * y.val|)
    have e5 := abs_le.1 (le_refl |R.val - r.val * z.val|)
    constructor
    · linarith [e1.1, e2.1, e3.1, e4.1, e5.1]
    · linarith [e1.2, e2.2, e3.2, e4.2, e5.2]
  rw [hu]
  linarith

/-- Entries of `tridiagMul`. -/
theorem tridiagMul_getD {a b d : X64} {v : List X64} (hv : 2 ≤ v.length) :
    ∃ w, tridiagMul a b d v = some w ∧ w.length = v.length ∧ ∀ i < v.length, w.getD i nan =
      if i = 0 then (b.mul (v.getD 0 nan)).add (d.mul (v.getD 1 nan))
      else if i = v.length - 1 then (a.mul (v.getD (v.length - 2) nan)).add (b.mul (v.getD (v.length - 1) nan))
      else ((a.mul (v.getD (i - 1) nan)).add (b.mul (v.getD i nan))).add (d.mul (v.getD (i + 1) nan)) := by
  unfold tridiagMul
  rw [if_neg (by omega)]
  refine ⟨_, rfl, by simp; omega, fun i hi => ?_⟩
  rw [List.getD_eq_getElem _ _ (by simp; omega)]
  by_cases h0 : i = 0
  · subst h0
    simp
  · rw [if_neg h0]
    by_cases hl : i = v.length - 1
    · rw [if_pos hl, List.getElem_append_right (by simp; omega)]
      simp
    · rw [if_neg hl, List.getElem_append_left (by simp; omega), List.getElem_append_right (by simp; omega)]
      simp only [List.length_cons, List.length_nil, List.getElem_map, List.getElem_range']
      rw [show 1 + 1 * (i - (0 + 1)) = i by omega]

theorem add_zero_fin (a : F64) : (fin a).add (fin F64.zero) = fin a :=
  ofQ_of_eq a (by show a.val + 0 = a.val; rw [_root_.add_zero])

theorem mul_zero_fin (a : F64) : (fin a).mul (fin F64.zero) = fin F64.zero :=
  ofQ_of_eq F64.zero (by show a.val * 0 = 0; rw [mul_zero])

theorem max_fin (a b : F64) : ∃ e, (fin a).max (fin b) = fin e ∧ e.val = max a.val b.val := by
  by_cases h : a.val < b.val
  · exact ⟨b, by simp [X64.max, X64.lt, h], by rw [max_eq_right h.le]⟩
  · exact ⟨a, by simp [X64.max, X64.lt, h], by rw [max_eq_left (not_lt.1 h)]⟩

theorem getD_set_ne {w : List X64} {i j : ℕ} (x : X64) (h : j ≠ i) (hi : i < w.length) : (w.set j x).getD i nan = w.getD i nan := by
  rw [List.getD_eq_getElem _ _ (by simpa using hi), List.getD_eq_getElem _ _ hi, List.getElem_set_ne h]

/-- Two weighted values. -/
theorem two {p q r x y : F64} {W : ℚ} (hp : 0 ≤ p.val) (hq : 0 ≤ q.val) (hr : 0 ≤ r.val)
    (hs : p.val + q.val + r.val ≤ 1 + 4 * u) (hx : |x.val| ≤ W) (hy : |y.val| ≤ W) (h1 : 1 ≤ W) (h2 : W ≤ 2 ^ 150) :
    ∃ e, ((fin p).mul (fin x)).add ((fin q).mul (fin y)) = fin e ∧
      |e.val - (p.val * x.val + q.val * y.val + r.val * 0)| ≤ 5 * u * W := by
  obtain ⟨e, e1, e2⟩ := three (z := F64.zero) hp hq hr hs hx hy (by show |(0:ℚ)| ≤ W; rw [abs_zero]; linarith) h1 h2
  rw [mul_zero_fin] at e1
  have : ∃ s, ((fin p).mul (fin x)).add ((fin q).mul (fin y)) = fin s := by
    cases h : ((fin p).mul (fin x)).add ((fin q).mul (fin y)) with
    | fin s => exact ⟨s, rfl⟩
    | inf s => rw [h] at e1; cases e1
    | nan => rw [h] at e1; cases e1
  obtain ⟨s, s1⟩ := this
  rw [s1, add_zero_fin] at e1
  obtain rfl := X64.fin.inj e1
  exact ⟨_, s1, e2⟩

namespace Pricer

/-- What the weights of the explicit scheme satisfy. -/
structure Weights (m : Libm) (o : Pricer) (a b d : F64) : Prop where
  lo : (o.cx m).sub (o.cy m) = fin a
  mid : (c 1).sub ((c 2).mul (o.cx m)) = fin b
  hi : (o.cx m).add (o.cy m) = fin d
  lo_nonneg : 0 ≤ a.val
  mid_nonneg : 0 ≤ b.val
  hi_nonneg : 0 ≤ d.val
  sum : a.val + b.val + d.val ≤ 1 + 4 * u

theorem weights {m : Libm} {o : Pricer} {X Y : F64} (hx : o.cx m = fin X) (hy : o.cy m = fin Y) (h1 : 2 ^ (-10 : ℤ) ≤ X.val)
    (h2 : X.val ≤ 499 / 1000) (h3 : 2 * |Y.val| ≤ X.val) : ∃ a b d, Weights m o a b d := by
  have hu : u = 1 / 9007199254740992 := by norm_num [u]
  have hX : 0 < X.val := lt_of_lt_of_le (by positivity) h1
  obtain ⟨y1, y2⟩ := abs_le.1 (show |Y.val| ≤ X.val / 2 by linarith)
  obtain ⟨one, o1, o2⟩ := c_one
  obtain ⟨tw, t1, t2⟩ := c_two
  obtain ⟨e, e1, e2⟩ := fin_of_le (q := tw.val * X.val) (b := 1) (by
    rw [t2, abs_of_nonneg (by positivity)]; linarith) (by norm_num)
  have e3 := rnd_rel (q := tw.val * X.val) (by
    rw [t2, abs_of_nonneg (by positivity)]
    have : (2:ℚ) ^ (-200 : ℤ) ≤ 2 ^ (-10 : ℤ) := zpow_le_zpow_right₀ (by norm_num) (by norm_num)
    linarith)
  rw [← e2, t2, abs_of_nonneg (show 0 ≤ 2 * X.val by linarith), abs_le] at e3
  norm_num at e3
  have hb0 : 0 ≤ one.val - e.val := by rw [o2]; linarith [e3.2]
  obtain ⟨b, b1, b2⟩ := fin_of_le (q := one.val - e.val) (b := 2) (by
    rw [abs_of_nonneg hb0, o2]; linarith [e3.1]) (by norm_num)
  have b3 := rnd_sub one.rep e.rep
  rw [← b2, abs_of_nonneg hb0, o2, hu, abs_le] at b3
  obtain ⟨a, a1, a2⟩ := fin_of_le (q := X.val - Y.val) (b := 2) (by rw [abs_le]; constructor <;> linarith) (by norm_num)
  obtain ⟨d, d1, d2⟩ := fin_of_le (q := X.val + Y.val) (b := 2) (by rw [abs_le]; constructor <;> linarith) (by norm_num)
  have a3 := rnd_sub X.rep Y.rep
  have d3 := rnd_add X.rep Y.rep
  rw [← a2, abs_of_pos (show 0 < X.val - Y.val by linarith), hu, abs_le] at a3
  rw [← d2, abs_of_pos (show 0 < X.val + Y.val by linarith), hu, abs_le] at d3
  refine ⟨a, b, d, ?_, ?_, ?_, ?_, ?_, ?_, ?_⟩
  · rw [hx, hy, sub_fin, a1]
  · rw [hx, t1, o1]
    show (fin one).sub (ofQ (tw.val * X.val)) = _
    rw [e1, sub_fin, b1]
  · rw [hx, hy]; exact d1
  · linarith [a3.2]
  · linarith [b3.2]
  · linarith [d3.2]
  · rw [hu]; linarith [a3.1, b3.1, d3.1, e3.1]

variable {m : Libm} {o : Pricer}

/-- One row of the explicit step, before early exercise. -/
theorem row {a b d : F64} (hw : Weights m o a b d) {W : ℚ} (h1 : 1 ≤ W) (h2 : W ≤ 2 ^ 150) {n : ℕ} (hn : o.priceSteps = n + 3)
    {v : List X64} (hv : v.length = n + 2) (f : ℕ → F64) (hf : ∀ i < n + 2, v.getD i nan = fin (f i) ∧ |(f i).val| ≤ W)
    {t : ℕ} {lo hi : F64} (hlo : o.below m t = fin lo) (hlo' : |lo.val| ≤ W) (hhi : o.above m t = fin hi) (hhi' : |hi.val| ≤ W) :
    ∃ w, (tridiagMul (fin a) (fin b) (fin d) v).bind (o.boundary m (fin a) (fin d) t) = some w ∧ w.length = n + 2 ∧
      ∀ i < n + 2, ∃ e, w.getD i nan = fin e ∧ |e.val - (a.val * (if i = 0 then lo.val else (f (i - 1)).val) + b.val * (f i).val +
        d.val * (if i = n + 1 then hi.val else (f (i + 1)).val))| ≤ 5 * u * W := by
  obtain ⟨_, _, _, ha, hb, hd, hs⟩ := hw
  obtain ⟨w, w1, w2, w3⟩ := tridiagMul_getD (a := fin a) (b := fin b) (d := fin d) (v := v) (by omega)
  rw [w1, Option.bind_some]
  rw [hv] at w2 w3
  simp only [show n + 2 - 1 = n + 1 by omega, show n + 2 - 2 = n by omega] at w3
  have v0 := hf 0 (by omega)
  have v1 := hf 1 (by omega)
  have vn := hf n (by omega)
  have vn1 := hf (n + 1) (by omega)
  have w0 := w3 0 (by omega)
  have wn := w3 (n + 1) (by omega)
  simp only [if_true, show n + 1 ≠ 0 by omega, if_false, v0.1, v1.1, vn.1, vn1.1] at w0 wn
  -- the rows in the middle
  have middle : ∀ i, i ≠ 0 → i ≠ n + 1 → i < n + 2 → ∃ e, w.getD i nan = fin e ∧
      |e.val - (a.val * (f (i - 1)).val + b.val * (f i).val + d.val * (f (i + 1)).val)| ≤ 5 * u * W := by
    intro i i0 i1 i2
    have := w3 i i2
    rw [if_neg i0, if_neg i1, (hf (i - 1) (by omega)).1, (hf i i2).1, (hf (i + 1) (by omega)).1] at this
    rw [this]
    exact three ha hb hd hs (hf (i - 1) (by omega)).2 (hf i i2).2 (hf (i + 1) (by omega)).2 h1 h2
  unfold boundary
  cases hT : o.typeFlag with
  | call =>
    simp only
    simp only [below, above, hT] at hlo hhi
    cases hlo
    rw [if_neg (by omega), hhi]
    simp only [addAt]
    rw [if_pos (by omega)]
    refine ⟨_, rfl, by simpa using w2, fun i hi' => ?_⟩
    rw [show o.priceSteps - 2 = n + 1 by omega]
    by_cases i1 : i = n + 1
    · subst i1
      rw [if_neg (by omega), if_pos rfl, List.getD_eq_getElem _ _ (by simp; omega), List.getElem_set_self, wn]
      exact three ha hb hd hs vn.2 vn1.2 hhi' h1 h2
    · have : (w.set (n + 1) ((w.getD (n + 1) nan).add ((fin d).mul (fin hi)))).getD i nan = w.getD i nan := by
        exact getD_set_ne _ (by omega) (by omega)
      rw [this, if_neg i1]
      by_cases i0 : i = 0
      · subst i0
        rw [if_pos rfl, w0]
        obtain ⟨e, e1, e2⟩ := two hb hd ha (by linarith) v0.2 v1.2 h1 h2
        refine ⟨e, e1, ?_⟩
        have z : (F64.zero).val = 0 := rfl
        rw [z]
        refine le_trans (le_of_eq ?_) e2
        congr 1
        ring
      · rw [if_neg i0]
        exact middle i i0 i1 hi'
  | put =>
    simp only
    simp only [below, above, hT] at hlo hhi
    cases hhi
    rw [hlo]
    simp only [addAt]
    rw [if_pos (by omega)]
    refine ⟨_, rfl, by simpa using w2, fun i hi' => ?_⟩
    by_cases i0 : i = 0
    · subst i0
      rw [if_pos rfl, if_neg (by omega), List.getD_eq_getElem _ _ (by simp; omega), List.getElem_set_self, w0]
      obtain ⟨e, e1, e2⟩ := three hb hd ha (by linarith) v0.2 v1.2 hlo' h1 h2
      refine ⟨e, e1, ?_⟩
      refine le_trans (le_of_eq ?_) e2
      congr 1
      ring
    · have : (w.set 0 ((w.getD 0 nan).add ((fin a).mul (fin lo)))).getD i nan = w.getD i nan := by
        exact getD_set_ne _ (by omega) (by omega)
      rw [this, if_neg i0]
      by_cases i1 : i = n + 1
      · subst i1
        rw [if_pos rfl, wn]
        exact two ha hb hd hs vn.2 vn1.2 h1 h2
      · rw [if_neg i1]
        exact middle i i0 i1 hi'

/-- One step of `explicit`, early exercise included. -/
theorem step_row {a b d : F64} (hw : Weights m o a b d) {B W : ℚ} (hB : o.Bounded m B) (hBW : B ≤ W) (h2 : W ≤ 2 ^ 150) {n : ℕ}
    (hn : o.priceSteps = n + 3) {v : List X64} (hv : v.length = n + 2) (f : ℕ → F64)
    (hf : ∀ i < n + 2, v.getD i nan = fin (f i) ∧ |(f i).val| ≤ W) {t : ℕ} (ht : t + 1 ≤ o.timeSteps) {E : ℚ}
    (hE : ∀ i < n + 2, |(f i).val - o.exactScheme m t i| ≤ E) :
    ∃ w, o.explicitStep m (t + 1) v = some w ∧ w.length = n + 2 ∧
      ∃ g : ℕ → F64, ∀ i < n + 2, w.getD i nan = fin (g i) ∧ |(g i).val| ≤ (1 + 9 * u) * W ∧
        |(g i).val - o.exactScheme m (t + 1) i| ≤ (1 + 4 * u) * E + 5 * u * W := by
  have hu := u_pos
  have h1 : 1 ≤ W := hB.ge_one.trans hBW
  have hE0 : 0 ≤ E := (abs_nonneg _).trans (hE 0 (by omega))
  obtain ⟨lo, lo1, lo2⟩ := hB.below (t + 1) (by omega) ht
  obtain ⟨hi, hi1, hi2⟩ := hB.above (t + 1) (by omega) ht
  obtain ⟨w, w1, w2, w3⟩ := row hw h1 h2 hn hv f hf lo1 (lo2.trans hBW) hi1 (hi2.trans hBW)
  haveI : Nonempty F64 := ⟨F64.zero⟩
  choose! e e1 e2 using w3
  -- the exact sum, its size and its distance
  have hs := hw.sum
  have ha := hw.lo_nonneg
  have hb := hw.mid_nonneg
  have hd := hw.hi_nonneg
  have conv : ∀ x y z K : ℚ, 0 ≤ K → |x| ≤ K → |y| ≤ K → |z| ≤ K → |a.val * x + b.val * y + d.val * z| ≤ (1 + 4 * u) * K := by
    intro x y z K hK hx hy hz
    have h3 := mul_le_mul_of_nonneg_right hs hK
    have q1 := abs_le.1 hx
    have q2 := abs_le.1 hy
    have q3 := abs_le.1 hz
    have := mul_le_mul_of_nonneg_left q1.1 ha
    have := mul_le_mul_of_nonneg_left q1.2 ha
    have := mul_le_mul_of_nonneg_left q2.1 hb
    have := mul_le_mul_of_nonneg_left q2.2 hb
    have := mul_le_mul_of_nonneg_left q3.1 hd
    have := mul_le_mul_of_nonneg_left q3.2 hd
    rw [abs_le]
    constructor <;> linarith
  have size : ∀ i < n + 2, |(e i).val| ≤ (1 + 9 * u) * W := by
    intro i hi'
    have g1 := e2 i hi'
    have g2 := conv (if i = 0 then lo.val else (f (i - 1)).val) (f i).val (if i = n + 1 then hi.val else (f (i + 1)).val) W (by linarith)
      (by split_ifs; exacts [lo2.trans hBW, (hf _ (by omega)).2]) (hf i hi').2
      (by split_ifs; exacts [hi2.trans hBW, (hf _ (by omega)).2])
    have g3 := abs_sub_abs_le_abs_sub (e i).val (a.val * (if i = 0 then lo.val else (f (i - 1)).val) + b.val * (f i).val +
        d.val * (if i = n + 1 then hi.val else (f (i + 1)).val))
    linarith
  set S : ℕ → ℚ := fun i => a.val * (if i = 0 then lo.val else o.exactScheme m t (i - 1)) + b.val * o.exactScheme m t i +
    d.val * (if i = n + 1 then hi.val else o.exactScheme m t (i + 1)) with hS
  have dist : ∀ i < n + 2, |(e i).val - S i| ≤ (1 + 4 * u) * E + 5 * u * W := by
    intro i hi'
    have g1 := e2 i hi'
    have g2 := conv ((if i = 0 then lo.val else (f (i - 1)).val) - (if i = 0 then lo.val else o.exactScheme m t (i - 1)))
      ((f i).val - o.exactScheme m t i)
      ((if i = n + 1 then hi.val else (f (i + 1)).val) - (if i = n + 1 then hi.val else o.exactScheme m t (i + 1))) E hE0
      (by split_ifs; exacts [by rw [sub_self, abs_zero]; exact hE0, hE _ (by omega)]) (hE i hi')
      (by split_ifs; exacts [by rw [sub_self, abs_zero]; exact hE0, hE _ (by omega)])
    have g3 := abs_add_le _ _ |>.trans (_root_.add_le_add g1 g2)
    refine le_trans (le_of_eq ?_) (g3.trans_eq (by ring))
    congr 1
    simp only [hS]
    ring
  have exact_eq : ∀ i < n + 2, o.exactScheme m (t + 1) i =
      if o.exerciseFlag = .american dateMin dateMax then
        max (S i) (num (o.exerciseValue m ((X64.ofNat (t + 1)).mul o.dt) (o.xMin m) (o.dx m) (i + 1))) else S i := by
    intro i _
    rw [exactScheme]
    simp only [hw.lo, hw.mid, hw.hi, lo1, hi1, num, show o.priceSteps - 2 = n + 1 by omega, hS]
  have hstep : o.explicitStep m (t + 1) v = some (o.exercise m (t + 1) w) := by
    unfold explicitStep
    simp only [hw.lo, hw.mid, hw.hi]
    obtain ⟨w', w4, w5⟩ := Option.bind_eq_some_iff.1 w1
    rw [w4]
    simp only [Option.bind_eq_bind, Option.bind_some, w5, Option.pure_def]
  refine ⟨_, hstep, ?_⟩
  by_cases hA : o.exerciseFlag = .american dateMin dateMax
  · unfold exercise americanStep
    rw [if_pos hA]
    have hx := hB.exercise hA (t + 1)
    choose! x x1 x2 using hx
    have mx := fun i => max_fin (e i) (x i)
    choose g g1 g2 using mx
    refine ⟨by simp; omega, g, fun i hi' => ⟨?_, ?_, ?_⟩⟩
    · rw [List.getD_eq_getElem _ _ (by simp; omega), List.getElem_map, List.getElem_range', show 1 + 1 * i - 1 = i by omega, e1 i hi',
        show 1 + 1 * i = i + 1 by omega, x1 i (by omega) ht (by omega), g1]
    · rw [g2]
      refine abs_max_le_max_abs_abs.trans (max_le (size i hi') ((x2 i (by omega) ht (by omega)).trans (hBW.trans ?_)))
      nlinarith
    · rw [exact_eq i hi', if_pos hA, x1 i (by omega) ht (by omega), g2]
      refine (abs_max_sub_max_le_abs _ _ _).trans ?_
      exact dist i hi'
  · unfold exercise
    rw [if_neg hA]
    refine ⟨w2, e, fun i hi' => ⟨e1 i hi', size i hi', ?_⟩⟩
    rw [exact_eq i hi', if_neg hA]
    exact dist i hi'

theorem growth {t : ℕ} (ht : t ≤ 2 ^ 46) : (1 + u) ^ (9 * t) ≤ 2 := by
  refine (pow_bound (9 * t) (by omega)).trans ?_
  have : ((9 * t : ℕ) : ℚ) ≤ 9 * 2 ^ 46 := by exact_mod_cast Nat.mul_le_mul_left 9 ht
  norm_num at this ⊢
  linarith

/-- All values of the grid, after every number of steps. -/
theorem loop_rows {a b d : F64} (hw : Weights m o a b d) {B : ℚ} (hB : o.Bounded m B) {n : ℕ} (hn : o.priceSteps = n + 3)
    (hM : o.timeSteps ≤ 2 ^ 46) (t : ℕ) (ht : t ≤ o.timeSteps) :
    ∃ v, loop (o.explicitStep m) t (o.initialCondition m (o.xMin m) (o.dx m)) = some v ∧ v.length = n + 2 ∧
      ∃ f : ℕ → F64, ∀ i < n + 2, v.getD i nan = fin (f i) ∧ |(f i).val| ≤ (1 + u) ^ (9 * t) * B ∧
        |(f i).val - o.exactScheme m t i| ≤ 5 * u * t * ((1 + u) ^ (9 * t) * B) := by
  have hu := u_pos
  haveI : Nonempty F64 := ⟨F64.zero⟩
  induction t with
  | zero =>
    have hp := hB.payoff
    choose! f f1 f2 using hp
    refine ⟨_, rfl, by rw [initialCondition_length]; omega, f, fun i hi => ⟨?_, ?_, ?_⟩⟩
    · unfold initialCondition
      rw [List.getD_eq_getElem _ _ (by simp; omega), List.getElem_map, List.getElem_range', show 1 + 1 * i = i + 1 by omega,
        f1 i (by omega)]
    · rw [mul_zero, pow_zero, one_mul]
      exact f2 i (by omega)
    · rw [exactScheme, f1 i (by omega)]
      simp [num]
  | succ t ih =>
    obtain ⟨v, v1, v2, f, hf⟩ := ih (by omega)
    have hg := growth (t := t) (by omega)
    have hg1 : 1 ≤ (1 + u) ^ (9 * t) := one_le_pow₀ (by linarith)
    have hB0 : 0 ≤ B := by linarith [hB.ge_one]
    set W := (1 + u) ^ (9 * t) * B with hWdef
    have hW0 : 0 ≤ W := by positivity
    have hBW : B ≤ W := by nlinarith
    have hW2 : W ≤ 2 ^ 150 := by
      have h1 : W ≤ 2 * B := by nlinarith
      have h2 := hB.le_pow
      norm_num at h2 ⊢
      linarith
    have hnext : (1 + 9 * u) * W ≤ (1 + u) ^ (9 * (t + 1)) * B := by
      rw [mul_add, pow_add, mul_comm ((1 + u) ^ (9 * t)), mul_assoc]
      refine mul_le_mul_of_nonneg_right ?_ hW0
      have := one_add_mul_le_pow (a := u) (by linarith) 9
      rw [mul_one]
      exact_mod_cast this
    obtain ⟨w, w1, w2, g, hg⟩ := step_row hw hB hBW hW2 hn v2 f (fun i hi => ⟨(hf i hi).1, (hf i hi).2.1⟩) (t := t) ht
      (fun i hi => (hf i hi).2.2)
    refine ⟨w, by rw [loop, v1]; exact w1, w2, g, fun i hi => ⟨(hg i hi).1, (hg i hi).2.1.trans hnext, (hg i hi).2.2.trans ?_⟩⟩
    have ht0 : (0:ℚ) ≤ t := by positivity
    have e1 : (1 + 4 * u) * (5 * u * t * W) + 5 * u * W ≤ 5 * u * (t + 1) * ((1 + 9 * u) * W) := by
      have hu2 : 0 ≤ u * u * W := by positivity
      have hu3 : 0 ≤ u * u * W * t := by positivity
      nlinarith
    push_cast
    refine e1.trans ?_
    exact mul_le_mul_of_nonneg_left hnext (by positivity)

/-- The price of the explicit method. -/
theorem explicit_error {a b d : F64} (hw : Weights m o a b d) {B : ℚ} (hB : o.Bounded m B) {n : ℕ} (hn : o.priceSteps = n + 3)
    (hM : o.timeSteps ≤ 2 ^ 46) {D : F64} (hD : m.exp (o.riskFreeRate.neg.mul o.T) = fin D) (hD' : |D.val| ≤ 2 ^ 50) :
    ∃ p, o.explicit m = some (fin p) ∧
      |p.val - D.val * o.exactMiddle m| ≤ |D.val| * ((o.timeSteps + 1) * 2 ^ (-49 : ℤ) * B) + 2 ^ (-1074 : ℤ) := by
  have hu : u = 1 / 9007199254740992 := by norm_num [u]
  have hB1 := hB.ge_one
  have hB2 := hB.le_pow
  obtain ⟨v, v1, v2, f, hf⟩ := loop_rows hw hB hn hM o.timeSteps le_rfl
  have hg := growth hM
  have hW : (1 + u) ^ (9 * o.timeSteps) * B ≤ 2 * B := mul_le_mul_of_nonneg_right hg (by linarith)
  have hM0 : (0:ℚ) ≤ o.timeSteps := by positivity
  have hE : 5 * u * o.timeSteps * ((1 + u) ^ (9 * o.timeSteps) * B) ≤ 10 * u * (o.timeSteps * B) := by
    have := mul_le_mul_of_nonneg_left hW (show 0 ≤ 5 * u * o.timeSteps by rw [hu]; positivity)
    linarith
  have fin' : ∀ i < n + 2, |(f i).val| ≤ 2 * B := fun i hi => (hf i hi).2.1.trans hW
  have err : ∀ i < n + 2, |(f i).val - o.exactScheme m o.timeSteps i| ≤ 10 * u * (o.timeSteps * B) :=
    fun i hi => (hf i hi).2.2.trans hE
  have hmu : (2:ℚ) ^ (-1075 : ℤ) ≤ u / 1000 :=
    (zpow_le_zpow_right₀ (by norm_num) (by norm_num : (-1075 : ℤ) ≤ -100)).trans (by norm_num [u])
  have hmu0 : (0:ℚ) ≤ 2 ^ (-1075 : ℤ) := by positivity
  -- the middle of the grid
  have mid : ∃ r, o.returnPrice v = some (fin r) ∧ |r.val| ≤ 5 * B ∧
      |r.val - o.exactMiddle m| ≤ 10 * u * (o.timeSteps * B) + 5 * u * B := by
    have get : ∀ i < n + 2, v[i]? = some (fin (f i)) := fun i hi => by
      have := (hf i hi).1
      rw [List.getD_eq_getElem _ _ (by omega)] at this
      rw [List.getElem?_eq_getElem (by omega), this]
    unfold returnPrice exactMiddle
    by_cases he : o.priceSteps % 2 = 0
    · rw [if_pos he, if_pos he, if_neg (by omega), get _ (by omega), show (o.priceSteps - 1) / 2 = o.priceSteps / 2 - 1 by omega]
      refine ⟨_, rfl, (fin' _ (by omega)).trans (by linarith), (err _ (by omega)).trans ?_⟩
      rw [hu]
      linarith
    · rw [if_neg he, if_neg he, if_neg (by omega), get _ (by omega), get _ (by omega)]
      have i1 := fin' ((o.priceSteps - 1) / 2) (by omega)
      have i2 := fin' ((o.priceSteps - 3) / 2) (by omega)
      have j1 := err ((o.priceSteps - 1) / 2) (by omega)
      have j2 := err ((o.priceSteps - 3) / 2) (by omega)
      generalize f ((o.priceSteps - 1) / 2) = x at *
      generalize f ((o.priceSteps - 3) / 2) = y at *
      generalize o.exactScheme m o.timeSteps ((o.priceSteps - 1) / 2) = X at *
      generalize o.exactScheme m o.timeSteps ((o.priceSteps - 3) / 2) = Y at *
      have hxy := abs_add_le x.val y.val
      obtain ⟨s, s1, s2⟩ := add_fin (p := x) (x := y) (b := 4 * B) (by linarith) (by norm_num at hB2 ⊢; linarith)
      obtain ⟨tw, t1, t2⟩ := c_two
      have hs : |s.val| ≤ 5 * B := by
        have := abs_add_le (s.val - (x.val + y.val)) (x.val + y.val)
        rw [sub_add_cancel] at this
        rw [hu] at s2
        linarith
      obtain ⟨r, r1, r2⟩ := fin_of_le (q := s.val / tw.val) (b := 5 * B) (by
        rw [t2, abs_div, abs_of_pos (by norm_num : (0:ℚ) < 2)]
        linarith) (by norm_num at hB2 ⊢; linarith)
      have r3 := rnd_error' (s.val / tw.val)
      rw [← r2, t2, abs_div, abs_of_pos (by norm_num : (0:ℚ) < 2)] at r3
      refine ⟨r, ?_, ?_, ?_⟩
      · simp only [Option.bind_eq_bind, Option.bind_some, Option.pure_def, s1, t1]
        show some (if tw.val = 0 then _ else ofQ (s.val / tw.val)) = _
        rw [if_neg (by rw [t2]; norm_num), r1]
      · have := abs_add_le (r.val - s.val / 2) (s.val / 2)
        rw [sub_add_cancel, abs_div, abs_of_pos (by norm_num : (0:ℚ) < 2), abs_sub_comm] at this
        rw [hu] at r3 hmu
        linarith
      · rw [hu] at s2 r3 j1 j2 hmu ⊢
        have s3 := abs_le.1 (s2.trans (show _ ≤ 1 / 9007199254740992 * (4 * B) by linarith))
        have r4 := abs_le.1 (r3.trans (show _ ≤ 1 / 9007199254740992 * (5 / 2 * B) + 1 / 9007199254740992 / 1000 by linarith))
        rw [abs_le] at j1 j2 ⊢
        constructor <;> linarith [s3.1, s3.2, r4.1, r4.2, j1.1, j1.2, j2.1, j2.2]
  obtain ⟨r, r1, r2, r3⟩ := mid
  have hDr : |D.val * r.val| ≤ 2 ^ 50 * (5 * B) := by
    rw [abs_mul]
    exact mul_le_mul hD' r2 (abs_nonneg _) (by positivity)
  obtain ⟨p, p1, p2⟩ := mul_fin hDr (by norm_num at hB2 ⊢; linarith)
  refine ⟨p, ?_, ?_⟩
  · unfold explicit run
    rw [v1]
    simp only [Option.bind_eq_bind, Option.bind_some, r1, Option.pure_def, hD, p1]
  · have e1 : |D.val * r.val - D.val * o.exactMiddle m| ≤ |D.val| * (10 * u * (o.timeSteps * B) + 5 * u * B) := by
      rw [← mul_sub, abs_mul]
      exact mul_le_mul_of_nonneg_left r3 (abs_nonneg _)
    have e2 : u * |D.val * r.val| ≤ |D.val| * (5 * u * B) := by
      rw [abs_mul]
      have := mul_le_mul_of_nonneg_left r2 (mul_nonneg u_pos.le (abs_nonneg D.val))
      linarith
    have e3 := abs_add_le (p.val - D.val * r.val) (D.val * r.val - D.val * o.exactMiddle m)
    rw [sub_add_sub_cancel] at e3
    have e4 : (2:ℚ) ^ (-1075 : ℤ) ≤ 2 ^ (-1074 : ℤ) := zpow_le_zpow_right₀ (by norm_num) (by norm_num)
    have e5 : |D.val| * (10 * u * (o.timeSteps * B) + 5 * u * B) + |D.val| * (5 * u * B) ≤
        |D.val| * ((o.timeSteps + 1) * 2 ^ (-49 : ℤ) * B) := by
      rw [← mul_add]
      refine mul_le_mul_of_nonneg_left ?_ (abs_nonneg _)
      rw [hu]
      norm_num
      have : 0 ≤ (o.timeSteps : ℚ) * B := mul_nonneg hM0 (by linarith)
      linarith
    generalize (2:ℚ) ^ (-1075 : ℤ) = μ at *
    generalize (2:ℚ) ^ (-1074 : ℤ) = ν at *
    linarith

end Pricer

end Verif.Float.Fd
