import Verif.Float.FiniteDifference
import Verif.Float.SumProps
import Mathlib.Data.List.GetD

/-! Helper lemmas: arithmetic with infinities, and the growth of the determinants in `invert_tridiagonal_matrix`. -/

namespace Verif.Float.X64

theorem ofQ_fin {q : ℚ} (h : |rnd q| < 2 ^ 1024) : ∃ a, ofQ q = fin a ∧ a.val = rnd q := by
  obtain ⟨r, h1, h2⟩ := toF64_isSome h
  exact ⟨r, by unfold ofQ; rw [h1], h2⟩

theorem ofQ_inf {q : ℚ} (h : ¬ |rnd q| < 2 ^ 1024) : ofQ q = inf (decide (q < 0)) := by
  unfold ofQ toF64
  rw [dif_neg h]

theorem ofQ_val (a : F64) : ofQ a.val = fin a := by
  unfold ofQ
  rw [toF64_val]

theorem ofQ_of_eq {q : ℚ} (a : F64) (h : q = a.val) : ofQ q = fin a := by rw [h, ofQ_val]

theorem nan_add (x : X64) : nan.add x = nan := by cases x <;> rfl

theorem add_nan (x : X64) : x.add nan = nan := by cases x <;> rfl

theorem nan_mul (x : X64) : nan.mul x = nan := by cases x <;> rfl

theorem mul_nan (x : X64) : x.mul nan = nan := by cases x <;> rfl

theorem div_nan (x : X64) : x.div nan = nan := by cases x <;> rfl

theorem nan_sub (x : X64) : nan.sub x = nan := nan_add _

theorem sub_nan (x : X64) : x.sub nan = nan := add_nan _

theorem nan_max (x : X64) : nan.max x = x := by cases x <;> rfl

theorem neg_fin (b : F64) : ∃ b', (fin b).neg = fin b' ∧ b'.val = -b.val := by
  obtain ⟨r, h1, h2⟩ := ofQ_fin (q := -b.val) (by rw [rnd_rep (rep_neg b.rep), abs_neg]; exact b.fin)
  exact ⟨r, h1, by rw [h2, rnd_rep (rep_neg b.rep)]⟩

theorem sub_fin (a b : F64) : (fin a).sub (fin b) = ofQ (a.val - b.val) := by
  obtain ⟨b', h1, h2⟩ := neg_fin b
  unfold sub
  rw [h1]
  show ofQ (a.val + b'.val) = _
  rw [h2, sub_eq_add_neg]

end Verif.Float.X64

namespace Verif.Float.Fd

open X64

/-- The determinants `theta`: the recursion with a finite diagonal `d` and product `p` of the other two. -/
def det (d p : F64) : ℕ → X64
  | 0 => c 1
  | 1 => fin d
  | k + 2 => ((fin d).mul (det d p (k + 1))).sub ((fin p).mul (det d p k))

theorem c_one : ∃ a, c 1 = fin a ∧ a.val = 1 := by
  have hr : Rep 1 := by
    have := rep_of_le 1 0 (by norm_num) (by norm_num)
    simpa using this
  obtain ⟨a, h1, h2⟩ := ofQ_fin (q := 1) (by rw [rnd_rep hr, abs_one]; exact one_lt_pow₀ (by norm_num) (by norm_num))
  exact ⟨a, h1, by rw [h2, rnd_rep hr]⟩

/-- What makes the determinants grow by the factor `q` in every step, roundings included. -/
structure Grows (d p : F64) (q : ℚ) : Prop where
  q_ge : 1 ≤ q
  p_pos : 0 < p.val
  q_le : q ≤ d.val
  p_le : p.val ≤ d.val * q
  step : q ≤ (1 - 2 ^ (-53 : ℤ)) * ((1 - 2 ^ (-53 : ℤ)) * d.val - (1 + 2 ^ (-53 : ℤ)) * (p.val / q) - 2 ^ (-1000 : ℤ))

theorem grow {d p : F64} {q : ℚ} (h : Grows d p q) {a b : F64} (ha : 1 ≤ a.val) (hb : q * a.val ≤ b.val) :
    (∃ r, ((fin d).mul (fin b)).sub ((fin p).mul (fin a)) = fin r ∧ q * b.val ≤ r.val) ∨
      ((fin d).mul (fin b)).sub ((fin p).mul (fin a)) = inf false ∨ ((fin d).mul (fin b)).sub ((fin p).mul (fin a)) = nan := by
  obtain ⟨hq, hp, hqd, hpd, hs⟩ := h
  have ha0 : 0 < a.val := by linarith
  have hab : a.val ≤ b.val := by nlinarith
  have hb1 : 1 ≤ b.val := ha.trans hab
  have hd1 : 1 ≤ d.val := hq.trans hqd
  have hdb : 0 ≤ d.val * b.val := by nlinarith
  have hpa : 0 ≤ p.val * a.val := by nlinarith
  have hle : p.val * a.val ≤ d.val * b.val := by
    have g1 := mul_le_mul_of_nonneg_right hpd ha0.le
    have g2 := mul_le_mul_of_nonneg_left hb (by linarith : 0 ≤ d.val)
    linarith
  have hmul : (fin d).mul (fin b) = ofQ (d.val * b.val) := rfl
  have hmul' : (fin p).mul (fin a) = ofQ (p.val * a.val) := rfl
  rw [hmul, hmul']
  by_cases h1 : |rnd (d.val * b.val)| < 2 ^ 1024
  · left
    have n1 := rnd_nonneg hdb
    have n2 := rnd_nonneg hpa
    have m := rnd_mono hle
    have h2 : |rnd (p.val * a.val)| < 2 ^ 1024 := by
      rw [abs_of_nonneg n2]
      rw [abs_of_nonneg n1] at h1
      linarith
    obtain ⟨A, A1, A2⟩ := ofQ_fin h1
    obtain ⟨B, B1, B2⟩ := ofQ_fin h2
    rw [A1, B1, sub_fin]
    have hAB : 0 ≤ A.val - B.val := by rw [A2, B2]; linarith
    have hAB2 : rnd (A.val - B.val) ≤ A.val := rnd_le A.rep (by rw [B2]; linarith)
    obtain ⟨r, r1, r2⟩ := ofQ_fin (q := A.val - B.val) (by
      rw [abs_of_nonneg (rnd_nonneg hAB)]
      exact hAB2.trans_lt ((le_abs_self _).trans_lt A.fin))
    refine ⟨r, r1, ?_⟩
    have e1 : |d.val * b.val - rnd (d.val * b.val)| ≤ 2 ^ (-53 : ℤ) * |d.val * b.val| + 2 ^ (-1075 : ℤ) := rnd_error' _
    have e2 : |p.val * a.val - rnd (p.val * a.val)| ≤ 2 ^ (-53 : ℤ) * |p.val * a.val| + 2 ^ (-1075 : ℤ) := rnd_error' _
    have e3 : |A.val - B.val - rnd (A.val - B.val)| ≤ 2 ^ (-53 : ℤ) * |A.val - B.val| := rnd_sub A.rep B.rep
    rw [abs_of_nonneg hdb] at e1
    rw [abs_of_nonneg hpa] at e2
    rw [abs_of_nonneg hAB] at e3
    rw [← A2] at e1
    rw [← B2] at e2
    rw [← r2] at e3
    have f1 := (abs_le.1 e1).2
    have f2 := (abs_le.1 e2).1
    have f3 := (abs_le.1 e3).2
    have hmu : 2 * (2:ℚ) ^ (-1075 : ℤ) ≤ 2 ^ (-1000 : ℤ) := by
      rw [show (-1000 : ℤ) = -1075 + 75 by norm_num, zpow_add₀ (by norm_num)]
      rw [mul_comm]
      exact mul_le_mul_of_nonneg_left (by norm_num) (by positivity)
    generalize (2:ℚ) ^ (-1075 : ℤ) = μ at *
    generalize hM : (2:ℚ) ^ (-1000 : ℤ) = M at *
    have hM0 : 0 ≤ M := by rw [← hM]; positivity
    have hu1 : (2:ℚ) ^ (-53 : ℤ) ≤ 1 := by norm_num
    have hu0 : (0:ℚ) ≤ 2 ^ (-53 : ℤ) := by positivity
    generalize (2:ℚ) ^ (-53 : ℤ) = u at *
    have hq0 : 0 < q := by linarith
    have g1 : p.val * a.val ≤ p.val / q * b.val := by
      rw [div_mul_eq_mul_div, le_div_iff₀ hq0]
      nlinarith
    have g2 : M ≤ M * b.val := by nlinarith
    have g3 : ((1 - u) * d.val - (1 + u) * (p.val / q) - M) * b.val ≤ A.val - B.val := by
      have := mul_le_mul_of_nonneg_left g1 (by linarith : 0 ≤ 1 + u)
      linarith
    have g4 : (1 - u) * (((1 - u) * d.val - (1 + u) * (p.val / q) - M) * b.val) ≤ (1 - u) * (A.val - B.val) :=
      mul_le_mul_of_nonneg_left g3 (by linarith)
    have g5 : q * b.val ≤ (1 - u) * ((1 - u) * d.val - (1 + u) * (p.val / q) - M) * b.val :=
      mul_le_mul_of_nonneg_right hs (by linarith)
    linarith
  · right
    rw [ofQ_inf h1, show decide (d.val * b.val < 0) = false by simpa using hdb]
    by_cases h2 : |rnd (p.val * a.val)| < 2 ^ 1024
    · obtain ⟨B, B1, B2⟩ := ofQ_fin h2
      obtain ⟨B', B3, _⟩ := neg_fin B
      left
      rw [B1]
      unfold X64.sub
      rw [B3]
      rfl
    · right
      rw [ofQ_inf h2, show decide (p.val * a.val < 0) = false by simpa using hpa]
      rfl

/-- Not finite and not negative. -/
def Over (x : X64) : Prop := x = inf false ∨ x = nan

theorem mul_over {d : F64} (hd : 0 < d.val) {x : X64} (hx : Over x) : Over ((fin d).mul x) := by
  rcases hx with rfl | rfl
  · left
    show (if d.val = 0 then nan else inf (false != decide (d.val < 0))) = inf false
    rw [if_neg hd.ne', decide_eq_false (by linarith)]
    rfl
  · right; rfl

theorem over_sub {x y : X64} (hx : Over x) (hy : ∀ s, y = inf s → s = false) : Over (x.sub y) := by
  rcases hx with rfl | rfl
  · cases y with
    | fin b =>
      obtain ⟨b', h, _⟩ := neg_fin b
      left
      unfold X64.sub
      rw [h]
      rfl
    | inf s => rw [hy s rfl]; right; rfl
    | nan => right; rfl
  · right; exact nan_sub _

theorem over_sub_over {x y : X64} (hx : Over x) (hy : Over y) : x.sub y = nan := by
  rcases hx with rfl | rfl
  · rcases hy with rfl | rfl <;> rfl
  · exact nan_sub _

/-- The determinants are NaN from some point on. -/
theorem det_nan {d p : F64} {q : ℚ} (h : Grows d p q) (k : ℕ) (hk : 2 ^ 1024 ≤ q ^ k) (n : ℕ) (hn : k + 3 ≤ n) :
    det d p n = nan := by
  have hd : 0 < d.val := by linarith [h.q_ge, h.q_le]
  have prog : ∀ j, (∃ a b, det d p j = fin a ∧ det d p (j + 1) = fin b ∧ 1 ≤ a.val ∧ q ^ j ≤ a.val ∧ q * a.val ≤ b.val) ∨
      ∃ i ≤ j, ∃ a, det d p i = fin a ∧ 1 ≤ a.val ∧ Over (det d p (i + 1)) := by
    intro j
    induction j with
    | zero =>
      obtain ⟨a, a1, a2⟩ := c_one
      left
      exact ⟨a, d, a1, rfl, a2.ge, by rw [pow_zero, a2], by rw [a2, mul_one]; exact h.q_le⟩
    | succ j ih =>
      rcases ih with ⟨a, b, h1, h2, h3, h4, h5⟩ | ⟨i, hi, a, h1, h2, h3⟩
      · have hb : 1 ≤ b.val := by nlinarith [h.q_ge]
        have e : det d p (j + 1 + 1) = ((fin d).mul (fin b)).sub ((fin p).mul (fin a)) := by
          rw [← h1, ← h2]; rfl
        have hpow : q ^ (j + 1) ≤ b.val := by
          rw [pow_succ, mul_comm]
          exact (mul_le_mul_of_nonneg_left h4 (by linarith [h.q_ge])).trans h5
        rcases grow h h3 h5 with ⟨r, r1, r2⟩ | g | g
        · left
          exact ⟨b, r, h2, e.trans r1, hb, hpow, r2⟩
        · right
          exact ⟨j + 1, le_rfl, b, h2, hb, .inl (e.trans g)⟩
        · right
          exact ⟨j + 1, le_rfl, b, h2, hb, .inr (e.trans g)⟩
      · right
        exact ⟨i, by omega, a, h1, h2, h3⟩
  rcases prog k with ⟨a, b, h1, h2, h3, h4, h5⟩ | ⟨i, hi, a, h1, h2, h3⟩
  · have := (le_abs_self _).trans_lt a.fin
    linarith
  · have s1 : Over (det d p (i + 2)) := by
      show Over (((fin d).mul (det d p (i + 1))).sub ((fin p).mul (det d p i)))
      refine over_sub (mul_over hd h3) fun s hs => ?_
      rw [h1] at hs
      have hs : ofQ (p.val * a.val) = inf s := hs
      by_cases hf : |rnd (p.val * a.val)| < 2 ^ 1024
      · obtain ⟨B, B1, _⟩ := ofQ_fin hf
        rw [B1] at hs
        cases hs
      · rw [ofQ_inf hf] at hs
        cases hs
        have := h.p_pos
        simp only [decide_eq_false_iff_not, not_lt]
        nlinarith
    have s2 : ∀ j, Over (det d p (i + 1 + j)) ∧ Over (det d p (i + 1 + j + 1)) ∧ det d p (i + 1 + j + 2) = nan := by
      intro j
      induction j with
      | zero => exact ⟨h3, s1, over_sub_over (mul_over hd s1) (mul_over h.p_pos h3)⟩
      | succ j ih =>
        obtain ⟨_, a2, a3⟩ := ih
        have e : det d p (i + 1 + (j + 1) + 1) = nan := a3
        refine ⟨a2, .inr e, ?_⟩
        exact over_sub_over (mul_over hd (.inr e)) (mul_over h.p_pos a2)
    obtain ⟨j, rfl⟩ : ∃ j, n = i + 1 + j + 2 := ⟨n - (i + 3), by omega⟩
    exact (s2 j).2.2

theorem thetaVec_eq {sub diag sup : X64} {d p : F64} (hd : diag = fin d) (hp : sup.mul sub = fin p) (n k : ℕ) (hn : n = k + 2) :
    thetaVec sub diag sup n = (List.range (n + 1)).map (det d p) := by
  have p1 : (fin p).mul (c 1) = fin p := by
    obtain ⟨a, a1, a2⟩ := c_one
    rw [a1]
    exact ofQ_of_eq p (by rw [a2, mul_one])
  subst hn
  induction k with
  | zero =>
    simp only [thetaVec, hp, hd, List.range_succ, List.range_zero]
    simp [det, p1]
  | succ k ih =>
    rw [thetaVec, show k + 1 + 2 - 2 = k + 1 by omega, List.range'_concat, List.foldl_append]
    rw [thetaVec, show k + 2 - 2 = k by omega] at ih
    rw [ih, List.range_succ (n := k + 1 + 2), List.map_append]
    simp only [List.foldl_cons, List.foldl_nil, List.map_cons, List.map_nil]
    congr 1
    rw [show 2 + 1 * k = k + 2 by omega]
    simp only [hp, hd]
    rw [List.getD_eq_getElem _ _ (by simp), List.getD_eq_getElem _ _ (by simp), List.getElem_map, List.getElem_map,
      List.getElem_range, List.getElem_range]
    rfl

theorem invEntry_nan (sub diag sup : X64) (n : ℕ) (theta phi : List X64) (i j : ℕ) :
    invEntry sub diag sup n theta phi nan i j = nan := by
  unfold invEntry
  split_ifs <;> rw [div_nan, mul_nan]

/-- Every entry of the inverse is NaN. -/
theorem inverse_nan {sub diag sup : X64} {d p : F64} {q : ℚ} (hd : diag = fin d) (hp : sup.mul sub = fin p) (h : Grows d p q)
    (n k : ℕ) (hk : 2 ^ 1024 ≤ q ^ k) (hn : k + 3 ≤ n) :
    invTridiag sub diag sup n = List.replicate n (List.replicate n nan) := by
  have last : (thetaVec sub diag sup n).getLastD nan = nan := by
    rw [thetaVec_eq hd hp n (n - 2) (by omega), List.range_succ, List.map_append]
    simp [det_nan h k hk n hn]
  unfold invTridiag
  simp only [last]
  simp only [invEntry_nan, List.map_const', List.length_range]

theorem fold_nan (l : List (X64 × X64)) (h : ∀ ab ∈ l, ab.1 = nan) (x : X64) (hx : x = nan ∨ l ≠ []) :
    l.foldl (fun value ab => value.add (ab.1.mul ab.2)) x = nan := by
  induction l generalizing x with
  | nil =>
    rcases hx with rfl | hx
    · rfl
    · exact absurd rfl hx
  | cons a l ih =>
    rw [List.foldl_cons]
    exact ih (fun ab hab => h ab (List.mem_cons_of_mem _ hab)) _ (.inl (by rw [h a List.mem_cons_self, nan_mul, add_nan]))

theorem matMul_nan (n : ℕ) (hn : 0 < n) (v : List X64) (hv : v.length = n) :
    matMul (List.replicate n (List.replicate n nan)) v = List.replicate n nan := by
  unfold matMul
  rw [List.map_replicate]
  congr 1
  apply fold_nan
  · intro ab hab
    have := List.of_mem_zip (a := ab.1) (b := ab.2) hab
    exact (List.mem_replicate.1 this.1).2
  · right
    intro e
    have := congrArg List.length e
    simp [hv] at this
    omega

/-- The coefficients of the implicit method with `x = h`, or of the Crank-Nicolson method with `x = 2 h`. -/
theorem grows_of {d p : F64} {h : ℚ} (h1 : 2 ^ (-11 : ℤ) ≤ h) (h2 : h ≤ 2 ^ 40) (hd : (1 - 2 ^ (-51 : ℤ)) * (1 + 2 * h) ≤ d.val)
    (hp0 : 0 < p.val) (hp : p.val ≤ (1 + 2 ^ (-50 : ℤ)) * h ^ 2) : Grows d p (1 + h) := by
  have hh : 0 < h := lt_of_lt_of_le (by positivity) h1
  have h11 : (2:ℚ) ^ (-11 : ℤ) = 1 / 2048 := by norm_num
  have hM : (2:ℚ) ^ (-1000 : ℤ) ≤ 2 ^ (-60 : ℤ) := zpow_le_zpow_right₀ (by norm_num) (by norm_num)
  have hM0 : (0:ℚ) ≤ 2 ^ (-1000 : ℤ) := by positivity
  have hq : 0 < 1 + h := by linarith
  have hd' : 1 + h ≤ d.val := by
    refine le_trans ?_ hd
    norm_num at h1 h2 ⊢
    linarith
  refine ⟨by linarith, hp0, hd', ?_, ?_⟩
  · have g1 : p.val ≤ 3 / 2 * h ^ 2 := hp.trans (mul_le_mul_of_nonneg_right (by norm_num) (by positivity))
    have g2 : 1 + 3 / 2 * h ≤ d.val := by
      refine le_trans ?_ hd
      norm_num at h1 h2 ⊢
      linarith
    have g3 := mul_le_mul_of_nonneg_right g2 hq.le
    nlinarith
  · have g1 : p.val / (1 + h) ≤ (1 + 2 ^ (-50 : ℤ)) * (h ^ 2 / (1 + h)) := by
      rw [← mul_div_assoc]
      exact div_le_div_of_nonneg_right hp hq.le
    have g2 : h ^ 2 / (1 + h) = h - h / (1 + h) := by field_simp; ring
    set s := h / (1 + h) with hs
    have hs0 : 0 ≤ s := by rw [hs]; positivity
    have hs1 : s ≤ h := by rw [hs, div_le_iff₀ hq]; nlinarith
    -- the slack beats the roundings
    have g4 : 2 ^ (-49 : ℤ) * (1 + 2 * h) ≤ s := by
      rw [hs, le_div_iff₀ hq]
      norm_num at h1 h2 ⊢
      nlinarith
    clear_value s
    rw [g2] at g1
    have hsh : 0 ≤ h - s := by linarith
    have g5 : (1 + 2 ^ (-53 : ℤ)) * (p.val / (1 + h)) ≤ (1 + 2 ^ (-53 : ℤ)) * ((1 + 2 ^ (-50 : ℤ)) * (h - s)) :=
      mul_le_mul_of_nonneg_left g1 (by positivity)
    have g6 : (1 - 2 ^ (-53 : ℤ)) * ((1 - 2 ^ (-51 : ℤ)) * (1 + 2 * h)) ≤ (1 - 2 ^ (-53 : ℤ)) * d.val :=
      mul_le_mul_of_nonneg_left hd (by norm_num)
    generalize (2:ℚ) ^ (-1000 : ℤ) = M at *
    have g7 : (1 - 2 ^ (-53 : ℤ)) * ((1 - 2 ^ (-51 : ℤ)) * (1 + 2 * h)) - (1 + 2 ^ (-53 : ℤ)) * ((1 + 2 ^ (-50 : ℤ)) * (h - s)) - M ≤
        (1 - 2 ^ (-53 : ℤ)) * d.val - (1 + 2 ^ (-53 : ℤ)) * (p.val / (1 + h)) - M :=
      sub_le_sub_right (sub_le_sub g6 g5) M
    refine le_trans ?_ (mul_le_mul_of_nonneg_left g7 (by norm_num))
    norm_num at g4 hM h1 ⊢
    nlinarith

end Verif.Float.Fd
