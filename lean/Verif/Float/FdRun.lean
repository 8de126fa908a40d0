import Verif.Float.FdLemmas

/-! Helper lemmas: the time loop once the inverse matrix is NaN, and the coefficients for which it is. -/

namespace Verif.Float.Fd

open X64
open Verif.Options (TypeFlag ExerciseFlag dateMin dateMax)

namespace Pricer

variable {m : Libm} {o : Pricer}

theorem addAt_length {v : List X64} {i : ℕ} {e : X64} (hi : i < v.length) : ∃ w, addAt v i e = some w ∧ w.length = v.length :=
  ⟨_, if_pos hi, by simp⟩

theorem boundary_length (lo hi : X64) (t : ℕ) {v : List X64} (hv : v.length = o.priceSteps - 1) (hN : 2 ≤ o.priceSteps) :
    ∃ w, o.boundary m lo hi t v = some w ∧ w.length = o.priceSteps - 1 := by
  unfold boundary
  split
  · rw [if_neg (by omega), ← hv]
    exact addAt_length (by omega)
  · rw [← hv]
    exact addAt_length (by omega)

theorem boundarySub_length (lo hi : X64) (t : ℕ) {v : List X64} (hv : v.length = o.priceSteps - 1) (hN : 2 ≤ o.priceSteps) :
    ∃ w, o.boundarySub m lo hi t v = some w ∧ w.length = o.priceSteps - 1 := by
  unfold boundarySub
  split
  · rw [if_neg (by omega), ← hv]
    exact addAt_length (by omega)
  · rw [← hv]
    exact addAt_length (by omega)

theorem tridiagMul_length (a b c : X64) {v : List X64} (hv : 2 ≤ v.length) : ∃ w, tridiagMul a b c v = some w ∧ w.length = v.length := by
  unfold tridiagMul
  rw [if_neg (by omega)]
  refine ⟨_, rfl, ?_⟩
  simp
  omega

theorem exercise_length (t : ℕ) : (o.exercise m t (List.replicate (o.priceSteps - 1) nan)).length = o.priceSteps - 1 := by
  unfold exercise americanStep
  split_ifs <;> simp

/-- When every step forgets its input, so does the loop. -/
theorem loop_const {step : ℕ → List X64 → Option (List X64)} {n : ℕ} {f : ℕ → List X64} (hf : ∀ t, (f t).length = n)
    (h : ∀ t v, v.length = n → step t v = some (f t)) (k : ℕ) {v : List X64} (hv : v.length = n) :
    loop step (k + 1) v = some (f (k + 1)) := by
  induction k with
  | zero => exact h 1 v hv
  | succ k ih =>
    rw [loop, ih]
    exact h _ _ (hf _)

theorem initialCondition_length (a b : X64) : (o.initialCondition m a b).length = o.priceSteps - 1 := by
  simp [initialCondition]

theorem returnPrice_nan (hN : 3 ≤ o.priceSteps) : o.returnPrice (List.replicate (o.priceSteps - 1) nan) = some nan := by
  unfold returnPrice
  have h1 : (List.replicate (o.priceSteps - 1) nan)[(o.priceSteps - 1) / 2]? = some nan := by
    rw [List.getElem?_replicate, if_pos (by omega)]
  have h2 : (List.replicate (o.priceSteps - 1) nan)[(o.priceSteps - 3) / 2]? = some nan := by
    rw [List.getElem?_replicate, if_pos (by omega)]
  split_ifs
  · omega
  · exact h1
  · omega
  · rw [h1, h2]
    rfl

theorem run_nan {step : ℕ → List X64 → Option (List X64)} (hN : 3 ≤ o.priceSteps) (hM : 1 ≤ o.timeSteps)
    (h : ∀ t v, v.length = o.priceSteps - 1 → step t v = some (o.exercise m t (List.replicate (o.priceSteps - 1) nan)))
    (hE : o.exerciseFlag ≠ .american dateMin dateMax) : o.run m step = some nan := by
  obtain ⟨k, hk⟩ : ∃ k, o.timeSteps = k + 1 := ⟨o.timeSteps - 1, by omega⟩
  have := loop_const (f := fun t => o.exercise m t (List.replicate (o.priceSteps - 1) nan)) (fun t => exercise_length t) h k
    (initialCondition_length (m := m) (o.xMin m) (o.dx m))
  unfold run
  rw [hk, this]
  simp only [exercise, if_neg hE, Option.bind_eq_bind, Option.bind_some, returnPrice_nan hN, mul_nan, Option.pure_def]

theorem exercise_american (t : ℕ) (hE : o.exerciseFlag = .american dateMin dateMax) :
    o.exercise m t (List.replicate (o.priceSteps - 1) nan) =
      (List.range' 1 (o.priceSteps - 1)).map (o.exerciseValue m ((X64.ofNat t).mul o.dt) (o.xMin m) (o.dx m)) := by
  unfold exercise americanStep
  rw [if_pos hE]
  apply List.map_congr_left
  intro i hi
  rw [List.mem_range'] at hi
  obtain ⟨j, hj, rfl⟩ := hi
  rw [List.getD_eq_getElem _ _ (by simp; omega), List.getElem_replicate, nan_max]

theorem run_american {step : ℕ → List X64 → Option (List X64)} (hN : 3 ≤ o.priceSteps) (he : o.priceSteps % 2 = 0)
    (hM : 1 ≤ o.timeSteps)
    (h : ∀ t v, v.length = o.priceSteps - 1 → step t v = some (o.exercise m t (List.replicate (o.priceSteps - 1) nan)))
    (hE : o.exerciseFlag = .american dateMin dateMax) :
    o.run m step = some ((m.exp (o.riskFreeRate.neg.mul o.T)).mul
      (o.exerciseValue m ((X64.ofNat o.timeSteps).mul o.dt) (o.xMin m) (o.dx m) (o.priceSteps / 2))) := by
  obtain ⟨k, hk⟩ : ∃ k, o.timeSteps = k + 1 := ⟨o.timeSteps - 1, by omega⟩
  have := loop_const (f := fun t => o.exercise m t (List.replicate (o.priceSteps - 1) nan)) (fun t => exercise_length t) h k
    (initialCondition_length (m := m) (o.xMin m) (o.dx m))
  unfold run
  rw [hk, this]
  have e : o.returnPrice (o.exercise m (k + 1) (List.replicate (o.priceSteps - 1) nan)) =
      some (o.exerciseValue m ((X64.ofNat (k + 1)).mul o.dt) (o.xMin m) (o.dx m) (o.priceSteps / 2)) := by
    rw [exercise_american _ hE]
    unfold returnPrice
    rw [if_pos he, if_neg (by omega), List.getElem?_map, List.getElem?_range' (by omega), Option.map_some]
    congr 2
    omega
  simp only [Option.bind_eq_bind, Option.bind_some, e, Option.pure_def]

theorem implicitStep_nan {X Y d p : F64} {q : ℚ} (hx : o.cx m = fin X) (hy : o.cy m = fin Y)
    (hd : (c 1).add ((c 2).mul (fin X)) = fin d)
    (hp : ((fin X).neg.sub (fin Y)).mul ((fin X).neg.add (fin Y)) = fin p) (h : Grows d p q) (k : ℕ) (hk : 2 ^ 1024 ≤ q ^ k)
    (hn : k + 3 ≤ o.priceSteps - 1) (t : ℕ) (v : List X64) (hv : v.length = o.priceSteps - 1) :
    o.implicitStep m t v = some (o.exercise m t (List.replicate (o.priceSteps - 1) nan)) := by
  unfold implicitStep
  simp only [hx, hy]
  obtain ⟨w, w1, w2⟩ := boundarySub_length (m := m) (o := o) ((fin X).neg.add (fin Y)) ((fin X).neg.sub (fin Y)) t hv (by omega)
  rw [w1, inverse_nan hd hp h _ k hk hn]
  simp only [Option.bind_eq_bind, Option.bind_some, Option.pure_def]
  rw [matMul_nan _ (by omega) w w2]

theorem cnStep_nan {X Y d p : F64} {q : ℚ} (hx : o.cx m = fin X) (hy : o.cy m = fin Y) (hd : (c 1).add (fin X) = fin d)
    (hp : ((c (1 / 2)).mul ((fin X).add (fin Y))).neg.mul ((c (1 / 2)).mul ((fin X).sub (fin Y))).neg = fin p) (h : Grows d p q)
    (k : ℕ) (hk : 2 ^ 1024 ≤ q ^ k) (hn : k + 3 ≤ o.priceSteps - 1) (t : ℕ) (v : List X64) (hv : v.length = o.priceSteps - 1) :
    o.cnStep m t v = some (o.exercise m t (List.replicate (o.priceSteps - 1) nan)) := by
  unfold cnStep
  simp only [hx, hy]
  obtain ⟨u, u1, u2⟩ := tridiagMul_length ((c (1 / 2)).mul ((fin X).sub (fin Y))) ((c 1).sub (fin X))
    ((c (1 / 2)).mul ((fin X).add (fin Y))) (v := v) (by omega)
  obtain ⟨w, w1, w2⟩ := boundary_length (m := m) (o := o) ((c 2).mul ((c (1 / 2)).mul ((fin X).sub (fin Y))))
    ((c 2).mul ((c (1 / 2)).mul ((fin X).add (fin Y)))) t (u2.trans hv) (by omega)
  rw [u1]
  simp only [Option.bind_eq_bind, Option.bind_some]
  rw [w1, inverse_nan hd hp h _ k hk hn]
  simp only [Option.bind_some, Option.pure_def]
  rw [matMul_nan _ (by omega) w w2]

end Pricer

theorem c_rep {q : ℚ} (hr : Rep q) (hq : |q| ≤ 2) : ∃ a, c q = fin a ∧ a.val = q := by
  obtain ⟨a, h1, h2⟩ := ofQ_fin (q := q) (by
    rw [rnd_rep hr]
    exact hq.trans_lt (lt_of_lt_of_le (by norm_num) (pow_le_pow_right₀ (by norm_num : (1:ℚ) ≤ 2) (by norm_num : 3 ≤ 1024))))
  exact ⟨a, h1, by rw [h2, rnd_rep hr]⟩

theorem c_two : ∃ a, c 2 = fin a ∧ a.val = 2 :=
  c_rep (by simpa using rep_of_le 2 0 (by norm_num) (by norm_num)) (by norm_num)

theorem c_half : ∃ a, c (1 / 2) = fin a ∧ a.val = 1 / 2 :=
  c_rep (by simpa using rep_of_le 1 (-1) (by norm_num) (by norm_num)) (by norm_num)

theorem fin_of_le {q b : ℚ} (h : |q| ≤ b) (hb : b ≤ 2 ^ 200) : ∃ a, ofQ q = fin a ∧ a.val = rnd q := by
  apply ofQ_fin
  have hr : Rep ((2:ℚ) ^ 200) := by
    have := rep_of_le 1 200 (by norm_num) (by norm_num)
    simpa using this
  exact (rnd_abs_le hr (h.trans hb)).trans_lt (pow_lt_pow_right₀ (by norm_num) (by norm_num))

/-- Relative error of a rounded value that is not tiny. -/
theorem rnd_rel {q : ℚ} (h : 2 ^ (-200 : ℤ) ≤ |q|) : |rnd q - q| ≤ 2 ^ (-53 : ℤ) * |q| := by
  rcases rnd_error q with h1 | ⟨h1, _⟩
  · rwa [abs_sub_comm] at h1
  · exact absurd (h1.trans_le ((zpow_le_zpow_right₀ (by norm_num) (by norm_num)).trans h)) (lt_irrefl _)

/-- The product of the two off-diagonal entries. -/
theorem product {a b : F64} {h k : ℚ} (h1 : 2 ^ (-11 : ℤ) ≤ h) (h2 : h ≤ 2 ^ 40) (hk : 2 * |k| ≤ h)
    (ha : |a.val + (h + k)| ≤ 9 / 4 * 2 ^ (-53 : ℤ) * (h + k)) (hb : |b.val + (h - k)| ≤ 9 / 4 * 2 ^ (-53 : ℤ) * (h - k)) :
    ∃ p, (fin a).mul (fin b) = fin p ∧ 0 < p.val ∧ p.val ≤ (1 + 2 ^ (-50 : ℤ)) * h ^ 2 := by
  have hh : 0 < h := lt_of_lt_of_le (by positivity) h1
  obtain ⟨k1, k2⟩ := abs_le.1 (show |k| ≤ h / 2 by linarith)
  obtain ⟨a1, a2⟩ := abs_le.1 ha
  obtain ⟨b1, b2⟩ := abs_le.1 hb
  have s1 : 0 ≤ h + k := by linarith
  have s2 : 0 ≤ h - k := by linarith
  have A1 : -a.val ≤ (1 + 9 / 4 * 2 ^ (-53 : ℤ)) * (h + k) := by linarith
  have A2 : 1 / 2 * (h + k) ≤ -a.val := by norm_num at a2; linarith
  have B1 : -b.val ≤ (1 + 9 / 4 * 2 ^ (-53 : ℤ)) * (h - k) := by linarith
  have B2 : 1 / 2 * (h - k) ≤ -b.val := by norm_num at b2; linarith
  have P1 : a.val * b.val ≤ (1 + 9 / 4 * 2 ^ (-53 : ℤ)) ^ 2 * h ^ 2 := by
    have g := mul_le_mul A1 B1 (by linarith) (by positivity)
    have g2 : (h + k) * (h - k) ≤ h ^ 2 := by nlinarith [sq_nonneg k]
    have g3 := mul_le_mul_of_nonneg_left g2 (by positivity : (0:ℚ) ≤ (1 + 9 / 4 * 2 ^ (-53 : ℤ)) ^ 2)
    nlinarith
  have P2 : 3 / 16 * h ^ 2 ≤ a.val * b.val := by
    have g := mul_le_mul A2 B2 (by linarith) (by linarith)
    have g2 : 3 / 4 * h ^ 2 ≤ (h + k) * (h - k) := by nlinarith
    nlinarith
  have hsq : 2 ^ (-22 : ℤ) ≤ h ^ 2 := by
    have := pow_le_pow_left₀ (by positivity) h1 2
    norm_num at this ⊢
    exact this
  have hsq2 : h ^ 2 ≤ 2 ^ 80 := by
    have := pow_le_pow_left₀ hh.le h2 2
    norm_num at this ⊢
    exact this
  have hab : 0 ≤ a.val * b.val := by nlinarith
  obtain ⟨p, p1, p2⟩ := fin_of_le (q := a.val * b.val) (b := 2 ^ 82) (by
    rw [abs_of_nonneg hab]
    refine P1.trans ?_
    norm_num at hsq2 ⊢
    linarith) (by norm_num)
  have e := rnd_rel (q := a.val * b.val) (by
    rw [abs_of_nonneg hab]
    refine le_trans ?_ P2
    have : (2:ℚ) ^ (-200 : ℤ) ≤ 2 ^ (-30 : ℤ) := zpow_le_zpow_right₀ (by norm_num) (by norm_num)
    refine this.trans ?_
    norm_num at hsq ⊢
    linarith)
  rw [abs_of_nonneg hab, ← p2] at e
  obtain ⟨e1, e2⟩ := abs_le.1 e
  refine ⟨p, p1, ?_, ?_⟩
  · norm_num at e1 hsq
    linarith
  · norm_num at e2 P1 ⊢
    linarith [sq_nonneg h]

theorem implicit_grows {X Y : F64} (h1 : 2 ^ (-10 : ℤ) ≤ X.val) (h2 : X.val ≤ 2 ^ 40) (hY : 2 * |Y.val| ≤ X.val) :
    ∃ d p, (c 1).add ((c 2).mul (fin X)) = fin d ∧ ((fin X).neg.sub (fin Y)).mul ((fin X).neg.add (fin Y)) = fin p ∧
      Grows d p (1 + X.val) := by
  have hX : 0 < X.val := lt_of_lt_of_le (by positivity) h1
  obtain ⟨y1, y2⟩ := abs_le.1 (show |Y.val| ≤ X.val / 2 by linarith)
  obtain ⟨one, o1, o2⟩ := c_one
  obtain ⟨two, t1, t2⟩ := c_two
  obtain ⟨e, e1, e2⟩ := fin_of_le (q := two.val * X.val) (b := 2 ^ 41) (by
    rw [t2, abs_of_nonneg (by positivity)]
    norm_num at h2 ⊢
    linarith) (by norm_num)
  have e3 := rnd_rel (q := two.val * X.val) (by
    rw [t2, abs_of_nonneg (by positivity)]
    have : (2:ℚ) ^ (-200 : ℤ) ≤ 2 ^ (-10 : ℤ) := zpow_le_zpow_right₀ (by norm_num) (by norm_num)
    linarith)
  rw [← e2, t2, abs_of_nonneg (show 0 ≤ 2 * X.val by linarith)] at e3
  obtain ⟨e4, e5⟩ := abs_le.1 e3
  have hpos : 0 ≤ one.val + e.val := by rw [o2]; norm_num at e4; linarith
  obtain ⟨d, d1, d2⟩ := fin_of_le (q := one.val + e.val) (b := 2 ^ 43) (by
    rw [abs_of_nonneg hpos, o2]
    norm_num at h2 e5 ⊢
    linarith) (by norm_num)
  have d3 : |one.val + e.val - rnd (one.val + e.val)| ≤ 2 ^ (-53 : ℤ) * |one.val + e.val| := rnd_add one.rep e.rep
  rw [← d2, abs_of_nonneg hpos, o2] at d3
  have d4 := (abs_le.1 d3).2
  obtain ⟨X', x1, x2⟩ := neg_fin X
  obtain ⟨a, a1, a2⟩ := fin_of_le (q := X'.val - Y.val) (b := 2 ^ 41) (by
    rw [x2, abs_le]
    norm_num at h2 ⊢
    constructor <;> linarith) (by norm_num)
  obtain ⟨b, b1, b2⟩ := fin_of_le (q := X'.val + Y.val) (b := 2 ^ 41) (by
    rw [x2, abs_le]
    norm_num at h2 ⊢
    constructor <;> linarith) (by norm_num)
  have a3 : |X'.val - Y.val - rnd (X'.val - Y.val)| ≤ 2 ^ (-53 : ℤ) * |X'.val - Y.val| := rnd_sub X'.rep Y.rep
  have b3 : |X'.val + Y.val - rnd (X'.val + Y.val)| ≤ 2 ^ (-53 : ℤ) * |X'.val + Y.val| := rnd_add X'.rep Y.rep
  rw [← a2, x2, abs_of_neg (by linarith : -X.val - Y.val < 0)] at a3
  rw [← b2, x2, abs_of_neg (by linarith : -X.val + Y.val < 0)] at b3
  obtain ⟨p, p1, p2, p3⟩ := product (a := a) (b := b) (h := X.val) (k := Y.val)
    (le_trans (zpow_le_zpow_right₀ (by norm_num) (by norm_num)) h1) h2 hY
    (by
      rw [abs_le] at a3 ⊢
      norm_num at a3 ⊢
      constructor <;> linarith [a3.1, a3.2])
    (by
      rw [abs_le] at b3 ⊢
      norm_num at b3 ⊢
      constructor <;> linarith [b3.1, b3.2])
  refine ⟨d, p, ?_, ?_, grows_of (le_trans (zpow_le_zpow_right₀ (by norm_num) (by norm_num)) h1) h2 ?_ p2 p3⟩
  · rw [o1, t1]
    show (fin one).add (ofQ (two.val * X.val)) = _
    rw [e1]
    exact d1
  · rw [x1, sub_fin, a1]
    show (fin a).mul (ofQ (X'.val + Y.val)) = _
    rw [b1]
    exact p1
  · norm_num at d4 e4 ⊢
    linarith

theorem half_near {half A : F64} (hh : half.val = 1 / 2) {s : ℚ} (h1 : 2 ^ (-12 : ℤ) ≤ s) (h2 : s ≤ 2 ^ 41)
    (hA : |A.val - s| ≤ 2 ^ (-53 : ℤ) * s) :
    ∃ a, ((fin half).mul (fin A)).neg = fin a ∧ |a.val + s / 2| ≤ 9 / 4 * 2 ^ (-53 : ℤ) * (s / 2) := by
  have hs : 0 < s := lt_of_lt_of_le (by positivity) h1
  obtain ⟨A1, A2⟩ := abs_le.1 hA
  norm_num at A1 A2
  have hA0 : 0 ≤ half.val * A.val := by rw [hh]; linarith
  obtain ⟨b, b1, b2⟩ := fin_of_le (q := half.val * A.val) (b := 2 ^ 42) (by
    rw [abs_of_nonneg hA0, hh]
    norm_num at h2 ⊢
    linarith) (by norm_num)
  have b3 := rnd_rel (q := half.val * A.val) (by
    rw [abs_of_nonneg hA0, hh]
    have : (2:ℚ) ^ (-200 : ℤ) ≤ 2 ^ (-20 : ℤ) := zpow_le_zpow_right₀ (by norm_num) (by norm_num)
    refine this.trans ?_
    norm_num at h1 ⊢
    linarith)
  rw [abs_of_nonneg hA0, ← b2, hh] at b3
  obtain ⟨b', c1, c2⟩ := neg_fin b
  refine ⟨b', ?_, ?_⟩
  · show (ofQ (half.val * A.val)).neg = _
    rw [b1, c1]
  · rw [c2]
    rw [abs_le] at b3 ⊢
    norm_num at b3 ⊢
    constructor <;> linarith [b3.1, b3.2]

theorem cn_grows {X Y : F64} (h1 : 2 ^ (-10 : ℤ) ≤ X.val) (h2 : X.val ≤ 2 ^ 40) (hY : 2 * |Y.val| ≤ X.val) :
    ∃ d p, (c 1).add (fin X) = fin d ∧
      ((c (1 / 2)).mul ((fin X).add (fin Y))).neg.mul ((c (1 / 2)).mul ((fin X).sub (fin Y))).neg = fin p ∧
      Grows d p (1 + X.val / 2) := by
  have hX : 0 < X.val := lt_of_lt_of_le (by positivity) h1
  obtain ⟨y1, y2⟩ := abs_le.1 (show |Y.val| ≤ X.val / 2 by linarith)
  obtain ⟨one, o1, o2⟩ := c_one
  obtain ⟨half, t1, t2⟩ := c_half
  have hpos : 0 ≤ one.val + X.val := by rw [o2]; linarith
  obtain ⟨d, d1, d2⟩ := fin_of_le (q := one.val + X.val) (b := 2 ^ 43) (by
    rw [abs_of_nonneg hpos, o2]
    norm_num at h2 ⊢
    linarith) (by norm_num)
  have d3 : |one.val + X.val - rnd (one.val + X.val)| ≤ 2 ^ (-53 : ℤ) * |one.val + X.val| := rnd_add one.rep X.rep
  rw [← d2, abs_of_nonneg hpos, o2] at d3
  have d4 := (abs_le.1 d3).2
  obtain ⟨a, a1, a2⟩ := fin_of_le (q := X.val + Y.val) (b := 2 ^ 41) (by
    rw [abs_le]
    norm_num at h2 ⊢
    constructor <;> linarith) (by norm_num)
  obtain ⟨b, b1, b2⟩ := fin_of_le (q := X.val - Y.val) (b := 2 ^ 41) (by
    rw [abs_le]
    norm_num at h2 ⊢
    constructor <;> linarith) (by norm_num)
  have a3 : |X.val + Y.val - rnd (X.val + Y.val)| ≤ 2 ^ (-53 : ℤ) * |X.val + Y.val| := rnd_add X.rep Y.rep
  have b3 : |X.val - Y.val - rnd (X.val - Y.val)| ≤ 2 ^ (-53 : ℤ) * |X.val - Y.val| := rnd_sub X.rep Y.rep
  rw [← a2, abs_of_pos (by linarith : 0 < X.val + Y.val), abs_sub_comm] at a3
  rw [← b2, abs_of_pos (by linarith : 0 < X.val - Y.val), abs_sub_comm] at b3
  obtain ⟨a', a4, a5⟩ := half_near t2 (s := X.val + Y.val) (by norm_num at h1 ⊢; linarith) (by norm_num at h2 ⊢; linarith) a3
  obtain ⟨b', b4, b5⟩ := half_near t2 (s := X.val - Y.val) (by norm_num at h1 ⊢; linarith) (by norm_num at h2 ⊢; linarith) b3
  obtain ⟨p, p1, p2, p3⟩ := product (a := a') (b := b') (h := X.val / 2) (k := Y.val / 2)
    (by norm_num at h1 ⊢; linarith) (by norm_num at h2 ⊢; linarith)
    (by rw [abs_div, abs_of_pos (by norm_num : (0:ℚ) < 2)]; linarith)
    (by rw [← add_div]; exact a5) (by rw [← sub_div]; exact b5)
  refine ⟨d, p, ?_, ?_, grows_of (by norm_num at h1 ⊢; linarith) (by norm_num at h2 ⊢; linarith) ?_ p2 p3⟩
  · rw [o1]
    exact d1
  · rw [t1, sub_fin, b1, b4]
    show (((fin half).mul (ofQ (X.val + Y.val))).neg).mul _ = _
    rw [a1, a4]
    exact p1
  · norm_num at d4 ⊢
    linarith

end Verif.Float.Fd
