import Verif.Float.SplineLemmas

/-!
# C111: basis functions in double precision
-/

namespace Verif.Float.Spline

open X64 Nan Verif.Float.Sorting
open Verif.Math.BSpline (Spline N N_nonneg N_support N_zero N_sum knot_mono)
open Verif.Float.Laws (one_fin le_fin)

theorem Data.Valid.inv {D : Data} (h : D.Valid) : D.exact.Inv :=
  ⟨by unfold Data.exact; rw [List.pairwise_map]; exact h.sorted, by simp [Data.exact, h.len]⟩

theorem Data.Valid.mono {D : Data} (h : D.Valid) : Monotone D.exact.knot := knot_mono h.inv

theorem knot_at (D : Data) {j : ℕ} (hj : j < D.knots.length) :
    ∃ t ∈ D.knots, (D.knots.map fin)[j]? = some (fin t) ∧ D.exact.knot j = t.val := by
  refine ⟨D.knots[j], List.getElem_mem _, ?_, ?_⟩
  · rw [List.getElem?_map, List.getElem?_eq_getElem hj, Option.map_some]
  · unfold Data.exact Spline.knot
    rw [List.getD_eq_getElem _ _ (by simpa using hj), List.getElem_map]

theorem N_le {t : ℕ → ℚ} (ht : Monotone t) (p : ℚ) (d i : ℕ) : N t p d i ≤ 2 ^ d := by
  induction d generalizing i with
  | zero => simp only [N]; split_ifs <;> norm_num
  | succ d ih =>
    have h1 : (p - t i) / (t (i + d + 1) - t i) * N t p d i ≤ 2 ^ d := by
      by_cases h : N t p d i = 0
      · rw [h, mul_zero]; positivity
      · obtain ⟨a, b⟩ := N_support ht p d i h
        have : (p - t i) / (t (i + d + 1) - t i) ≤ 1 := (div_le_one (by linarith)).2 (by linarith)
        calc _ ≤ 1 * N t p d i := mul_le_mul_of_nonneg_right this (N_nonneg ht p d i)
          _ ≤ _ := by rw [one_mul]; exact ih i
    have h2 : (t (i + d + 2) - p) / (t (i + d + 2) - t (i + 1)) * N t p d (i + 1) ≤ 2 ^ d := by
      by_cases h : N t p d (i + 1) = 0
      · rw [h, mul_zero]; positivity
      · obtain ⟨a, b⟩ := N_support ht p d (i + 1) h
        rw [show i + 1 + d + 1 = i + d + 2 by omega] at b
        have : (t (i + d + 2) - p) / (t (i + d + 2) - t (i + 1)) ≤ 1 := (div_le_one (by linarith)).2 (by linarith)
        calc _ ≤ 1 * N t p d (i + 1) := mul_le_mul_of_nonneg_right this (N_nonneg ht p d (i + 1))
          _ ≤ _ := by rw [one_mul]; exact ih (i + 1)
    simp only [N]
    rw [pow_succ]
    linarith

theorem ne_fin (a b : F64) : ne (fin b) (fin a) = true ↔ b.val ≠ a.val := by simp [ne]

theorem two_pow : (2 : ℚ) ^ (501 : ℤ) = 2 ^ 500 + 2 ^ 500 := by
  rw [show (501 : ℤ) = 500 + 1 by norm_num, zpow_add₀ (by norm_num), show (2 : ℚ) ^ (500 : ℤ) = 2 ^ 500 from zpow_natCast 2 500]
  ring

theorem diff_le {a b : ℚ} (ha : |a| ≤ 2 ^ 500) (hb : |b| ≤ 2 ^ 500) : |a - b| ≤ 2 ^ (501 : ℤ) := by
  rw [two_pow]
  refine (abs_sub _ _).trans ?_
  generalize (2 : ℚ) ^ 500 = T at *
  linarith

theorem F0 : F64.zero.val = 0 := rfl

/-- One of the two terms of the recursion. -/
theorem half {D : Data} (hm : D.Moderate) {a b : F64} (ha : a ∈ D.knots) (hb : b ∈ D.knots) (hab : a.val ≤ b.val)
    {f g : F64} (hf : |f.val| ≤ 2 ^ 500) (hg : |g.val| ≤ 2 ^ 500) {B E A : ℚ} (hB0 : 0 ≤ B) (hB1 : B ≤ 2 ^ 50) (hE0 : 0 ≤ E) (hE1 : E ≤ 1)
    (hA0 : 0 ≤ A) (hA1 : A ≤ 1) {n : F64} {o : Option X64} (ho : o = some (fin n)) (hn0 : 0 ≤ n.val) (hn : |n.val - B| ≤ E * B + A)
    (hz : B = 0 → n.val = 0) (hs : B ≠ 0 → 0 ≤ f.val - g.val ∧ f.val - g.val ≤ b.val - a.val) :
    ∃ y : F64, part (fin b) (fin a) (fin f) (fin g) o = some (fin y) ∧
      0 ≤ y.val ∧ y.val ≤ 2 ^ 60 ∧ ((f.val - g.val) / (b.val - a.val) * B = 0 → y.val = 0) ∧
      0 ≤ (f.val - g.val) / (b.val - a.val) * B ∧
      |y.val - (f.val - g.val) / (b.val - a.val) * B| ≤
        ((1 + u) * (1 + 4 * u) * (1 + E) - 1) * ((f.val - g.val) / (b.val - a.val) * B) + ((1 + u) * (A + 2 ^ 51 * eta) + eta) := by
  have hu := u_pos
  have hus := u_small
  have he := eta_pos
  have he1 : eta ≤ 1 / 2 ^ 60 := by
    unfold eta
    rw [show (1 : ℚ) / 2 ^ 60 = 2 ^ (-60 : ℤ) by norm_num]
    exact zpow_le_zpow_right₀ (by norm_num) (by norm_num)
  by_cases h : b.val = a.val
  · unfold part
    rw [if_neg (by rw [ne_fin]; simpa using h)]
    refine ⟨F64.zero, rfl, le_rfl, ?_, fun _ => rfl, ?_, ?_⟩
    · rw [F0]; norm_num
    · rw [h, sub_self, div_zero, zero_mul]
    · rw [h, sub_self, div_zero, zero_mul, mul_zero, F0, sub_zero, abs_zero]
      have h1 : 0 ≤ (1 + u) * (A + 2 ^ 51 * eta) := mul_nonneg (by linarith) (by linarith)
      linarith
  · have hlt : a.val < b.val := lt_of_le_of_ne hab (Ne.symm h)
    have hQ := hm.2 a ha b hb hlt
    obtain ⟨x, x1, x2, x3⟩ := quot (p := f) (a := g) hQ (diff_le (hm.1 b hb) (hm.1 a ha)) (diff_le hf hg)
    have hpos : 0 < b.val - a.val := by linarith
    obtain ⟨y, y1, y2, y3, y4⟩ := term (x := x) (ρ := (f.val - g.val) / (b.val - a.val)) hB0 hB1 hE0 hE1 hA0 hA1 hn0 hn hz (by
      intro hB
      obtain ⟨s1, s2⟩ := hs hB
      obtain ⟨k1, k2, k3⟩ := x3 s1 s2
      refine ⟨div_nonneg s1 hpos.le, ?_, k1, k2, k3⟩
      intro e
      rcases div_eq_zero_iff.1 e with e | e
      · exact x2 (by linarith)
      · linarith)
    have hρB : 0 ≤ (f.val - g.val) / (b.val - a.val) * B ∧ (f.val - g.val) / (b.val - a.val) * B ≤ 2 ^ 50 := by
      by_cases hB : B = 0
      · rw [hB, mul_zero]; norm_num
      · obtain ⟨s1, s2⟩ := hs hB
        have h1 : 0 ≤ (f.val - g.val) / (b.val - a.val) := div_nonneg s1 hpos.le
        have h2 : (f.val - g.val) / (b.val - a.val) ≤ 1 := (div_le_one hpos).2 s2
        refine ⟨mul_nonneg h1 hB0, ?_⟩
        calc _ ≤ 1 * B := mul_le_mul_of_nonneg_right h2 hB0
          _ ≤ _ := by rw [one_mul]; exact hB1
    refine ⟨y, ?_, y2, ?_, y3, hρB.1, y4⟩
    · unfold part
      rw [if_pos (by rw [ne_fin]; exact h), ho, Option.map_some, x1, y1]
    · have h1 := (abs_le.1 y4).2
      generalize (f.val - g.val) / (b.val - a.val) * B = Z at *
      have h2 : (1 + u) * (1 + 4 * u) * (1 + E) - 1 ≤ 4 := by
        have h3 : (1 + u) * (1 + 4 * u) ≤ 2 := by nlinarith
        have h4 : (1 + u) * (1 + 4 * u) * (1 + E) ≤ 2 * (1 + E) := mul_le_mul_of_nonneg_right h3 (by linarith)
        linarith
      have h5 := mul_le_mul_of_nonneg_right h2 hρB.1
      have h6 : (1 + u) * (A + 2 ^ 51 * eta) ≤ 2 * (A + 2 ^ 51 * eta) := mul_le_mul_of_nonneg_right (by linarith) (by linarith)
      have h7 : (2 : ℚ) ^ 51 * eta ≤ 1 := by
        calc (2 : ℚ) ^ 51 * eta ≤ 2 ^ 51 * (1 / 2 ^ 60) := mul_le_mul_of_nonneg_left he1 (by norm_num)
          _ ≤ 1 := by norm_num
      have h8 : eta ≤ 1 := he1.trans (by norm_num)
      have h9 : (4 : ℚ) * 2 ^ 50 + 2 ^ 50 + 10 ≤ 2 ^ 60 := by norm_num
      linarith [hρB.2]

theorem absolute_succ (d : ℕ) : 3 * (absolute d + 2 ^ 52 * eta) ≤ absolute (d + 1) := by
  have hX : 0 ≤ (2 : ℚ) ^ 52 * eta := mul_nonneg (by norm_num) eta_pos.le
  have h4 : (1 : ℚ) ≤ 4 ^ d := one_le_pow₀ (by norm_num)
  unfold absolute
  rw [pow_succ (4 : ℚ) d]
  generalize (2 : ℚ) ^ 52 * eta = X at *
  generalize (4 : ℚ) ^ d = q at *
  nlinarith [mul_nonneg (sub_nonneg.2 h4) hX]

/-- A basis function: exactly zero where it is zero, and otherwise close to its value. -/
theorem cox_near {D : Data} (hD : D.Valid) (hm : D.Moderate) {p : F64} (hp : |p.val| ≤ 2 ^ 500) (d i : ℕ) (hd : d ≤ 50)
    (h : i + d + 1 < D.knots.length) :
    ∃ r : F64, cox (D.knots.map fin) (fin p) d i = some (fin r) ∧ 0 ≤ r.val ∧ (N D.exact.knot p.val d i = 0 → r.val = 0) ∧
      |r.val - N D.exact.knot p.val d i| ≤ rel d * N D.exact.knot p.val d i + absolute d := by
  have hu := u_pos
  have ht := hD.mono
  induction d generalizing i with
  | zero =>
    obtain ⟨a, -, a1, a2⟩ := knot_at D (show i < D.knots.length by omega)
    obtain ⟨b, -, b1, b2⟩ := knot_at D (show i + 1 < D.knots.length by omega)
    have hr : rel 0 = 0 := by simp [rel]
    have ha : absolute 0 = 0 := by simp [absolute]
    rw [hr, ha]
    simp only [cox, a1, b1, Option.bind_eq_bind, Option.bind_some, Option.pure_def, N, a2, b2]
    have l1 : le (fin a) (fin p) = true ↔ a.val ≤ p.val := le_fin a p
    have l2 : X64.lt (fin p) (fin b) = true ↔ p.val < b.val := by simp [X64.lt]
    obtain ⟨o, o1, o2⟩ := one_fin
    by_cases h1 : a.val ≤ p.val
    · rw [if_pos (l1.2 h1)]
      by_cases h2 : p.val < b.val
      · rw [if_pos (l2.2 h2), if_pos ⟨h1, h2⟩]
        exact ⟨o, by rw [o1], by rw [o2]; norm_num, fun e => absurd e (by norm_num), by rw [o2]; norm_num⟩
      · rw [if_neg (fun e => h2 (l2.1 e)), if_neg (fun e => h2 e.2)]
        exact ⟨F64.zero, rfl, le_rfl, fun _ => rfl, by rw [F0]; norm_num⟩
    · rw [if_neg (fun e => h1 (l1.1 e)), if_neg (fun e => h1 e.1)]
      exact ⟨F64.zero, rfl, le_rfl, fun _ => rfl, by rw [F0]; norm_num⟩
  | succ d ih =>
    obtain ⟨n, n1, n2, n3, n4⟩ := ih i (by omega) (by omega)
    obtain ⟨m, m1, m2, m3, m4⟩ := ih (i + 1) (by omega) (by omega)
    obtain ⟨a, ka, a1, a2⟩ := knot_at D (show i < D.knots.length by omega)
    obtain ⟨b, kb, b1, b2⟩ := knot_at D (show i + (d + 1) < D.knots.length by omega)
    obtain ⟨a', ka', a1', a2'⟩ := knot_at D (show i + 1 < D.knots.length by omega)
    obtain ⟨b', kb', b1', b2'⟩ := knot_at D (show i + (d + 1) + 1 < D.knots.length by omega)
    have hE0 := rel_nonneg d
    have hE1 : rel d ≤ 1 := by
      refine (rel_le d (by omega)).trans ?_
      have hus := u_small
      have hk' : (d : ℚ) ≤ 50 := by exact_mod_cast (by omega : d ≤ 50)
      have h3 : (d : ℚ) * u ≤ 50 * u := mul_le_mul_of_nonneg_right hk' hu.le
      linarith
    have hA0 := absolute_nonneg d
    have hA1 : absolute d ≤ 1 := (absolute_le d (by omega)).trans (zpow_le_one_of_nonpos₀ (by norm_num) (by norm_num))
    have hBB : ∀ j, N D.exact.knot p.val d j ≤ 2 ^ 50 := fun j =>
      (N_le ht p.val d j).trans (pow_le_pow_right₀ (by norm_num) (by omega))
    have hab : a.val ≤ b.val := by rw [← a2, ← b2]; exact ht (by omega)
    have hab' : a'.val ≤ b'.val := by rw [← a2', ← b2']; exact ht (by omega)
    obtain ⟨y, y1, y2, y3, y4, y5, y6⟩ := half hm ka kb hab (f := p) (g := a) hp (hm.1 a ka) (N_nonneg ht p.val d i) (hBB i) hE0 hE1 hA0 hA1
      n1 n2 n4 n3 (by
        intro hne
        obtain ⟨s1, s2⟩ := N_support ht p.val d i hne
        rw [a2] at s1
        rw [show i + d + 1 = i + (d + 1) by omega, b2] at s2
        constructor <;> linarith)
    obtain ⟨z, z1, z2, z3, z4, z5, z6⟩ := half hm ka' kb' hab' (f := b') (g := p) (hm.1 b' kb') hp (N_nonneg ht p.val d (i + 1)) (hBB (i + 1)) hE0
      hE1 hA0 hA1 m1 m2 m4 m3 (by
        intro hne
        obtain ⟨s1, s2⟩ := N_support ht p.val d (i + 1) hne
        rw [a2'] at s1
        rw [show i + 1 + d + 1 = i + (d + 1) + 1 by omega, b2'] at s2
        constructor <;> linarith)
    obtain ⟨r, r1, r2, r3, r4⟩ := join hE0 y5 z5 hA0 y2 z2 y3 z3 y6 z6
    have hN : N D.exact.knot p.val (d + 1) i = (p.val - a.val) / (b.val - a.val) * N D.exact.knot p.val d i +
        (b'.val - p.val) / (b'.val - a'.val) * N D.exact.knot p.val d (i + 1) := by
      rw [← a2, ← b2, ← a2', ← b2']
      rfl
    refine ⟨r, ?_, r3, ?_, ?_⟩
    · simp only [cox, a1, b1, a1', b1', Option.bind_eq_bind, Option.bind_some, Option.pure_def]
      rw [y1, Option.bind_some, z1, Option.bind_some, r1]
    · intro h0
      rw [hN] at h0
      have h1 := y4 (by linarith)
      have h2 := z4 (by linarith)
      rw [r2, h1, h2, _root_.add_zero, rnd_zero]
    · rw [hN]
      refine r4.trans ?_
      have e1 : rel (d + 1) = (1 + 7 * u) * (1 + rel d) - 1 := by unfold rel; rw [pow_succ]; ring
      have e2 := absolute_succ d
      rw [e1]
      linarith

end Verif.Float.Spline
