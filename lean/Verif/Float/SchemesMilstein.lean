import Verif.Float.SchemesRun

/-! Helper lemmas: one rounded Milstein step. -/

namespace Verif.Float.Sim

open Verif.Float.Fft (ur mu top rnd_real add_real sub_real toF64_total ur_pos mu_pos ur_le)

/-- `r` is `v` up to `ε W`, and `v` is at most `W` in size. -/
def Near (r v W ε : ℝ) : Prop := |r - v| ≤ ε * W ∧ |v| ≤ W

theorem Near.mono {r v W ε W' ε' : ℝ} (h : Near r v W ε) (hW : W ≤ W') (hε : ε ≤ ε') (h0 : 0 ≤ ε) : Near r v W' ε' := by
  have hW0 : 0 ≤ W := (abs_nonneg _).trans h.2
  exact ⟨h.1.trans (mul_le_mul hε hW hW0 (h0.trans hε)), h.2.trans hW⟩

theorem Near.size {r v W ε : ℝ} (h : Near r v W ε) (hε : ε ≤ 1 / 100) : |r| ≤ 101 / 100 * W := by
  have hW0 : 0 ≤ W := (abs_nonneg _).trans h.2
  have := abs_add_le (r - v) v
  rw [sub_add_cancel] at this
  have h1 := mul_le_mul_of_nonneg_right hε hW0
  linarith [h.1, h.2]

theorem Near.self (r : ℝ) : Near r r |r| 0 := ⟨by simp, le_rfl⟩

theorem mu_floor {W : ℝ} (h : 2 ^ (-900 : ℤ) ≤ W) : mu ≤ ur * W := by
  refine le_trans ?_ (mul_le_mul_of_nonneg_left h ur_pos.le)
  unfold mu ur
  rw [← zpow_add₀ (by norm_num)]
  exact zpow_le_zpow_right₀ (by norm_num) (by norm_num)

theorem mul_near' {r s v w V W ε δ u : ℝ} (h1 : Near r v V ε) (h2 : Near s w W δ) (hε : 0 ≤ ε) (hδ0 : 0 ≤ δ) (hε1 : ε ≤ 1 / 100)
    (hδ : δ ≤ 1 / 100) (hu : 0 ≤ u) {p X : ℝ} (hX : V * W ≤ X) (hp : |p - r * s| ≤ u * |r * s| + u * X) :
    Near p (v * w) X (101 / 100 * ε + δ + 3 * u) ∧ |r * s| ≤ 2 * X := by
  have hV0 : 0 ≤ V := (abs_nonneg _).trans h1.2
  have hW0 : 0 ≤ W := (abs_nonneg _).trans h2.2
  have hVW : 0 ≤ V * W := mul_nonneg hV0 hW0
  have hX0 : 0 ≤ X := hVW.trans hX
  have s1 := h1.size hε1
  have s2 := h2.size hδ
  have e1 : |(r - v) * s| ≤ 101 / 100 * ε * (V * W) := by
    rw [abs_mul]
    refine (mul_le_mul h1.1 s2 (abs_nonneg _) (mul_nonneg hε hV0)).trans (le_of_eq (by ring))
  have e2 : |v * (s - w)| ≤ δ * (V * W) := by
    rw [abs_mul]
    refine (mul_le_mul h1.2 h2.1 (abs_nonneg _) hV0).trans (le_of_eq (by ring))
  have e3 : |r * s| ≤ 2 * (V * W) := by
    rw [abs_mul]
    refine (mul_le_mul s1 s2 (abs_nonneg _) (by positivity)).trans ?_
    linarith
  have e4 : |r * s| ≤ 2 * X := e3.trans (by linarith)
  refine ⟨⟨?_, ?_⟩, e4⟩
  · have a1 := abs_add_le (p - r * s) ((r - v) * s + v * (s - w))
    have a2 := abs_add_le ((r - v) * s) (v * (s - w))
    rw [show p - r * s + ((r - v) * s + v * (s - w)) = p - v * w by ring] at a1
    have f1 := mul_le_mul_of_nonneg_left hX (show 0 ≤ 101 / 100 * ε by positivity)
    have f2 := mul_le_mul_of_nonneg_left hX hδ0
    have f3 := mul_le_mul_of_nonneg_left e4 hu
    linarith
  · rw [abs_mul]
    exact (mul_le_mul h1.2 h2.2 (abs_nonneg _) hV0).trans hX

theorem mul_near {a b : F64} {v w V W X ε δ : ℝ} (h1 : Near (F64.real a) v V ε) (h2 : Near (F64.real b) w W δ) (hε : 0 ≤ ε)
    (hδ0 : 0 ≤ δ) (hε1 : ε ≤ 1 / 100) (hδ : δ ≤ 1 / 100) (hX : V * W ≤ X) (hfl : 2 ^ (-900 : ℤ) ≤ X) (hbig : X ≤ 2 ^ 999) :
    ∃ r, a.mul b = some r ∧ Near (F64.real r) (v * w) X (101 / 100 * ε + δ + 3 * ur) := by
  have hX2 : 2 * X ≤ 2 ^ 1000 := by rw [pow_succ (2 : ℝ) 999, mul_comm]; exact mul_le_mul_of_nonneg_right hbig (by norm_num)
  have hs : |F64.real a * F64.real b| ≤ 2 * X :=
    (mul_near' (p := F64.real a * F64.real b) h1 h2 hε hδ0 hε1 hδ ur_pos.le hX (by
      rw [sub_self, abs_zero]
      exact add_nonneg (mul_nonneg ur_pos.le (abs_nonneg _)) (mul_nonneg ur_pos.le (le_trans (by positivity) hfl)))).2
  obtain ⟨r, hr, hr1⟩ := mulR (a := a) (b := b) (top_big (hs.trans hX2))
  exact ⟨r, hr, (mul_near' h1 h2 hε hδ0 hε1 hδ ur_pos.le hX (hr1.trans (add_le_add_right (mu_floor hfl) _))).1⟩

theorem sum_near {r s v w V W ε u p : ℝ} (h1 : Near r v V ε) (h2 : Near s w W ε) (hu : 0 ≤ u) (hε1 : ε ≤ 1 / 100)
    (hp : |p - (r + s)| ≤ u * |r + s|) : Near p (v + w) (V + W) (ε + 2 * u) ∧ |r + s| ≤ 2 * (V + W) := by
  have hV0 : 0 ≤ V := (abs_nonneg _).trans h1.2
  have hW0 : 0 ≤ W := (abs_nonneg _).trans h2.2
  have s1 := h1.size hε1
  have s2 := h2.size hε1
  have e0 : |r + s| ≤ 2 * (V + W) := (abs_add_le _ _).trans (by linarith)
  have f := mul_le_mul_of_nonneg_left e0 hu
  refine ⟨⟨?_, (abs_add_le _ _).trans (_root_.add_le_add h1.2 h2.2)⟩, e0⟩
  have a1 := abs_add_le (p - (r + s)) ((r - v) + (s - w))
  have a2 := abs_add_le (r - v) (s - w)
  rw [show p - (r + s) + ((r - v) + (s - w)) = p - (v + w) by ring] at a1
  linarith [h1.1, h2.1]

theorem near_neg {r v W ε : ℝ} (h : Near r v W ε) : Near (-r) (-v) W ε := by
  refine ⟨?_, by rw [abs_neg]; exact h.2⟩
  rw [show -r - -v = -(r - v) by ring, abs_neg]
  exact h.1

theorem add_near {a b : F64} {v w V W ε : ℝ} (h1 : Near (F64.real a) v V ε) (h2 : Near (F64.real b) w W ε) (hε1 : ε ≤ 1 / 100)
    (hbig : V + W ≤ 2 ^ 999) : ∃ r, a.add b = some r ∧ Near (F64.real r) (v + w) (V + W) (ε + 2 * ur) := by
  have hX2 : 2 * (V + W) ≤ 2 ^ 1000 := by rw [pow_succ (2 : ℝ) 999, mul_comm]; exact mul_le_mul_of_nonneg_right hbig (by norm_num)
  have hs := (sum_near (u := 0) (p := F64.real a + F64.real b) h1 h2 le_rfl hε1 (by simp)).2
  obtain ⟨r, hr, hr1⟩ := addR (a := a) (b := b) (top_big (hs.trans hX2))
  exact ⟨r, hr, (sum_near h1 h2 ur_pos.le hε1 hr1).1⟩

theorem sub_near {a b : F64} {v w V W ε : ℝ} (h1 : Near (F64.real a) v V ε) (h2 : Near (F64.real b) w W ε) (hε1 : ε ≤ 1 / 100)
    (hbig : V + W ≤ 2 ^ 999) : ∃ r, a.sub b = some r ∧ Near (F64.real r) (v - w) (V + W) (ε + 2 * ur) := by
  have hX2 : 2 * (V + W) ≤ 2 ^ 1000 := by rw [pow_succ (2 : ℝ) 999, mul_comm]; exact mul_le_mul_of_nonneg_right hbig (by norm_num)
  have hs := (sum_near (u := 0) (p := F64.real a + -F64.real b) h1 (near_neg h2) le_rfl hε1 (by simp)).2
  rw [← sub_eq_add_neg] at hs
  obtain ⟨r, hr, hr1⟩ := subR (a := a) (b := b) (top_big (hs.trans hX2))
  refine ⟨r, hr, ?_⟩
  rw [sub_eq_add_neg (F64.real a)] at hr1
  rw [sub_eq_add_neg v]
  exact (sum_near h1 (near_neg h2) ur_pos.le hε1 hr1).1

/-- Division by two. -/
theorem half_near {a two : F64} {v V ε : ℝ} (h : Near (F64.real a) v (2 * V) ε) (h2 : two.val = 2) (hε1 : ε ≤ 1 / 100)
    (hfl : 2 ^ (-900 : ℤ) ≤ V) (hbig : V ≤ 2 ^ 999) : ∃ r, a.div two = some r ∧ Near (F64.real r) (v / 2) V (ε + 3 * ur) := by
  have hX2 : 2 * V ≤ 2 ^ 1000 := by rw [pow_succ (2 : ℝ) 999, mul_comm]; exact mul_le_mul_of_nonneg_right hbig (by norm_num)
  have hV0 : 0 ≤ V := le_trans (by positivity) hfl
  have s := h.size hε1
  have e : ((a.val / two.val : ℚ) : ℝ) = F64.real a / 2 := by unfold F64.real; rw [h2]; push_cast; rfl
  have hs : |F64.real a / 2| ≤ 2 * V := by
    rw [abs_div, abs_of_pos (show (0 : ℝ) < 2 by norm_num)]; linarith
  obtain ⟨r, hr1, hr2⟩ := toF64_total (x := a.val / two.val) (by rw [e]; exact top_big (hs.trans hX2))
  refine ⟨r, ?_, ?_, ?_⟩
  · unfold F64.div; rw [if_neg (by rw [h2]; norm_num)]; exact hr1
  · have h3 := rnd_real (a.val / two.val)
    rw [← hr2, e] at h3
    change |F64.real r - F64.real a / 2| ≤ _ at h3
    have h4 := mu_floor hfl
    have h5 := mul_le_mul_of_nonneg_left hs ur_pos.le
    have a1 := abs_add_le (F64.real r - F64.real a / 2) ((F64.real a - v) / 2)
    rw [show F64.real r - F64.real a / 2 + (F64.real a - v) / 2 = F64.real r - v / 2 by ring, abs_div (F64.real a - v),
      abs_of_pos (show (0 : ℝ) < 2 by norm_num)] at a1
    linarith [h.1]
  · rw [abs_div, abs_of_pos (show (0 : ℝ) < 2 by norm_num)]; linarith [h.2]

/-- `1e-5` up to rounding. -/
theorem tiny_near : ∃ e, toF64 (1 / 100000) = some e ∧ Near (F64.real e) (1 / 100000) (1 / 100000) ur := by
  obtain ⟨e, he⟩ : ∃ e, toF64 (1 / 100000) = some e := by
    have h0 : (toF64 (1 / 100000)).isSome = true := by decide +kernel
    exact Option.isSome_iff_exists.1 h0
  refine ⟨e, he, ?_, by rw [abs_of_pos (by norm_num)]⟩
  have h1 : e.val = rnd (1 / 100000) := toF64_some he
  have h2 : |(1 / 100000 : ℚ) - rnd (1 / 100000)| ≤ 2 ^ (-53 : ℤ) * (1 / 100000) := by decide +kernel
  rw [← h1, abs_sub_comm] at h2
  have h3 := (Rat.cast_le (K := ℝ)).2 h2
  push_cast at h3
  exact h3

/-- The diffusion at a value `1e-5` away. -/
theorem bumped {c sq sw q w x S T η ν F u : ℝ} (hη : 0 ≤ η) (hu : 0 ≤ u) (hS : 0 ≤ S) (hT : 0 ≤ T) (hu1 : u ≤ 1 / 1000) (hF0 : 0 ≤ F)
    (hw : |w| ≤ |x| + 1 / 100000) (hq : |q - w| ≤ 3 * u * (|x| + 1)) (hc : |c - sq| ≤ η * (S * |q| + T) + ν) (hν : ν ≤ u * F)
    (hs : |sq - sw| ≤ S * |q - w|) (hsw : |sw| ≤ S * |w| + T) :
    Near c sw (S * (|x| + 1) + T + F) (2 * η + 4 * u) := by
  have hx := abs_nonneg x
  have h1 : |q| ≤ 101 / 100 * (|x| + 1) := by
    have := abs_add_le (q - w) w
    rw [sub_add_cancel] at this
    have h2 : 3 * u * (|x| + 1) ≤ 3 * (1 / 1000) * (|x| + 1) := mul_le_mul_of_nonneg_right (by linarith) (by linarith)
    linarith
  have h2 := mul_le_mul_of_nonneg_left h1 hS
  have h3 : η * (S * |q| + T) ≤ η * (2 * (S * (|x| + 1)) + T) :=
    mul_le_mul_of_nonneg_left (by have : 0 ≤ S * (|x| + 1) := by positivity
                                  linarith) hη
  have h4 := mul_le_mul_of_nonneg_left hq hS
  have h5 := mul_le_mul_of_nonneg_left hw hS
  constructor
  · have a := abs_add_le (c - sq) (sq - sw)
    rw [sub_add_sub_cancel] at a
    have g1 : 0 ≤ η * T := by positivity
    have g2 : 0 ≤ η * F := by positivity
    have g3 : 0 ≤ u * T := by positivity
    have g4 : 0 ≤ u * F := by positivity
    have g5 : 0 ≤ u * (S * (|x| + 1)) := by positivity
    linarith
  · have : 0 ≤ S := hS
    linarith

theorem two_val : ∃ r, toF64 2 = some r ∧ r.val = 2 := by
  have h0 : ((toF64 2).map F64.val) = some 2 := by decide +kernel
  rw [Option.map_eq_some_iff] at h0
  exact h0

theorem computes_near {f : F64 → F64 → Option F64} {s : F64 → ℝ → ℝ} {S T η F w x : ℝ} {q : F64} (hf : Computes f s S T η) (hη : 0 ≤ η)
    (hF : F = 2 ^ (-200 : ℤ)) (hx : |x| ≤ 2 ^ 200) (hw : |w| ≤ |x| + 1 / 100000) (hq : |F64.real q - w| ≤ 3 * ur * (|x| + 1)) (t : F64) :
    ∃ c, f q t = some c ∧ Near (F64.real c) (s t w) (S * (|x| + 1) + T + F) (2 * η + 4 * ur) := by
  have hu1 : ur ≤ 1 / 1000 := by unfold ur; norm_num
  have hu := ur_pos
  have hx0 := abs_nonneg x
  have hqb : |F64.real q| ≤ 2 ^ 900 := by
    have h1 := abs_add_le (F64.real q - w) w
    rw [sub_add_cancel] at h1
    have h2 : 3 * ur * (|x| + 1) ≤ 3 * (1 / 1000) * (|x| + 1) := mul_le_mul_of_nonneg_right (by linarith) (by linarith)
    have h3 : (2 : ℝ) ^ 202 ≤ 2 ^ 900 := pow_le_pow_right₀ (by norm_num) (by norm_num)
    refine le_trans ?_ h3
    norm_num at hx ⊢
    linarith
  obtain ⟨c, h1, h2⟩ := hf.computed q t hqb
  refine ⟨c, h1, bumped hη hu.le hf.slope.1 hf.offset.1 hu1 (by rw [hF]; positivity) hw hq h2 ?_ (hf.lipschitz _ _ _) (hf.growth _ _)⟩
  rw [hF]
  unfold ur
  rw [← zpow_add₀ (by norm_num)]
  exact zpow_le_zpow_right₀ (by norm_num) (by norm_num)

/-- Every term of a Milstein step, and their sum. -/
theorem milstein_near {P : Process} {b s : F64 → ℝ → ℝ} {B C S T η : ℝ} (hη : 0 ≤ η) (hη1 : η ≤ 1 / 2000)
    (hd : Computes P.drift b B C η) (hs : Computes P.diffusion s S T η) (hC : C ≤ 2 ^ 200) (hT : T ≤ 2 ^ 200)
    {dt z x : F64} (t : F64) (hdt : 0 ≤ F64.real dt) (hdt1 : F64.real dt ≤ 2 ^ 20) (hz : |F64.real z| ≤ 2 ^ 20)
    (hx : |F64.real x| ≤ 2 ^ 200) :
    ∃ y, milsteinStep P dt t z x = some y ∧ |F64.real y - milsteinExact b s (F64.real dt) (F64.real z) t (F64.real x)| ≤
      (7 * η + 38 * ur) * milsteinSize B C S T (F64.real dt) (F64.real z) (F64.real x) := by
  have hu := ur_pos
  have hu1 : ur ≤ 1 / 10 ^ 6 := by unfold ur; norm_num
  obtain ⟨F, hF⟩ : ∃ F : ℝ, F = 2 ^ (-200 : ℤ) := ⟨_, rfl⟩
  have hF0 : 0 < F := by rw [hF]; positivity
  have hF1 : F ≤ 1 := by rw [hF]; norm_num
  obtain ⟨A, hA⟩ : ∃ A : ℝ, A = S * (|F64.real x| + 1) + T + F := ⟨_, rfl⟩
  obtain ⟨D, hD⟩ : ∃ D : ℝ, D = B * (|F64.real x| + 1) + C + F := ⟨_, rfl⟩
  have hx0 := abs_nonneg (F64.real x)
  have hz0 := abs_nonneg (F64.real z)
  have big : ∀ {K L : ℝ}, 0 ≤ K → K ≤ 2 ^ 19 → L ≤ 2 ^ 200 → K * (|F64.real x| + 1) + L + F ≤ 2 ^ 230 := by
    intro K L h0 h1 h2
    have h3 : K * (|F64.real x| + 1) ≤ 2 ^ 19 * (2 ^ 200 + 1) := mul_le_mul h1 (by linarith) (by linarith) (by norm_num)
    norm_num at h2 h3 ⊢
    linarith
  have hAb : A ≤ 2 ^ 230 := hA ▸ big hs.slope.1 hs.slope.2 hT
  have hDb : D ≤ 2 ^ 230 := hD ▸ big hd.slope.1 hd.slope.2 hC
  have hAF : F ≤ A := by
    have : 0 ≤ S * (|F64.real x| + 1) := mul_nonneg hs.slope.1 (by linarith)
    rw [hA]; linarith [hs.offset.1]
  have hDF : F ≤ D := by
    have : 0 ≤ B * (|F64.real x| + 1) := mul_nonneg hd.slope.1 (by linarith)
    rw [hD]; linarith [hd.offset.1]
  have hA0 : 0 < A := hF0.trans_le hAF
  have hD0 : 0 < D := hF0.trans_le hDF
  obtain ⟨Q, hQ⟩ : ∃ Q : ℝ, Q = |F64.real z| * |F64.real z| + F + |F64.real dt| := ⟨_, rfl⟩
  have hzz : 0 ≤ |F64.real z| * |F64.real z| := mul_nonneg hz0 hz0
  have hzz1 : |F64.real z| * |F64.real z| ≤ 2 ^ 40 := (mul_le_mul hz hz hz0 (by positivity)).trans (by norm_num)
  have hdta : |F64.real dt| = F64.real dt := abs_of_nonneg hdt
  have hQF : F ≤ Q := by rw [hQ, hdta]; linarith
  have hQ1 : Q ≤ 2 ^ 42 := by
    rw [hQ, hdta]; norm_num at hzz1 hdt1 ⊢; linarith
  have hQ0 : 0 < Q := hF0.trans_le hQF
  -- floors
  have fl1 : (2 : ℝ) ^ (-900 : ℤ) ≤ F / 4 := by
    rw [hF, show (2 : ℝ) ^ (-200 : ℤ) / 4 = 2 ^ (-202 : ℤ) by norm_num]
    exact zpow_le_zpow_right₀ (by norm_num) (by norm_num)
  have hF300 : (2 : ℝ) ^ (-220 : ℤ) ≤ F * (1 / 100000) := by rw [hF]; norm_num
  have pA : (2 : ℝ) ^ (-220 : ℤ) ≤ A * (1 / 100000) := hF300.trans (mul_le_mul_of_nonneg_right hAF (by norm_num))
  have fl2 : (2 : ℝ) ^ (-900 : ℤ) ≤ A * (1 / 100000) :=
    (zpow_le_zpow_right₀ (by norm_num) (by norm_num)).trans pA
  have pAA : (2 : ℝ) ^ (-420 : ℤ) ≤ A * (A * (1 / 100000)) := by
    rw [show (-420 : ℤ) = -200 + -220 by norm_num, zpow_add₀ (by norm_num)]
    exact mul_le_mul (hF.symm.le.trans hAF) pA (by positivity) hA0.le
  have fl3 : (2 : ℝ) ^ (-900 : ℤ) ≤ A * (A * (1 / 100000)) :=
    (zpow_le_zpow_right₀ (by norm_num) (by norm_num)).trans pAA
  have fl4 : (2 : ℝ) ^ (-900 : ℤ) ≤ A * (A * (1 / 100000)) * Q := by
    refine (zpow_le_zpow_right₀ (by norm_num) (show (-900 : ℤ) ≤ -420 + -200 by norm_num)).trans ?_
    rw [zpow_add₀ (by norm_num)]
    exact mul_le_mul pAA (hF.symm.le.trans hQF) (by positivity) (by positivity)
  -- ceilings
  obtain ⟨M, hM⟩ : ∃ M : ℝ, M = 2 ^ 999 := ⟨_, rfl⟩
  have toM : ∀ {W : ℝ}, W ≤ M → W ≤ 2 ^ 999 := fun h => h.trans_eq hM
  have hM600 : (2 : ℝ) ^ 600 ≤ M := (pow_le_pow_right₀ (by norm_num) (by norm_num)).trans_eq hM.symm
  have hM502 : (2 : ℝ) ^ 502 * 8 ≤ M := by
    refine le_trans ?_ hM600
    rw [show (8 : ℝ) = 2 ^ 3 by norm_num, ← pow_add]
    exact pow_le_pow_right₀ (by norm_num) (by norm_num)
  have hM256 : (2 : ℝ) ^ 256 ≤ M := (pow_le_pow_right₀ (by norm_num) (by norm_num)).trans_eq hM.symm
  have hAA : A * (A * (1 / 100000)) ≤ 2 ^ 460 := by
    rw [show (460 : ℕ) = 230 + 230 by norm_num, pow_add]
    exact mul_le_mul hAb (by linarith) (by positivity) (by positivity)
  have c3 : A * (A * (1 / 100000)) ≤ M :=
    hAA.trans ((pow_le_pow_right₀ (by norm_num) (by norm_num)).trans hM600)
  have c4' : A * (A * (1 / 100000)) * Q ≤ 2 ^ 502 := by
    rw [show (502 : ℕ) = 460 + 42 by norm_num, pow_add]
    exact mul_le_mul hAA hQ1 hQ0.le (by positivity)
  have hDh : D * |F64.real dt| ≤ 2 ^ 250 := by
    rw [hdta]
    exact (mul_le_mul hDb hdt1 hdt (by positivity)).trans (le_of_eq (by rw [← pow_add]))
  have hAz : A * |F64.real z| ≤ 2 ^ 250 :=
    (mul_le_mul hAb hz hz0 (by positivity)).trans (le_of_eq (by rw [← pow_add]))
  have hDh0 : 0 ≤ D * |F64.real dt| := by positivity
  have hAz0 : 0 ≤ A * |F64.real z| := by positivity
  have w0 : 0 ≤ A * (A * (1 / 100000)) * Q := by positivity
  have cN : A * (A * (1 / 100000)) * Q * 8 ≤ M := (mul_le_mul_of_nonneg_right c4' (by norm_num)).trans hM502
  -- the terms
  obtain ⟨d, d1, d2⟩ := computes_near (q := x) (w := F64.real x) (x := F64.real x) hd hη hF hx (by linarith)
    (by rw [sub_self, abs_zero]; positivity) t
  obtain ⟨v, v1, v2⟩ := computes_near (q := x) (w := F64.real x) (x := F64.real x) hs hη hF hx (by linarith)
    (by rw [sub_self, abs_zero]; positivity) t
  rw [← hD] at d2
  rw [← hA] at v2
  obtain ⟨e, e1, e2⟩ := tiny_near
  have xs := Near.self (F64.real x)
  have hb1 : |F64.real x| + 1 / 100000 ≤ M := by
    refine le_trans ?_ hM256
    norm_num at hx ⊢; linarith
  have key : (1 / 100000 : ℝ) ≤ 1 := by norm_num
  obtain ⟨xu, xu1, xu2⟩ := add_near (xs.mono le_rfl hu.le le_rfl) e2 (by linarith) (toM hb1)
  obtain ⟨xd, xd1, xd2⟩ := sub_near (xs.mono le_rfl hu.le le_rfl) e2 (by linarith) (toM hb1)
  have cl : (ur + 2 * ur) * (|F64.real x| + 1 / 100000) ≤ 3 * ur * (|F64.real x| + 1) := by
    rw [show ur + 2 * ur = 3 * ur by ring]
    exact mul_le_mul_of_nonneg_left (by linarith) (by positivity)
  obtain ⟨up, up1, up2⟩ := computes_near (q := xu) (x := F64.real x) hs hη hF hx xu2.2 (xu2.1.trans cl) t
  obtain ⟨dn, dn1, dn2⟩ := computes_near (q := xd) (x := F64.real x) hs hη hF hx xd2.2 (xd2.1.trans cl) t
  rw [← hA] at up2 dn2
  have hAM : A + A ≤ M := by
    refine le_trans ?_ hM256
    norm_num at hAb ⊢; linarith
  obtain ⟨df, df1, df2⟩ := sub_near up2 dn2 (by linarith) (toM hAM)
  obtain ⟨two, two1, two2⟩ := two_val
  rw [← two_mul] at df2
  obtain ⟨hf, hf1, hf2⟩ := half_near df2 two2 (by linarith)
    ((zpow_le_zpow_right₀ (by norm_num) (by norm_num)).trans (hF.symm.le.trans hAF)) (toM (le_trans (by linarith only [hA0]) hAM))
  obtain ⟨sl, sl1, sl2⟩ := mul_near hf2 e2 (by positivity) hu.le (by linarith) (by linarith) le_rfl fl2 (toM (le_trans (by linarith only [hA0]) hAM))
  replace sl2 := sl2.mono le_rfl (show _ ≤ 3 * η + 14 * ur by linarith) (by positivity)
  obtain ⟨vs, vs1, vs2⟩ := mul_near v2 sl2 (by positivity) (by positivity) (by linarith) (by linarith) le_rfl fl3 (toM c3)
  replace vs2 := vs2.mono le_rfl (show _ ≤ 6 * η + 22 * ur by linarith) (by positivity)
  have zs := Near.self (F64.real z)
  obtain ⟨zz, zz1, zz2⟩ := mul_near (X := |F64.real z| * |F64.real z| + F) zs zs le_rfl le_rfl (by norm_num) (by norm_num) (by linarith)
    (by linarith) (toM (by
      refine le_trans ?_ hM256
      norm_num at hzz1 ⊢; linarith))
  replace zz2 := zz2.mono le_rfl (show _ ≤ 3 * ur by linarith) (by positivity)
  obtain ⟨sq, sq1, sq2⟩ := sub_near zz2 ((Near.self (F64.real dt)).mono le_rfl (show (0 : ℝ) ≤ 3 * ur by positivity) le_rfl) (by linarith)
    (toM (by
      rw [← hQ]
      refine le_trans hQ1 (le_trans ?_ hM256)
      norm_num))
  rw [← hQ] at sq2
  obtain ⟨pr, pr1, pr2⟩ := mul_near vs2 sq2 (by positivity) (by positivity) (by linarith) (by linarith) le_rfl fl4 (toM (by linarith only [cN, w0]))
  replace pr2 := pr2.mono le_rfl (show _ ≤ 7 * η + 31 * ur by linarith) (by positivity)
  obtain ⟨half, half1, half2⟩ := half_real
  have hhalf : Near (F64.real half) (1 / 2) (1 / 2) 0 := by
    rw [half2]; exact ⟨by norm_num, by norm_num⟩
  obtain ⟨cr, cr1, cr2⟩ := mul_near hhalf pr2 le_rfl (by positivity) (by norm_num) (by linarith)
    (show 1 / 2 * (A * (A * (1 / 100000)) * Q) ≤ A * (A * (1 / 100000)) * Q by linarith only [w0])
    fl4 (toM (by linarith only [cN, w0]))
  obtain ⟨dh, dh1, dh2⟩ := mul_near (X := D * |F64.real dt| + F / 4) d2 (Near.self (F64.real dt)) (by positivity) le_rfl (by linarith)
    (by norm_num) (by linarith) (by linarith) (toM (by
      refine le_trans ?_ hM256
      norm_num at hDh ⊢; linarith))
  obtain ⟨vz, vz1, vz2⟩ := mul_near (X := A * |F64.real z| + F / 4) v2 zs (by positivity) le_rfl (by linarith)
    (by norm_num) (by linarith) (by linarith) (toM (by
      refine le_trans ?_ hM256
      norm_num at hAz ⊢; linarith))
  replace dh2 := dh2.mono le_rfl (show _ ≤ 3 * η + 8 * ur by linarith) (by positivity)
  replace vz2 := vz2.mono le_rfl (show _ ≤ 3 * η + 10 * ur by linarith) (by positivity)
  have hsmall : |F64.real x| + (D * |F64.real dt| + F / 4) + (A * |F64.real z| + F / 4) ≤ 2 ^ 256 := by
    norm_num at hx hDh hAz ⊢; linarith
  have hMpos : 0 < M := lt_of_lt_of_le (by positivity) hM600
  have hM257 : (2 : ℝ) ^ 256 * 2 ≤ M := by
    refine le_trans ?_ hM600
    rw [← pow_succ]
    exact pow_le_pow_right₀ (by norm_num) (by norm_num)
  obtain ⟨q1, q11, q12⟩ := add_near (xs.mono le_rfl (show (0 : ℝ) ≤ 3 * η + 8 * ur by positivity) le_rfl) dh2 (by linarith)
    (toM (by linarith only [hsmall, hM257, hx0, hDh0, hAz0, hF0, cN, w0, hMpos]))
  obtain ⟨q2, q21, q22⟩ := add_near (q12.mono le_rfl (show _ ≤ 3 * η + 10 * ur by linarith) (by positivity)) vz2 (by linarith)
    (toM (by linarith only [hsmall, hM257, hx0, hDh0, hAz0, hF0, cN, w0, hMpos]))
  obtain ⟨q3, q31, q32⟩ := add_near (q22.mono le_rfl (show _ ≤ 7 * η + 34 * ur by linarith) (by positivity))
    (cr2.mono le_rfl (show _ ≤ 7 * η + 34 * ur by linarith) (by positivity)) (by linarith) (toM (by linarith only [hsmall, hM257, hx0, hDh0, hAz0, hF0, cN, w0, hMpos]))
  have hz00 : Near (F64.real F64.zero) 0 0 (7 * η + 36 * ur) := by
    have : F64.real F64.zero = 0 := by unfold F64.real; simp [F64.zero]
    rw [this]; exact ⟨by simp, by simp⟩
  obtain ⟨y, y1, y2⟩ := add_near (q32.mono le_rfl (show _ ≤ 7 * η + 36 * ur by linarith) (by positivity)) hz00 (by linarith)
    (toM (by linarith only [hsmall, hM257, hx0, hDh0, hAz0, hF0, cN, w0, hMpos]))
  refine ⟨y, ?_, ?_⟩
  · unfold milsteinStep
    simp only [d1, v1, e1, xu1, xd1, up1, dn1, df1, two1, hf1, sl1, vs1, zz1, sq1, pr1, half1, cr1, dh1, vz1, q11, q21, q31, y1,
      Option.bind_eq_bind, Option.bind_some]
  · replace y2 := y2.1
    rw [show 7 * η + 36 * ur + 2 * ur = 7 * η + 38 * ur by ring] at y2
    have ev : F64.real x + b t (F64.real x) * F64.real dt + s t (F64.real x) * F64.real z +
        1 / 2 * (s t (F64.real x) * ((s t (F64.real x + 1 / 100000) - s t (F64.real x - 1 / 100000)) / 2 * (1 / 100000)) *
          (F64.real z * F64.real z - F64.real dt)) + 0 = milsteinExact b s (F64.real dt) (F64.real z) t (F64.real x) := by
      unfold milsteinExact; ring
    rw [ev] at y2
    refine y2.trans (mul_le_mul_of_nonneg_left ?_ (by positivity))
    have es : milsteinSize B C S T (F64.real dt) (F64.real z) (F64.real x) =
        |F64.real x| + D * F64.real dt + A * |F64.real z| + A * A / 100000 * (F64.real z * F64.real z + F64.real dt + F) + F := by
      unfold milsteinSize; rw [hA, hD, hF]
    rw [es, hQ, hdta, ← abs_mul_abs_self (F64.real z)]
    have : A * (A * (1 / 100000)) * (|F64.real z| * |F64.real z| + F + F64.real dt) =
      A * A / 100000 * (|F64.real z| * |F64.real z| + F64.real dt + F) := by ring
    linarith

theorem runWith_next {step : F64 → F64 → F64 → Option F64} {times : List F64} {z : ℕ → F64} {x0 : F64} (n : ℕ) :
    ∀ {p : List F64}, runWith step times z x0 n = some p → p.length = n + 1 ∧ ∀ k < n, ∀ t x y, times[k]? = some t → p[k]? = some x →
      p[k + 1]? = some y → step t (z k) x = some y := by
  induction n with
  | zero => intro p hp; cases hp; exact ⟨rfl, fun k hk => absurd hk (by omega)⟩
  | succ n ih =>
    intro p hp
    simp only [runWith, Option.bind_eq_bind, Option.bind_eq_some_iff, Option.pure_def, Option.some.injEq] at hp
    obtain ⟨q, hq, t, ht, x, hx, y, hy, rfl⟩ := hp
    obtain ⟨i1, i2⟩ := ih hq
    refine ⟨by simp [i1], fun k hk t' x' y' h1 h2 h3 => ?_⟩
    rw [List.getElem?_append_left (by omega)] at h2
    rcases Nat.lt_succ_iff_lt_or_eq.1 hk with hk | rfl
    · rw [List.getElem?_append_left (by omega)] at h3
      exact i2 k hk t' x' y' h1 h2 h3
    · rw [List.getElem?_append_right (by omega), i1] at h3
      simp only [Nat.sub_self, List.getElem?_cons_zero, Option.some.injEq] at h3
      rw [ht] at h1
      rw [hx] at h2
      cases h1; cases h2; cases h3
      exact hy

end Verif.Float.Sim
