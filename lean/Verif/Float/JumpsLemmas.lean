import Verif.Float.JumpsSpec
import Verif.Float.SimulationRun

/-! Helper lemmas: rounded paths with jumps. -/

namespace Verif.Float.Sim

open Verif.Float.Fft (ur mu top rnd_real add_real sub_real toF64_total ur_pos mu_pos ur_le)

theorem zero_real : F64.real F64.zero = 0 := by unfold F64.real F64.zero; norm_num

theorem add_zero_f (q : F64) : q.add F64.zero = some q := by
  unfold F64.add
  rw [show q.val + F64.zero.val = q.val by simp [F64.zero]]
  exact toF64_val q

/-- A step with a jump is a step without, and then the jump. -/
theorem jumpStep_eq {P : Process} {dt scale t z j x y : F64} (h : emStep P dt scale t z x = some y) :
    jumpStep P dt scale t z j x = y.add j := by
  simp only [emStep, Option.bind_eq_bind, Option.bind_eq_some_iff] at h
  obtain ⟨a, ha, p, hp, q, hq, b, hb, c, hc, d, hd, e, he, hy⟩ := h
  rw [add_zero_f] at hy
  cases hy
  simp only [jumpStep, Option.bind_eq_bind, ha, hp, hq, hb, hc, hd, he, Option.bind_some]

theorem last_add {v y e W J η u : ℝ} (hη0 : 0 ≤ η + 10 * u) (hu : 0 ≤ u) (hη : η ≤ 1 / 500) (hu1 : u ≤ 1 / 10 ^ 6) (he : |e| ≤ W)
    (hy : |y - e| ≤ (η + 10 * u) * W) (hv : |v - (y + J)| ≤ u * |y + J|) : |v - (e + J)| ≤ (η + 12 * u) * (W + |J|) ∧ |y + J| ≤ 2 * (W + |J|) := by
  have hW : 0 ≤ W := (abs_nonneg _).trans he
  have hJ := abs_nonneg J
  have h1 : (η + 10 * u) * W ≤ 1 / 100 * W := mul_le_mul_of_nonneg_right (by linarith) hW
  have h2 : |y| ≤ 101 / 100 * W := by
    have := abs_add_le (y - e) e
    rw [sub_add_cancel] at this
    linarith
  have h3 : |y + J| ≤ 2 * (W + |J|) := (abs_add_le _ _).trans (by linarith)
  refine ⟨?_, h3⟩
  have h4 := mul_le_mul_of_nonneg_left h3 hu
  have a := abs_add_le (v - (y + J)) (y - e)
  rw [show v - (y + J) + (y - e) = v - (e + J) by ring] at a
  have h6 : 0 ≤ (η + 10 * u) * |J| := mul_nonneg hη0 hJ
  linarith

theorem sizeJumps_pos {B C S T dt scale x0 : ℝ} {z : ℕ → F64} {J : ℕ → ℝ} (hB : 0 ≤ B) (hC : 0 ≤ C) (hS : 0 ≤ S) (hT : 0 ≤ T)
    (hdt : 0 ≤ dt) (hsc : 0 ≤ scale) (k : ℕ) : 0 < sizeJumps B C S T dt scale z J x0 k := by
  induction k with
  | zero => unfold sizeJumps; positivity
  | succ k ih =>
    simp only [sizeJumps]
    have := abs_nonneg (F64.real (z k))
    positivity

theorem sizeJumps_mono {B C S T dt scale x0 : ℝ} {z : ℕ → F64} {J : ℕ → ℝ} (hB : 0 ≤ B) (hC : 0 ≤ C) (hS : 0 ≤ S) (hT : 0 ≤ T)
    (hdt : 0 ≤ dt) (hsc : 0 ≤ scale) : Monotone (sizeJumps B C S T dt scale z J x0) := by
  refine monotone_nat_of_le_succ fun k => ?_
  have h := sizeJumps_pos (x0 := x0) (z := z) (J := J) hB hC hS hT hdt hsc k
  have := abs_nonneg (F64.real (z k))
  have h3 := abs_nonneg (J k)
  conv_rhs => simp only [sizeJumps]
  have h1 : 0 ≤ (B * sizeJumps B C S T dt scale z J x0 k + C) * dt := by positivity
  have h2 : 0 ≤ (S * sizeJumps B C S T dt scale z J x0 k + T) * scale * |F64.real (z k)| := by positivity
  linarith

theorem sizeJumps_scale {B C S T r q dt sc h g x0 : ℝ} {z : ℕ → F64} {J : ℕ → ℝ} (h1 : r * dt = h) (h2 : q * sc = g) (k : ℕ) :
    sizeJumps (B * r) (C * r) (S * q) (T * q) dt sc z J x0 k = sizeJumps B C S T h g z J x0 k := by
  induction k with
  | zero => rfl
  | succ k ih => simp only [sizeJumps]; rw [ih, ← h1, ← h2]; ring

theorem eulerJumps_scale {b s : F64 → ℝ → ℝ} {r q dt sc h g x0 : ℝ} {time z : ℕ → F64} {J : ℕ → ℝ} (h1 : r * dt = h) (h2 : q * sc = g)
    (k : ℕ) : eulerJumps (fun t x => b t x * r) (fun t x => s t x * q) dt sc time z J x0 k = eulerJumps b s h g time z J x0 k := by
  induction k with
  | zero => rfl
  | succ k ih => simp only [eulerJumps]; rw [ih, ← h1, ← h2]; ring

/-- The error after a step with a jump. -/
theorem error_jump {x X bx bX sx sX dt sc z J y g M B C S T ε K : ℝ} (hg : 0 ≤ g) (hdt : 0 ≤ dt) (hsc : 0 ≤ sc)
    (hB : 0 ≤ B) (hC : 0 ≤ C) (hS : 0 ≤ S) (hT : 0 ≤ T) (hε : 0 ≤ ε)
    (hX : |x - X| ≤ g * M) (hx : |x| + K ≤ (1 + g) * M) (hb : |bx - bX| ≤ B * |x - X|) (hs : |sx - sX| ≤ S * |x - X|)
    (hb' : |bx| ≤ B * |x| + C) (hs' : |sx| ≤ S * |x| + T) (hK : 0 ≤ K)
    (hy : |y - (x + bx * dt + sx * sc * z + J)| ≤
      ε * ((1 + g) * M + (B * ((1 + g) * M) + C) * dt + (S * ((1 + g) * M) + T) * sc * |z| + |J|)) :
    |y - (X + bX * dt + sX * sc * z + J)| ≤ ((1 + ε) * (1 + g) - 1) * (M + (B * M + C) * dt + (S * M + T) * sc * |z| + |J|) ∧
      |y| + K ≤ (1 + ε) * (1 + g) * (M + (B * M + C) * dt + (S * M + T) * sc * |z| + |J|) := by
  have hz := abs_nonneg z
  have hJ : 0 ≤ g * |J| := mul_nonneg hg (abs_nonneg J)
  have e0 : (1 + g) * M + (B * ((1 + g) * M) + C) * dt + (S * ((1 + g) * M) + T) * sc * |z| + |J| ≤
      (1 + g) * (M + (B * M + C) * dt + (S * M + T) * sc * |z| + |J|) := by
    have h1 : 0 ≤ g * (C * dt) := by positivity
    have h2 : 0 ≤ g * (T * sc * |z|) := by positivity
    linarith
  have hy' := hy.trans (mul_le_mul_of_nonneg_left e0 hε)
  have b1 : |bx - bX| * dt ≤ g * ((B * M + C) * dt) := by
    have h1 : |bx - bX| ≤ B * (g * M) := hb.trans (mul_le_mul_of_nonneg_left hX hB)
    have h2 := mul_le_mul_of_nonneg_right h1 hdt
    have h3 : 0 ≤ g * (C * dt) := by positivity
    linarith
  have s1 : |sx - sX| * sc * |z| ≤ g * ((S * M + T) * sc * |z|) := by
    have h1 : |sx - sX| ≤ S * (g * M) := hs.trans (mul_le_mul_of_nonneg_left hX hS)
    have h2 := mul_le_mul_of_nonneg_right (mul_le_mul_of_nonneg_right h1 hsc) hz
    have h3 : 0 ≤ g * (T * sc * |z|) := by positivity
    linarith
  have hxg : |x| ≤ (1 + g) * M := by linarith
  have b2 : |bx| * dt ≤ (1 + g) * ((B * M + C) * dt) := by
    have h1 : |bx| ≤ B * ((1 + g) * M) + C := hb'.trans (by have := mul_le_mul_of_nonneg_left hxg hB; linarith)
    have h2 := mul_le_mul_of_nonneg_right h1 hdt
    have h3 : 0 ≤ g * (C * dt) := by positivity
    linarith
  have s2 : |sx| * sc * |z| ≤ (1 + g) * ((S * M + T) * sc * |z|) := by
    have h1 : |sx| ≤ S * ((1 + g) * M) + T := hs'.trans (by have := mul_le_mul_of_nonneg_left hxg hS; linarith)
    have h2 := mul_le_mul_of_nonneg_right (mul_le_mul_of_nonneg_right h1 hsc) hz
    have h3 : 0 ≤ g * (T * sc * |z|) := by positivity
    linarith
  constructor
  · rw [show y - (X + bX * dt + sX * sc * z + J) =
      (y - (x + bx * dt + sx * sc * z + J)) + ((x - X) + ((bx - bX) * dt + (sx - sX) * sc * z)) by ring]
    have a1 := abs_add_le (y - (x + bx * dt + sx * sc * z + J)) ((x - X) + ((bx - bX) * dt + (sx - sX) * sc * z))
    have a2 := abs_add_le (x - X) ((bx - bX) * dt + (sx - sX) * sc * z)
    have a3 := abs_add_le ((bx - bX) * dt) ((sx - sX) * sc * z)
    rw [abs_mul, abs_mul, abs_mul, abs_of_nonneg hdt, abs_of_nonneg hsc] at a3
    linarith
  · have a1 := abs_add_le (y - (x + bx * dt + sx * sc * z + J)) (x + (bx * dt + sx * sc * z) + J)
    rw [show y - (x + bx * dt + sx * sc * z + J) + (x + (bx * dt + sx * sc * z) + J) = y by ring] at a1
    have a4 := abs_add_le (x + (bx * dt + sx * sc * z)) J
    have a2 := abs_add_le x (bx * dt + sx * sc * z)
    have a3 := abs_add_le (bx * dt) (sx * sc * z)
    rw [abs_mul, abs_mul, abs_mul, abs_of_nonneg hdt, abs_of_nonneg hsc] at a3
    linarith

/-- The whole path. -/
theorem jump_close {P : Process} {b s : F64 → ℝ → ℝ} {B C S T η : ℝ} (hη : 0 ≤ η) (hη1 : η ≤ 1 / 1000)
    (hd : Tracks P.drift b B C η) (hs : Tracks P.diffusion s S T η) {dt scale x0 : F64} {times jumps : List F64} {z : ℕ → F64}
    {sizes : ℕ → Option F64} {J : ℕ → ℝ} {n : ℕ} (hJ : ∀ k < n, ∃ j, jumpTerm jumps sizes k = some j ∧ F64.real j = J k)
    (hdt : 0 ≤ F64.real dt) (hdt1 : F64.real dt ≤ 2 ^ 20) (hsc : 0 ≤ F64.real scale) (hsc1 : F64.real scale ≤ 2 ^ 20)
    (hz : ∀ k < n, |F64.real (z k)| ≤ 2 ^ 20) (ht : n < times.length) (hgrow : (1 + (η + 12 * ur)) ^ n ≤ 2)
    (hsize : sizeJumps B C S T (F64.real dt) (F64.real scale) z J (F64.real x0) n ≤ 2 ^ 899) (k : ℕ) (hk : k ≤ n) :
    ∃ p, jumpPath P dt scale times jumps z sizes x0 k = some p ∧ p.length = k + 1 ∧ ∀ j ≤ k, ∃ x, p[j]? = some x ∧
      |F64.real x - eulerJumps b s (F64.real dt) (F64.real scale) (fun i => times.getD i F64.zero) z J (F64.real x0) j| ≤
        ((1 + (η + 12 * ur)) ^ j - 1) * sizeJumps B C S T (F64.real dt) (F64.real scale) z J (F64.real x0) j ∧
      |F64.real x| + 2 ^ (-900 : ℤ) ≤
        (1 + (η + 12 * ur)) ^ j * sizeJumps B C S T (F64.real dt) (F64.real scale) z J (F64.real x0) j := by
  have hu := ur_pos
  have hu6 : ur ≤ 1 / 10 ^ 6 := by unfold ur; norm_num
  have hε : 0 ≤ η + 12 * ur := by positivity
  induction k with
  | zero =>
    refine ⟨[x0], rfl, rfl, fun j hj => ⟨x0, by rw [Nat.le_zero.1 hj]; rfl, ?_, ?_⟩⟩
    · rw [Nat.le_zero.1 hj]; simp [eulerJumps]
    · rw [Nat.le_zero.1 hj]; simp [sizeJumps]
  | succ k ih =>
    obtain ⟨p, h1, h2, h3⟩ := ih (by omega)
    obtain ⟨x, hx1, hx2, hx3⟩ := h3 k le_rfl
    set M := sizeJumps B C S T (F64.real dt) (F64.real scale) z J (F64.real x0) with hM
    have hM0 : 0 < M k := sizeJumps_pos hd.slope.1 hd.offset.1 hs.slope.1 hs.offset.1 hdt hsc k
    have hMk : M (k + 1) ≤ 2 ^ 899 :=
      (sizeJumps_mono hd.slope.1 hd.offset.1 hs.slope.1 hs.offset.1 hdt hsc hk).trans hsize
    have hMs : M (k + 1) = M k + (B * M k + C) * F64.real dt + (S * M k + T) * F64.real scale * |F64.real (z k)| + |J k| := by
      rw [hM]; rfl
    have hpk : (1 + (η + 12 * ur)) ^ k ≤ 2 := (pow_le_pow_right₀ (by linarith) (by omega)).trans hgrow
    have hp1 : 1 ≤ (1 + (η + 12 * ur)) ^ k := one_le_pow₀ (by linarith)
    set g := (1 + (η + 12 * ur)) ^ k - 1 with hg
    have hg0 : 0 ≤ g := by linarith
    have hg1 : (1 + (η + 12 * ur)) ^ k = 1 + g := by rw [hg]; ring
    rw [hg1] at hx3 hpk
    have hz0 := abs_nonneg (F64.real (z k))
    have hJ0 := abs_nonneg (J k)
    have hfin : (1 + g) * M k + (B * ((1 + g) * M k) + C) * F64.real dt +
        (S * ((1 + g) * M k) + T) * F64.real scale * |F64.real (z k)| + |J k| ≤ 2 ^ 900 := by
      have c1 : 0 ≤ g * (C * F64.real dt) := mul_nonneg hg0 (mul_nonneg hd.offset.1 hdt)
      have c2 : 0 ≤ g * (T * F64.real scale * |F64.real (z k)|) :=
        mul_nonneg hg0 (mul_nonneg (mul_nonneg hs.offset.1 hsc) hz0)
      have c5 : 0 ≤ g * |J k| := mul_nonneg hg0 hJ0
      have c3 : (1 + g) * M (k + 1) ≤ 2 * 2 ^ 899 :=
        mul_le_mul hpk hMk (by rw [hM]; exact (sizeJumps_pos hd.slope.1 hd.offset.1 hs.slope.1 hs.offset.1 hdt hsc _).le) (by norm_num)
      have c4 : (2 : ℝ) * 2 ^ 899 = 2 ^ 900 := by rw [pow_succ (2 : ℝ) 899]; ring
      rw [hMs] at c3
      refine le_trans ?_ (c3.trans c4.le)
      clear c3 c4 hMk hsize
      linarith
    have htk : times[k]? = some (times.getD k F64.zero) := by
      rw [List.getElem?_eq_getElem (by omega), List.getD_eq_getElem?_getD, List.getElem?_eq_getElem (by omega)]; rfl
    have hK : (0 : ℝ) < 2 ^ (-900 : ℤ) := by positivity
    have hxm : |F64.real x| ≤ (1 + g) * M k := by linarith only [hx3, hK]
    obtain ⟨y0, hy01, hy02⟩ := step_close (t := times.getD k F64.zero) hη hη1 hd hs hdt hdt1 hsc hsc1 (hz k (by omega)) hx3
      (le_trans (le_add_of_nonneg_right hJ0) hfin)
    obtain ⟨j, hj1, hj2⟩ := hJ k (by omega)
    have he : |F64.real x + b (times.getD k F64.zero) (F64.real x) * F64.real dt +
        s (times.getD k F64.zero) (F64.real x) * F64.real scale * F64.real (z k)| ≤
        (1 + g) * M k + (B * ((1 + g) * M k) + C) * F64.real dt + (S * ((1 + g) * M k) + T) * F64.real scale * |F64.real (z k)| := by
      have a1 := abs_add_le (F64.real x + b (times.getD k F64.zero) (F64.real x) * F64.real dt)
        (s (times.getD k F64.zero) (F64.real x) * F64.real scale * F64.real (z k))
      have a2 := abs_add_le (F64.real x) (b (times.getD k F64.zero) (F64.real x) * F64.real dt)
      rw [abs_mul, abs_of_nonneg hdt] at a2
      rw [abs_mul, abs_mul _ (F64.real scale), abs_of_nonneg hsc] at a1
      have q1 : |b (times.getD k F64.zero) (F64.real x)| ≤ B * ((1 + g) * M k) + C :=
        (hd.growth _ _).trans (add_le_add_left (mul_le_mul_of_nonneg_left hxm hd.slope.1) _)
      have q2 : |s (times.getD k F64.zero) (F64.real x)| ≤ S * ((1 + g) * M k) + T :=
        (hs.growth _ _).trans (add_le_add_left (mul_le_mul_of_nonneg_left hxm hs.slope.1) _)
      have q3 := mul_le_mul_of_nonneg_right q1 hdt
      have q4 := mul_le_mul_of_nonneg_right (mul_le_mul_of_nonneg_right q2 hsc) hz0
      linarith only [a1, a2, q3, q4, hxm]
    have hroom := (last_add (v := F64.real y0 + J k) (by positivity) hu.le (show η ≤ 1 / 500 by linarith only [hη1]) hu6 he hy02
      (by rw [sub_self, abs_zero]; exact mul_nonneg hu.le (abs_nonneg _))).2
    have htop : |F64.real y0 + F64.real j| ≤ top := by
      rw [hj2]
      refine top_big (hroom.trans ((mul_le_mul_of_nonneg_left hfin (by norm_num)).trans ?_))
      rw [← pow_succ']
      exact pow_le_pow_right₀ (by norm_num) (by norm_num)
    obtain ⟨y, hy1, hy2⟩ := addR htop
    rw [hj2] at hy2
    have hy4 := (last_add (by positivity) hu.le (show η ≤ 1 / 500 by linarith only [hη1]) hu6 he hy02 hy2).1
    have hy3 := error_jump (y := F64.real y) hg0 hdt hsc hd.slope.1 hd.offset.1 hs.slope.1 hs.offset.1 hε hx2 hx3
      (hd.lipschitz (times.getD k F64.zero) _ _) (hs.lipschitz (times.getD k F64.zero) _ _)
      (hd.growth (times.getD k F64.zero) _) (hs.growth (times.getD k F64.zero) _) hK.le hy4
    refine ⟨p ++ [y], ?_, by simp [h2], fun i hi => ?_⟩
    · simp only [jumpPath, h1, htk, hx1, hj1, Option.bind_eq_bind, Option.bind_some, jumpStep_eq hy01, hy1]
      rfl
    · rcases Nat.lt_or_ge i (k + 1) with h | h
      · obtain ⟨w, hw, hw'⟩ := h3 i (by omega)
        exact ⟨w, by rw [List.getElem?_append_left (by omega)]; exact hw, hw'⟩
      · have hi' : i = k + 1 := by omega
        subst hi'
        refine ⟨y, by rw [List.getElem?_append_right (by omega), h2]; simp, ?_⟩
        rw [pow_succ', hg1, hMs]
        exact hy3

end Verif.Float.Sim
