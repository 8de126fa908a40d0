import Verif.Float.SimulationLemmas

/-! Helper lemmas: the rounded Euler-Maruyama path. -/

namespace Verif.Float.Sim

open Verif.Float.Fft (ur mu top rnd_real add_real sub_real toF64_total ur_pos mu_pos ur_le)

theorem nu_small : (2 : ℝ) ^ 45 * nu ≤ ur * 2 ^ (-900 : ℤ) := by
  unfold nu ur
  rw [show (2 : ℝ) ^ 45 = 2 ^ (45 : ℤ) by norm_num, ← zpow_add₀ (by norm_num), ← zpow_add₀ (by norm_num)]
  exact zpow_le_zpow_right₀ (by norm_num) (by norm_num)

theorem top_big {y : ℝ} (h : y ≤ 2 ^ 1000) : y ≤ top := h.trans (pow_le_pow_right₀ (by norm_num) (by norm_num))

theorem nu_le_one : nu ≤ 1 := by
  unfold nu
  rw [← zpow_zero (2 : ℝ)]
  exact zpow_le_zpow_right₀ (by norm_num) (by norm_num)

theorem big_mul {a b : ℝ} {i j : ℕ} (ha : |a| ≤ 2 ^ i) (hb : |b| ≤ 2 ^ j) (h : i + j ≤ 1000) : |a * b| ≤ top := by
  apply top_big
  rw [abs_mul]
  calc |a| * |b| ≤ 2 ^ i * 2 ^ j := mul_le_mul ha hb (abs_nonneg _) (by positivity)
    _ = 2 ^ (i + j) := (pow_add _ _ _).symm
    _ ≤ 2 ^ 1000 := pow_le_pow_right₀ (by norm_num) h

theorem fin1 {y d g h A p q μ : ℝ} (h9 : y ≤ d + g) (h2 : d ≤ h + μ) (h6 : h ≤ 1 / 1000 * A) (h3 : g ≤ A) (h4 : A ≤ p) (h7 : q = 2 * p)
    (h8 : 1000 ≤ p) (h1 : μ ≤ 1) : y ≤ q := by linarith

theorem fin2 {X m P Q μ t T9 : ℝ} (h : X ≤ m + 2 * P + 2 ^ 21 * μ) (hm : m + P + Q ≤ T9) (h1 : 0 ≤ m) (h2 : 0 ≤ P) (h3 : 0 ≤ Q)
    (h4 : μ ≤ 1) (h5 : T9 * 8 + 2 ^ 50 ≤ t) : X ≤ t := by linarith

theorem fin3 {X Y r w v q m P Q μ t T9 : ℝ} (h : X ≤ m + 2 * P + 2 ^ 21 * μ) (hm : m + P + Q ≤ T9) (h1 : 0 ≤ m) (h2 : 0 ≤ P)
    (h3 : 0 ≤ Q) (h4 : μ ≤ 1) (h0 : 0 ≤ μ) (h5 : T9 * 8 + 2 ^ 50 ≤ t) (hr : r ≤ w + X) (hw : w ≤ v) (hv : v ≤ 1 / 1000 * X) (hq : q ≤ 2 * Q + 2 ^ 43 * μ)
    (hY : Y ≤ r + q) : Y ≤ t := by linarith

theorem mulR' {a b : F64} (h : |F64.real a * F64.real b| ≤ top) :
    ∃ r, a.mul b = some r ∧ |F64.real r - F64.real a * F64.real b| ≤ ur * |F64.real a * F64.real b| + nu := by
  obtain ⟨r, h1, h2⟩ := mulR h
  exact ⟨r, h1, by have := nu_eq; have := mu_pos; linarith⟩

/-- `Computes` with wider bounds. -/
structure Tracks (f : F64 → F64 → Option F64) (b : F64 → ℝ → ℝ) (B C η : ℝ) : Prop where
  slope : 0 ≤ B ∧ B ≤ 2 ^ 20
  offset : 0 ≤ C ∧ C ≤ 2 ^ 900
  lipschitz : ∀ t x y, |b t x - b t y| ≤ B * |x - y|
  growth : ∀ t x, |b t x| ≤ B * |x| + C
  computed : ∀ x t, |F64.real x| ≤ 2 ^ 900 →
    ∃ y, f x t = some y ∧ |F64.real y - b t (F64.real x)| ≤ η * (B * |F64.real x| + C) + nu

/-- One step from a value of size at most `m`: everything is finite, and the result is close to the exact step from that value. -/
theorem step_close {P : Process} {b s : F64 → ℝ → ℝ} {B C S T η m : ℝ} (hη : 0 ≤ η) (hη1 : η ≤ 1 / 1000)
    (hd : Tracks P.drift b B C η) (hs : Tracks P.diffusion s S T η) {dt scale z t x : F64}
    (hdt : 0 ≤ F64.real dt) (hdt1 : F64.real dt ≤ 2 ^ 20) (hsc : 0 ≤ F64.real scale) (hsc1 : F64.real scale ≤ 2 ^ 20)
    (hz : |F64.real z| ≤ 2 ^ 20) (hx : |F64.real x| + 2 ^ (-900 : ℤ) ≤ m)
    (hm : m + (B * m + C) * F64.real dt + (S * m + T) * F64.real scale * |F64.real z| ≤ 2 ^ 900) :
    ∃ y, emStep P dt scale t z x = some y ∧
      |F64.real y - (F64.real x + b t (F64.real x) * F64.real dt + s t (F64.real x) * F64.real scale * F64.real z)| ≤
        (η + 10 * ur) * (m + (B * m + C) * F64.real dt + (S * m + T) * F64.real scale * |F64.real z|) := by
  have hK : (0 : ℝ) < 2 ^ (-900 : ℤ) := by positivity
  have hu := ur_pos
  have hu1 := ur_le
  have hμ := nu_pos
  have hμ1 := nu_le_one
  have hxm : |F64.real x| ≤ m := by linarith
  have hm0 : 0 ≤ m := (abs_nonneg _).trans hxm
  have hP0 : 0 ≤ (B * m + C) * F64.real dt := mul_nonneg (add_nonneg (mul_nonneg hd.slope.1 hm0) hd.offset.1) hdt
  have hQ0 : 0 ≤ (S * m + T) * F64.real scale * |F64.real z| :=
    mul_nonneg (mul_nonneg (add_nonneg (mul_nonneg hs.slope.1 hm0) hs.offset.1) hsc) (abs_nonneg _)
  have hx9 : |F64.real x| ≤ 2 ^ 900 := by linarith
  have hm9 : m ≤ 2 ^ 900 := by linarith
  have grow : ∀ {f : F64 → F64 → Option F64} {g : F64 → ℝ → ℝ} {L G : ℝ}, Tracks f g L G η →
      ∃ y, f x t = some y ∧ |F64.real y - g t (F64.real x)| ≤ η * (L * |F64.real x| + G) + nu ∧
        |g t (F64.real x)| ≤ L * |F64.real x| + G ∧ L * |F64.real x| + G ≤ L * m + G ∧ |F64.real y| ≤ 2 ^ 922 := by
    intro f g L G h
    obtain ⟨y, h1, h2⟩ := h.computed x t hx9
    refine ⟨y, h1, h2, h.growth _ _, by have := mul_le_mul_of_nonneg_left hxm h.slope.1; linarith, ?_⟩
    have h3 := h.growth t (F64.real x)
    have h4 : L * |F64.real x| + G ≤ 2 ^ 921 := by
      have := mul_le_mul h.slope.2 hx9 (abs_nonneg _) (by positivity : (0 : ℝ) ≤ 2 ^ 20)
      have e : (2 : ℝ) ^ 20 * 2 ^ 900 = 2 ^ 920 := by rw [← pow_add]
      have e' : (2 : ℝ) ^ 900 ≤ 2 ^ 920 := pow_le_pow_right₀ (by norm_num) (by norm_num)
      have e'' : (2 : ℝ) ^ 921 = 2 ^ 920 + 2 ^ 920 := by rw [pow_succ (2 : ℝ) 920]; ring
      exact le_trans (_root_.add_le_add (this.trans e.le) (h.offset.2.trans e')) e''.ge
    have h5 : 0 ≤ L * |F64.real x| + G := (abs_nonneg _).trans h3
    have h6 : η * (L * |F64.real x| + G) ≤ 1 / 1000 * (L * |F64.real x| + G) := mul_le_mul_of_nonneg_right hη1 h5
    have h7 : (2 : ℝ) ^ 922 = 2 * 2 ^ 921 := by rw [pow_succ (2 : ℝ) 921]; ring
    have h8 : (1000 : ℝ) ≤ 2 ^ 921 := le_trans (by norm_num) (pow_le_pow_right₀ (by norm_num) (by norm_num : 10 ≤ 921))
    have h9 := abs_add_le (F64.real y - g t (F64.real x)) (g t (F64.real x))
    rw [sub_add_cancel] at h9
    have h2 : |F64.real y - g t (F64.real x)| ≤ η * (L * |F64.real x| + G) + nu := h2
    exact fin1 h9 h2 h6 h3 h4 h7 h8 hμ1
  obtain ⟨a, ha, ha1, ha2, ha3, ha4⟩ := grow hd
  obtain ⟨c, hc, hc1, hc2, hc3, hc4⟩ := grow hs
  obtain ⟨p, hp, hp1⟩ := mulR' (a := a) (b := dt) (big_mul ha4 (by rw [abs_of_nonneg hdt]; exact hdt1) (by norm_num))
  obtain ⟨tp1, tp2⟩ := term1 hu.le hu1 hη hη1 hμ.le ha1 ha2 hdt hdt1 (mul_le_mul_of_nonneg_right ha3 hdt) hp1
  obtain ⟨c', hc', hc1'⟩ := mulR' (a := c) (b := scale) (big_mul hc4 (by rw [abs_of_nonneg hsc]; exact hsc1) (by norm_num))
  have hb : |F64.real c'| ≤ 2 ^ 943 := by
    have h1 : |F64.real c * F64.real scale| ≤ 2 ^ 942 := by
      rw [abs_mul, abs_of_nonneg hsc]
      calc |F64.real c| * F64.real scale ≤ 2 ^ 922 * 2 ^ 20 := mul_le_mul hc4 hsc1 hsc (by positivity)
        _ = 2 ^ 942 := by rw [← pow_add]
    have h2 := abs_add_le (F64.real c' - F64.real c * F64.real scale) (F64.real c * F64.real scale)
    rw [sub_add_cancel] at h2
    have h3 : ur * |F64.real c * F64.real scale| ≤ 1 / 1000 * |F64.real c * F64.real scale| :=
      mul_le_mul_of_nonneg_right hu1 (abs_nonneg _)
    have h7 : (2 : ℝ) ^ 943 = 2 * 2 ^ 942 := by rw [pow_succ (2 : ℝ) 942]; ring
    have h8 : (1000 : ℝ) ≤ 2 ^ 942 := le_trans (by norm_num) (pow_le_pow_right₀ (by norm_num) (by norm_num : 10 ≤ 942))
    exact fin1 h2 hc1' h3 le_rfl h1 h7 h8 hμ1
  obtain ⟨q, hq, hq1⟩ := mulR' (a := c') (b := z) (big_mul hb hz (by norm_num))
  have hSQ : (S * |F64.real x| + T) * F64.real scale * |F64.real z| ≤ (S * m + T) * F64.real scale * |F64.real z| :=
    mul_le_mul_of_nonneg_right (mul_le_mul_of_nonneg_right hc3 hsc) (abs_nonneg _)
  obtain ⟨tq1, tq2⟩ := term2 hu.le hu1 hη hη1 hμ.le hc1 hc2 hsc hsc1 hz hSQ hc1' hq1
  set Pm := (B * m + C) * F64.real dt with hPm
  set Qm := (S * m + T) * F64.real scale * |F64.real z| with hQm
  have hbig : (2 : ℝ) ^ 900 * 8 + 2 ^ 50 ≤ top := by
    apply top_big
    have : (2 : ℝ) ^ 50 ≤ 2 ^ 900 := pow_le_pow_right₀ (by norm_num) (by norm_num)
    have h0 : (0 : ℝ) ≤ 2 ^ 900 := by positivity
    calc (2 : ℝ) ^ 900 * 8 + 2 ^ 50 ≤ 2 ^ 900 * 16 := by
          generalize (2 : ℝ) ^ 900 = t9 at this h0 ⊢
          linarith
      _ = 2 ^ 904 := by rw [show (16 : ℝ) = 2 ^ 4 by norm_num, ← pow_add]
      _ ≤ 2 ^ 1000 := pow_le_pow_right₀ (by norm_num) (by norm_num)
  have hxp : |F64.real x + F64.real p| ≤ m + 2 * Pm + 2 ^ 21 * nu := (abs_add_le _ _).trans (by linarith)
  obtain ⟨r, hr, hr1⟩ := addR (a := x) (b := p) (fin2 hxp hm hm0 hP0 hQ0 hμ1 hbig)
  have hrq : |F64.real r + F64.real q| ≤ top := by
    have h1 := abs_add_le (F64.real r - (F64.real x + F64.real p)) (F64.real x + F64.real p)
    rw [sub_add_cancel] at h1
    have h2 := abs_add_le (F64.real r) (F64.real q)
    have h3 : ur * |F64.real x + F64.real p| ≤ 1 / 1000 * |F64.real x + F64.real p| :=
      mul_le_mul_of_nonneg_right hu1 (abs_nonneg _)
    exact fin3 hxp hm hm0 hP0 hQ0 hμ1 hμ.le hbig h1 hr1 h3 tq2 h2
  obtain ⟨w, hw, hw1⟩ := addR (a := r) (b := q) hrq
  refine ⟨w, ?_, ?_⟩
  · unfold emStep
    simp only [ha, hc, hp, hc', hq, hr, hw, Option.bind_eq_bind, Option.bind_some]
    exact add_zero_some w
  · refine sums hu.le hu1 hη hμ.le hP0 hQ0 tp1 tp2 tq1 tq2 hxm ?_ hr1 hw1
    refine nu_small.trans (mul_le_mul_of_nonneg_left ?_ hu.le)
    linarith [abs_nonneg (F64.real x)]

theorem size_pos {B C S T dt scale x0 : ℝ} {z : ℕ → F64} (hB : 0 ≤ B) (hC : 0 ≤ C) (hS : 0 ≤ S) (hT : 0 ≤ T) (hdt : 0 ≤ dt)
    (hsc : 0 ≤ scale) (k : ℕ) : 0 < size B C S T dt scale z x0 k := by
  induction k with
  | zero => unfold size; positivity
  | succ k ih =>
    unfold size
    have := abs_nonneg (F64.real (z k))
    positivity

theorem size_mono {B C S T dt scale x0 : ℝ} {z : ℕ → F64} (hB : 0 ≤ B) (hC : 0 ≤ C) (hS : 0 ≤ S) (hT : 0 ≤ T) (hdt : 0 ≤ dt)
    (hsc : 0 ≤ scale) : Monotone (size B C S T dt scale z x0) := by
  refine monotone_nat_of_le_succ fun k => ?_
  have h := size_pos (x0 := x0) (z := z) hB hC hS hT hdt hsc k
  have := abs_nonneg (F64.real (z k))
  conv_rhs => unfold size
  have h1 : 0 ≤ (B * size B C S T dt scale z x0 k + C) * dt := by positivity
  have h2 : 0 ≤ (S * size B C S T dt scale z x0 k + T) * scale * |F64.real (z k)| := by positivity
  linarith

/-- The error after a step. -/
theorem error_step {x X bx bX sx sX dt sc z y g M B C S T ε K : ℝ} (hg : 0 ≤ g) (hdt : 0 ≤ dt) (hsc : 0 ≤ sc)
    (hB : 0 ≤ B) (hC : 0 ≤ C) (hS : 0 ≤ S) (hT : 0 ≤ T) (hM : 0 ≤ M) (hε : 0 ≤ ε)
    (hX : |x - X| ≤ g * M) (hx : |x| + K ≤ (1 + g) * M) (hb : |bx - bX| ≤ B * |x - X|) (hs : |sx - sX| ≤ S * |x - X|)
    (hb' : |bx| ≤ B * |x| + C) (hs' : |sx| ≤ S * |x| + T) (hK : 0 ≤ K)
    (hy : |y - (x + bx * dt + sx * sc * z)| ≤
      ε * ((1 + g) * M + (B * ((1 + g) * M) + C) * dt + (S * ((1 + g) * M) + T) * sc * |z|)) :
    |y - (X + bX * dt + sX * sc * z)| ≤ ((1 + ε) * (1 + g) - 1) * (M + (B * M + C) * dt + (S * M + T) * sc * |z|) ∧
      |y| + K ≤ (1 + ε) * (1 + g) * (M + (B * M + C) * dt + (S * M + T) * sc * |z|) := by
  have hz := abs_nonneg z
  have e0 : (1 + g) * M + (B * ((1 + g) * M) + C) * dt + (S * ((1 + g) * M) + T) * sc * |z| ≤
      (1 + g) * (M + (B * M + C) * dt + (S * M + T) * sc * |z|) := by
    have h1 : 0 ≤ g * (C * dt) := by positivity
    have h2 : 0 ≤ g * (T * sc * |z|) := by positivity
    linarith
  have hy' := hy.trans (mul_le_mul_of_nonneg_left e0 hε)
  have b1 : |bx - bX| * dt ≤ g * ((B * M + C) * dt) := by
    have h1 : |bx - bX| ≤ B * (g * M) := hb.trans (mul_le_mul_of_nonneg_left hX hB)
    have h2 := mul_le_mul_of_nonneg_right h1 hdt
    have h3 : 0 ≤ g * (C * dt) := by positivity
    linarith
  have s1 : |sx - sX| * sc * |z| ≤ g * ((S * M + T) * sc * |z|) := by
    have h1 : |sx - sX| ≤ S * (g * M) := hs.trans (mul_le_mul_of_nonneg_left hX hS)
    have h2 := mul_le_mul_of_nonneg_right (mul_le_mul_of_nonneg_right h1 hsc) hz
    have h3 : 0 ≤ g * (T * sc * |z|) := by positivity
    linarith
  have hxg : |x| ≤ (1 + g) * M := by linarith
  have b2 : |bx| * dt ≤ (1 + g) * ((B * M + C) * dt) := by
    have h1 : |bx| ≤ B * ((1 + g) * M) + C := hb'.trans (by have := mul_le_mul_of_nonneg_left hxg hB; linarith)
    have h2 := mul_le_mul_of_nonneg_right h1 hdt
    have h3 : 0 ≤ g * (C * dt) := by positivity
    linarith
  have s2 : |sx| * sc * |z| ≤ (1 + g) * ((S * M + T) * sc * |z|) := by
    have h1 : |sx| ≤ S * ((1 + g) * M) + T := hs'.trans (by have := mul_le_mul_of_nonneg_left hxg hS; linarith)
    have h2 := mul_le_mul_of_nonneg_right (mul_le_mul_of_nonneg_right h1 hsc) hz
    have h3 : 0 ≤ g * (T * sc * |z|) := by positivity
    linarith
  constructor
  · rw [show y - (X + bX * dt + sX * sc * z) =
      (y - (x + bx * dt + sx * sc * z)) + ((x - X) + ((bx - bX) * dt + (sx - sX) * sc * z)) by ring]
    have a1 := abs_add_le (y - (x + bx * dt + sx * sc * z)) ((x - X) + ((bx - bX) * dt + (sx - sX) * sc * z))
    have a2 := abs_add_le (x - X) ((bx - bX) * dt + (sx - sX) * sc * z)
    have a3 := abs_add_le ((bx - bX) * dt) ((sx - sX) * sc * z)
    rw [abs_mul, abs_mul, abs_mul, abs_of_nonneg hdt, abs_of_nonneg hsc] at a3
    linarith
  · have a1 := abs_add_le (y - (x + bx * dt + sx * sc * z)) (x + (bx * dt + sx * sc * z))
    rw [show y - (x + bx * dt + sx * sc * z) + (x + (bx * dt + sx * sc * z)) = y by ring] at a1
    have a2 := abs_add_le x (bx * dt + sx * sc * z)
    have a3 := abs_add_le (bx * dt) (sx * sc * z)
    rw [abs_mul, abs_mul, abs_mul, abs_of_nonneg hdt, abs_of_nonneg hsc] at a3
    linarith

/-- The whole path. -/
theorem run_close {P : Process} {b s : F64 → ℝ → ℝ} {B C S T η : ℝ} (hη : 0 ≤ η) (hη1 : η ≤ 1 / 1000)
    (hd : Tracks P.drift b B C η) (hs : Tracks P.diffusion s S T η) {dt scale x0 : F64} {times : List F64} {z : ℕ → F64} {n : ℕ}
    (hdt : 0 ≤ F64.real dt) (hdt1 : F64.real dt ≤ 2 ^ 20) (hsc : 0 ≤ F64.real scale) (hsc1 : F64.real scale ≤ 2 ^ 20)
    (hz : ∀ k < n, |F64.real (z k)| ≤ 2 ^ 20) (ht : n < times.length) (hgrow : (1 + (η + 10 * ur)) ^ n ≤ 2)
    (hsize : size B C S T (F64.real dt) (F64.real scale) z (F64.real x0) n ≤ 2 ^ 899) (k : ℕ) (hk : k ≤ n) :
    ∃ p, runPath P dt scale times z x0 k = some p ∧ p.length = k + 1 ∧ ∀ j ≤ k, ∃ x, p[j]? = some x ∧
      |F64.real x - euler b s (F64.real dt) (F64.real scale) (fun i => times.getD i F64.zero) z (F64.real x0) j| ≤
        ((1 + (η + 10 * ur)) ^ j - 1) * size B C S T (F64.real dt) (F64.real scale) z (F64.real x0) j ∧
      |F64.real x| + 2 ^ (-900 : ℤ) ≤
        (1 + (η + 10 * ur)) ^ j * size B C S T (F64.real dt) (F64.real scale) z (F64.real x0) j := by
  have hε : 0 ≤ η + 10 * ur := by have := ur_pos; positivity
  induction k with
  | zero =>
    refine ⟨[x0], rfl, rfl, fun j hj => ⟨x0, by rw [Nat.le_zero.1 hj]; rfl, ?_, ?_⟩⟩
    · rw [Nat.le_zero.1 hj]; simp [euler]
    · rw [Nat.le_zero.1 hj]; simp [size]
  | succ k ih =>
    obtain ⟨p, h1, h2, h3⟩ := ih (by omega)
    obtain ⟨x, hx1, hx2, hx3⟩ := h3 k le_rfl
    set M := size B C S T (F64.real dt) (F64.real scale) z (F64.real x0) with hM
    have hM0 : 0 < M k := size_pos hd.slope.1 hd.offset.1 hs.slope.1 hs.offset.1 hdt hsc k
    have hMk : M (k + 1) ≤ 2 ^ 899 :=
      (size_mono hd.slope.1 hd.offset.1 hs.slope.1 hs.offset.1 hdt hsc hk).trans hsize
    have hMs : M (k + 1) = M k + (B * M k + C) * F64.real dt + (S * M k + T) * F64.real scale * |F64.real (z k)| := by
      rw [hM]; rfl
    have hpk : (1 + (η + 10 * ur)) ^ k ≤ 2 := (pow_le_pow_right₀ (by linarith) (by omega)).trans hgrow
    have hp1 : 1 ≤ (1 + (η + 10 * ur)) ^ k := one_le_pow₀ (by linarith)
    set g := (1 + (η + 10 * ur)) ^ k - 1 with hg
    have hg0 : 0 ≤ g := by linarith
    have hg1 : (1 + (η + 10 * ur)) ^ k = 1 + g := by rw [hg]; ring
    rw [hg1] at hx3 hpk
    have hz0 := abs_nonneg (F64.real (z k))
    have hfin : (1 + g) * M k + (B * ((1 + g) * M k) + C) * F64.real dt +
        (S * ((1 + g) * M k) + T) * F64.real scale * |F64.real (z k)| ≤ 2 ^ 900 := by
      have c1 : 0 ≤ g * (C * F64.real dt) := mul_nonneg hg0 (mul_nonneg hd.offset.1 hdt)
      have c2 : 0 ≤ g * (T * F64.real scale * |F64.real (z k)|) :=
        mul_nonneg hg0 (mul_nonneg (mul_nonneg hs.offset.1 hsc) hz0)
      have c3 : (1 + g) * M (k + 1) ≤ 2 * 2 ^ 899 :=
        mul_le_mul hpk hMk (by rw [hM]; exact (size_pos hd.slope.1 hd.offset.1 hs.slope.1 hs.offset.1 hdt hsc _).le) (by norm_num)
      have c4 : (2 : ℝ) * 2 ^ 899 = 2 ^ 900 := by rw [pow_succ (2 : ℝ) 899]; ring
      rw [hMs] at c3
      refine le_trans ?_ (c3.trans c4.le)
      clear c3 c4 hMk hsize
      linarith
    have htk : times[k]? = some (times.getD k F64.zero) := by
      rw [List.getElem?_eq_getElem (by omega), List.getD_eq_getElem?_getD, List.getElem?_eq_getElem (by omega)]; rfl
    obtain ⟨y, hy1, hy2⟩ := step_close (t := times.getD k F64.zero) hη hη1 hd hs hdt hdt1 hsc hsc1 (hz k (by omega)) hx3 hfin
    have hy3 := error_step (y := F64.real y) hg0 hdt hsc hd.slope.1 hd.offset.1 hs.slope.1 hs.offset.1 hM0.le hε hx2 hx3
      (hd.lipschitz (times.getD k F64.zero) _ _) (hs.lipschitz (times.getD k F64.zero) _ _)
      (hd.growth (times.getD k F64.zero) _) (hs.growth (times.getD k F64.zero) _) (by positivity) hy2
    refine ⟨p ++ [y], ?_, by simp [h2], fun j hj => ?_⟩
    · simp only [runPath, h1, htk, hx1, hy1, Option.bind_eq_bind, Option.bind_some]
      rfl
    · rcases Nat.lt_or_ge j (k + 1) with h | h
      · obtain ⟨w, hw, hw'⟩ := h3 j (by omega)
        exact ⟨w, by rw [List.getElem?_append_left (by omega)]; exact hw, hw'⟩
      · have hj' : j = k + 1 := by omega
        subst hj'
        refine ⟨y, by rw [List.getElem?_append_right (by omega), h2]; simp, ?_⟩
        rw [pow_succ', hg1, hMs]
        exact hy3

/-! ## The exact step and scale -/

theorem Computes.scale {f : F64 → F64 → Option F64} {b : F64 → ℝ → ℝ} {B C η r δ η' : ℝ} (h : Computes f b B C η) (hr : |1 - r| ≤ δ)
    (hδ : δ ≤ 1 / 1000) (hη' : η + δ ≤ η' * r) : Tracks f (fun t x => b t x * r) (B * r) (C * r) η' := by
  have h1 := abs_le.1 (hr.trans hδ)
  have hr0 : 0 ≤ r := by linarith
  have hr2 : r ≤ 2 := by linarith
  have key : ∀ {a : ℝ} {n : ℕ}, a ≤ 2 ^ n → a * r ≤ 2 ^ (n + 1) := by
    intro a n ha
    rw [pow_succ]
    exact (mul_le_mul_of_nonneg_right ha hr0).trans (mul_le_mul_of_nonneg_left hr2 (by positivity))
  refine ⟨⟨mul_nonneg h.slope.1 hr0, key h.slope.2⟩, ⟨mul_nonneg h.offset.1 hr0, key h.offset.2⟩, fun t x y => ?_, fun t x => ?_,
    fun x t hx => ?_⟩
  · rw [← sub_mul, abs_mul, abs_of_nonneg hr0, mul_right_comm]
    exact mul_le_mul_of_nonneg_right (h.lipschitz t x y) hr0
  · rw [abs_mul, abs_of_nonneg hr0]
    refine (mul_le_mul_of_nonneg_right (h.growth t x) hr0).trans ?_
    linarith
  · obtain ⟨y, hy, hy'⟩ := h.computed x t hx
    refine ⟨y, hy, ?_⟩
    have hg := h.growth t (F64.real x)
    have hA : 0 ≤ B * |F64.real x| + C := (abs_nonneg _).trans hg
    have e1 : |b t (F64.real x) * (1 - r)| ≤ (B * |F64.real x| + C) * δ := by
      rw [abs_mul]; exact mul_le_mul hg hr (abs_nonneg _) hA
    have e2 := mul_le_mul_of_nonneg_right hη' hA
    have e3 := abs_add_le (F64.real y - b t (F64.real x)) (b t (F64.real x) * (1 - r))
    rw [show F64.real y - b t (F64.real x) * r = F64.real y - b t (F64.real x) + b t (F64.real x) * (1 - r) by ring]
    have hy' : |F64.real y - b t (F64.real x)| ≤ η * (B * |F64.real x| + C) + nu := hy'
    linarith

theorem euler_scale {b s : F64 → ℝ → ℝ} {r q dt sc h g x0 : ℝ} {time z : ℕ → F64} (h1 : r * dt = h) (h2 : q * sc = g) (k : ℕ) :
    euler (fun t x => b t x * r) (fun t x => s t x * q) dt sc time z x0 k = euler b s h g time z x0 k := by
  induction k with
  | zero => rfl
  | succ k ih => simp only [euler]; rw [ih, mul_assoc _ r, h1, mul_assoc _ q, h2]

theorem size_scale {B C S T r q dt sc h g x0 : ℝ} {z : ℕ → F64} (h1 : r * dt = h) (h2 : q * sc = g) (k : ℕ) :
    size (B * r) (C * r) (S * q) (T * q) dt sc z x0 k = size B C S T h g z x0 k := by
  induction k with
  | zero => rfl
  | succ k ih => simp only [size]; rw [ih, ← h1, ← h2]; ring

theorem ratio {a b δ v : ℝ} (hb : 0 < b) (hv : 0 ≤ v) (hv1 : v ≤ 1 / 1000) (h : |a - b| ≤ v * b) (hδ : v ≤ δ * (1 - v)) :
    0 < a ∧ |1 - b / a| ≤ δ := by
  have h1 := abs_le.1 h
  have h2 : v * b ≤ 1 / 1000 * b := mul_le_mul_of_nonneg_right hv1 hb.le
  have ha : 0 < a := by linarith
  refine ⟨ha, ?_⟩
  rw [one_sub_div ha.ne', abs_div, abs_of_pos ha, div_le_iff₀ ha]
  refine h.trans ?_
  have hδ0 : 0 ≤ δ := by
    by_contra hc
    have : δ * (1 - v) < 0 := mul_neg_of_neg_of_pos (not_le.1 hc) (by linarith)
    linarith
  have h3 : δ * (b - v * b) ≤ δ * a := mul_le_mul_of_nonneg_left (by linarith) hδ0
  have h4 := mul_le_mul_of_nonneg_right hδ hb.le
  linarith

theorem sqrt_near {a b v : ℝ} (hb : 0 < b) (ha : 0 ≤ a) (h : |a - b| ≤ v * b) : |√a - √b| ≤ v * √b := by
  have hs : 0 < √b := Real.sqrt_pos.2 hb
  have e : (√a - √b) * (√a + √b) = a - b := by
    have h1 := Real.mul_self_sqrt ha
    have h2 := Real.mul_self_sqrt hb.le
    linarith
  have h1 : |√a - √b| * (√a + √b) ≤ v * b := by
    rw [← abs_of_nonneg (show 0 ≤ √a + √b by positivity), ← abs_mul, e]; exact h
  have h2 : |√a - √b| * √b ≤ |√a - √b| * (√a + √b) :=
    mul_le_mul_of_nonneg_left (by linarith [Real.sqrt_nonneg a]) (abs_nonneg _)
  have h3 : v * b = v * √b * √b := by rw [mul_assoc, Real.mul_self_sqrt hb.le]
  exact le_of_mul_le_mul_right (h2.trans (h1.trans h3.le)) hs

theorem dt_eq (c : Config) : c.dt = linStep c.t0 c.tn (c.nSteps + 1) := rfl

theorem time_eq (c : Config) (dt : F64) (t : ℕ) : c.time dt t = linPoint c.t0 dt t := by
  unfold Config.time linPoint
  cases ofNat t with
  | none => rfl
  | some n =>
    simp only [Option.bind_eq_bind, Option.bind_some]
    unfold F64.mul
    rw [_root_.mul_comm]

theorem times_eq (c : Config) (dt : F64) : c.times dt = (List.range (c.nSteps + 1)).mapM (linPoint c.t0 dt) := by
  unfold Config.times
  rw [funext (time_eq c dt)]

theorem linspace_eq (c : Config) (h : c.t0.val < c.tn.val) :
    linspace c.t0 c.tn (c.nSteps + 1) = some (c.dt.bind fun dt => c.times dt) := by
  unfold linspace
  rw [if_pos ⟨h, by omega⟩, dt_eq]
  congr 1
  cases linStep c.t0 c.tn (c.nSteps + 1) with
  | none => rfl
  | some d => simp only [Option.bind_eq_bind, Option.bind_some, times_eq]

theorem Config.Ordinary.lt {c : Config} (h : c.Ordinary) : c.t0.val < c.tn.val := by
  have h1 := h.period
  have h2 : (0 : ℝ) < 2 ^ (-900 : ℤ) := by positivity
  unfold F64.real at h1
  have : ((c.t0.val : ℚ) : ℝ) < c.tn.val := by linarith
  exact_mod_cast this

/-- The step and the times are computed; the step is close to the exact one. -/
theorem Config.Ordinary.computed {c : Config} (h : c.Ordinary) : ∃ dt times, c.dt = some dt ∧ c.times dt = some times ∧
    times.length = c.nSteps + 1 ∧ |F64.real dt - c.step| ≤ 3 * ur * c.step ∧ 0 < c.step ∧ c.step ≤ 2 ^ 19 := by
  have hlt := h.lt
  obtain ⟨hn, hn1⟩ := h.steps
  have hb : ∀ a : F64, |F64.real a| ≤ 2 ^ 18 → |a.val| ≤ 2 ^ 1020 := by
    intro a ha
    have h1 : |a.val| ≤ 2 ^ 18 := by unfold F64.real at ha; exact_mod_cast ha
    exact h1.trans (pow_le_pow_right₀ (by norm_num) (by norm_num))
  obtain ⟨l, hl⟩ := (C88_linspace_defined c.t0 c.tn (c.nSteps + 1) (by omega)).2.2 hlt (by omega) (hb _ h.ends.1) (hb _ h.ends.2)
  have hl' := hl
  rw [linspace_eq c hlt] at hl'
  obtain ⟨dt, h1, h2⟩ := Option.bind_eq_some_iff.1 (Option.some.inj hl')
  obtain ⟨_, hlen, _⟩ := C88_linspace _ _ _ (by omega) _ hl
  obtain ⟨_, hv⟩ := linStep_some _ _ _ _ (by omega) (dt_eq c ▸ h1)
  have hD : 0 < F64.real c.tn - F64.real c.t0 := lt_of_lt_of_le (by positivity) h.period
  have hnR : (0 : ℝ) < c.nSteps := by exact_mod_cast hn
  have hn1R : (1 : ℝ) ≤ c.nSteps := by exact_mod_cast hn
  have hst : 0 < c.step := div_pos hD hnR
  refine ⟨dt, l, h1, h2, hlen, ?_, hst, ?_⟩
  · have e1 := sub_real c.tn.rep c.t0.rep
    set d := rnd (c.tn.val - c.t0.val) with hd
    have e2 := rnd_real (d / (c.nSteps : ℚ))
    have e0 : F64.real dt = ((rnd (d / (c.nSteps : ℚ)) : ℚ) : ℝ) := by
      unfold F64.real; rw [hv]; simp only [Nat.add_sub_cancel]
    have hu := ur_pos
    have hu1 := ur_le
    have e3 : |((d / (c.nSteps : ℚ) : ℚ) : ℝ) - c.step| ≤ ur * c.step := by
      push_cast
      unfold Config.step
      rw [← sub_div, abs_div, abs_of_pos hnR, ← mul_div_assoc]
      refine div_le_div_of_nonneg_right ?_ hnR.le
      unfold F64.real at hD ⊢
      rw [abs_of_pos hD] at e1
      exact e1
    rw [← e0] at e2
    have e4 := abs_add_le (((d / (c.nSteps : ℚ) : ℚ) : ℝ) - c.step) c.step
    rw [sub_add_cancel, abs_of_pos hst] at e4
    have e5 : ur * |((d / (c.nSteps : ℚ) : ℚ) : ℝ)| ≤ ur * (1001 / 1000 * c.step) := by
      refine mul_le_mul_of_nonneg_left ?_ hu.le
      have : ur * c.step ≤ 1 / 1000 * c.step := mul_le_mul_of_nonneg_right hu1 hst.le
      linarith
    have e6 : mu ≤ ur * (1 / 2 * c.step) := by
      have h3 : (2 : ℝ) ^ (-940 : ℤ) ≤ c.step := by
        unfold Config.step
        rw [le_div_iff₀ hnR]
        calc (2 : ℝ) ^ (-940 : ℤ) * c.nSteps ≤ 2 ^ (-940 : ℤ) * 2 ^ (40 : ℤ) := by
              refine mul_le_mul_of_nonneg_left ?_ (by positivity)
              exact_mod_cast hn1
          _ = 2 ^ (-900 : ℤ) := by rw [← zpow_add₀ (by norm_num)]; norm_num
          _ ≤ _ := h.period
      calc mu ≤ ur * (1 / 2 * 2 ^ (-940 : ℤ)) := by
            unfold mu ur
            rw [show (1 / 2 : ℝ) = 2 ^ (-1 : ℤ) by norm_num, ← zpow_add₀ (by norm_num), ← zpow_add₀ (by norm_num)]
            exact zpow_le_zpow_right₀ (by norm_num) (by norm_num)
        _ ≤ _ := by gcongr
    have e7 := abs_add_le (F64.real dt - ((d / (c.nSteps : ℚ) : ℚ) : ℝ)) (((d / (c.nSteps : ℚ) : ℚ) : ℝ) - c.step)
    rw [sub_add_sub_cancel] at e7
    have hp : 0 < ur * c.step := mul_pos hu hst
    linarith
  · unfold Config.step
    rw [div_le_iff₀ hnR]
    have h3 := abs_le.1 h.ends.1
    have h4 := abs_le.1 h.ends.2
    nlinarith

end Verif.Float.Sim
