import Verif.Float.SchemesSpec
import Verif.Float.SimulationRun

/-! Helper lemmas: rounded Milstein and Strang-splitting steps. -/

namespace Verif.Float.Sim

open Verif.Float.Fft (ur mu top rnd_real add_real sub_real toF64_total ur_pos mu_pos ur_le)

/-! ## Paths of any scheme -/

/-- If every rounded step is close to the exact one, the exact step stretches errors no more than `M` grows, and `M` bounds the values,
then so is the whole path. -/
theorem runWith_close {step : F64 → F64 → F64 → Option F64} {times : List F64} {z : ℕ → F64} {x0 : F64} {n : ℕ} {E : ℕ → ℝ → ℝ}
    {X M : ℕ → ℝ} {ε K : ℝ} (hε : 0 ≤ ε) (hX0 : X 0 = F64.real x0) (hXs : ∀ k, X (k + 1) = E k (X k))
    (hM0 : |F64.real x0| + K ≤ M 0) (ht : n < times.length) (hgrow : (1 + ε) ^ n ≤ 2)
    (hstep : ∀ k < n, ∀ (g : ℝ) (x : F64), 0 ≤ g → g ≤ 1 → |F64.real x| + K ≤ (1 + g) * M k →
      ∃ y, step (times.getD k F64.zero) (z k) x = some y ∧ |F64.real y - E k (F64.real x)| ≤ ε * ((1 + g) * M (k + 1)))
    (hlip : ∀ k < n, ∀ g x Y : ℝ, 0 ≤ g → |x - Y| ≤ g * M k → |E k x - E k Y| ≤ g * M (k + 1))
    (hsz : ∀ k < n, ∀ g x : ℝ, 0 ≤ g → |x| + K ≤ (1 + g) * M k → |E k x| + K ≤ (1 + g) * M (k + 1))
    (k : ℕ) (hk : k ≤ n) :
    ∃ p, runWith step times z x0 k = some p ∧ p.length = k + 1 ∧ ∀ j ≤ k, ∃ x, p[j]? = some x ∧
      |F64.real x - X j| ≤ ((1 + ε) ^ j - 1) * M j ∧ |F64.real x| + K ≤ (1 + ε) ^ j * M j := by
  induction k with
  | zero =>
    refine ⟨[x0], rfl, rfl, fun j hj => ⟨x0, by rw [Nat.le_zero.1 hj]; rfl, ?_, ?_⟩⟩
    · rw [Nat.le_zero.1 hj, hX0]; simp
    · rw [Nat.le_zero.1 hj, pow_zero, one_mul]; exact hM0
  | succ k ih =>
    obtain ⟨p, h1, h2, h3⟩ := ih (by omega)
    obtain ⟨x, hx1, hx2, hx3⟩ := h3 k le_rfl
    have hpk : (1 + ε) ^ k ≤ 2 := (pow_le_pow_right₀ (by linarith) (by omega)).trans hgrow
    have hp1 : 1 ≤ (1 + ε) ^ k := one_le_pow₀ (by linarith)
    set g := (1 + ε) ^ k - 1 with hg
    have hg0 : 0 ≤ g := by linarith
    have hg1 : (1 + ε) ^ k = 1 + g := by rw [hg]; ring
    rw [hg1] at hx3 hpk
    obtain ⟨y, hy1, hy2⟩ := hstep k (by omega) g x hg0 (by linarith) hx3
    have a1 := hlip k (by omega) g _ _ hg0 hx2
    have a2 := hsz k (by omega) g _ hg0 hx3
    have htk : times[k]? = some (times.getD k F64.zero) := by
      rw [List.getElem?_eq_getElem (by omega), List.getD_eq_getElem?_getD, List.getElem?_eq_getElem (by omega)]; rfl
    refine ⟨p ++ [y], ?_, by simp [h2], fun j hj => ?_⟩
    · simp only [runWith, h1, htk, hx1, hy1, Option.bind_eq_bind, Option.bind_some]
      rfl
    · rcases Nat.lt_or_ge j (k + 1) with h | h
      · obtain ⟨w, hw, hw'⟩ := h3 j (by omega)
        exact ⟨w, by rw [List.getElem?_append_left (by omega)]; exact hw, hw'⟩
      · have hj' : j = k + 1 := by omega
        subst hj'
        refine ⟨y, by rw [List.getElem?_append_right (by omega), h2]; simp, ?_⟩
        rw [pow_succ', hg1, hXs]
        constructor
        · have := abs_add_le (F64.real y - E k (F64.real x)) (E k (F64.real x) - E k (X k))
          rw [sub_add_sub_cancel] at this
          linarith
        · have := abs_add_le (F64.real y - E k (F64.real x)) (E k (F64.real x))
          rw [sub_add_cancel] at this
          linarith

/-! ## One Strang-splitting step -/

theorem half_real : ∃ h, toF64 (1 / 2) = some h ∧ F64.real h = 1 / 2 := by
  have h0 : (toF64 (1 / 2)).isSome = true := by decide +kernel
  obtain ⟨x, hx⟩ := Option.isSome_iff_exists.1 h0
  have hv : (toF64 (1 / 2)).map F64.val = some (1 / 2) := by decide +kernel
  rw [hx] at hv
  refine ⟨x, hx, ?_⟩
  have : x.val = 1 / 2 := by simpa using hv
  unfold F64.real; rw [this]; norm_num

/-- The value after half a step of drift. -/
theorem stageA {x d p q m H η μ v : ℝ} (hv : 0 ≤ v) (hv1 : v ≤ 1 / 1000) (hη : 0 ≤ η) (hη1 : η ≤ 1 / 1000) (hμ : 0 ≤ μ) (hH : 0 ≤ H)
    (hd : |d| ≤ H) (hp : |p - d| ≤ η * H + 4 * (v * H) + 2 ^ 43 * μ) (hp' : |p| ≤ 2 * H + 2 ^ 43 * μ) (hx : |x| ≤ m)
    (hm : 2 ^ 45 * μ ≤ v * m) (hq : |q - (x + p)| ≤ v * |x + p|) :
    |q - (x + d)| ≤ (η + 7 * v) * (m + H) ∧ |x + d| ≤ m + H ∧ |q| ≤ 101 / 100 * (m + H) := by
  have hm0 : 0 ≤ m := (abs_nonneg _).trans hx
  have e1 : |x + p| ≤ m + 2 * H + 2 ^ 43 * μ := (abs_add_le _ _).trans (by linarith)
  have e2 := mul_le_mul_of_nonneg_left e1 hv
  have e3 : v * (2 ^ 43 * μ) ≤ 1 / 1000 * (2 ^ 43 * μ) := mul_le_mul_of_nonneg_right hv1 (by positivity)
  have hvm0 : 0 ≤ v * m := mul_nonneg hv hm0
  have hvH0 : 0 ≤ v * H := mul_nonneg hv hH
  have hηm0 : 0 ≤ η * m := mul_nonneg hη hm0
  have hvm : v * m ≤ 1 / 1000 * m := mul_le_mul_of_nonneg_right hv1 hm0
  have hvH : v * H ≤ 1 / 1000 * H := mul_le_mul_of_nonneg_right hv1 hH
  have hηm : η * m ≤ 1 / 1000 * m := mul_le_mul_of_nonneg_right hη1 hm0
  have hηH : η * H ≤ 1 / 1000 * H := mul_le_mul_of_nonneg_right hη1 hH
  have e4 : |q - (x + d)| ≤ (η + 7 * v) * (m + H) := by
    have a := abs_add_le (q - (x + p)) (p - d)
    rw [show q - (x + p) + (p - d) = q - (x + d) by ring] at a
    linarith
  have e5 : |x + d| ≤ m + H := (abs_add_le _ _).trans (by linarith)
  refine ⟨e4, e5, ?_⟩
  have a := abs_add_le (q - (x + d)) (x + d)
  rw [sub_add_cancel] at a
  linarith

/-- The diffusion there. -/
theorem stageB {c sq sw q w S T A η μ v : ℝ} (hη : 0 ≤ η) (hv : 0 ≤ v) (hS : 0 ≤ S) (hT : 0 ≤ T) (hA : 0 ≤ A)
    (hc : |c - sq| ≤ η * (S * |q| + T) + μ) (hq : |q| ≤ 101 / 100 * A) (hsq : |sq - sw| ≤ S * |q - w|)
    (hqw : |q - w| ≤ (η + 7 * v) * A) (hw : |w| ≤ A) (hsw : |sw| ≤ S * |w| + T) :
    |c - sw| ≤ (3 * η + 7 * v) * (S * A + T) + μ ∧ |sw| ≤ S * A + T := by
  have h1 := mul_le_mul_of_nonneg_left hq hS
  have h2 : η * (S * |q| + T) ≤ η * (101 / 100 * (S * A) + T) := mul_le_mul_of_nonneg_left (by linarith) hη
  have h3 := mul_le_mul_of_nonneg_left hqw hS
  have h4 := mul_le_mul_of_nonneg_left hw hS
  have hSA : 0 ≤ S * A := mul_nonneg hS hA
  have g1 : 0 ≤ η * (S * A) := mul_nonneg hη hSA
  have g2 : 0 ≤ v * (S * A) := mul_nonneg hv hSA
  have g3 : 0 ≤ η * T := mul_nonneg hη hT
  have g4 : 0 ≤ v * T := mul_nonneg hv hT
  refine ⟨?_, by linarith⟩
  have a := abs_add_le (c - sq) (sq - sw)
  rw [sub_add_sub_cancel] at a
  linarith

/-- The sums. -/
theorem stageD {x d e p q t r y m H Q η μ v : ℝ} (hv : 0 ≤ v) (hv1 : v ≤ 1 / 1000) (hη : 0 ≤ η) (hμ : 0 ≤ μ)
    (hm0 : 0 ≤ m) (hH : 0 ≤ H) (hQ : 0 ≤ Q)
    (hp : |p - d| ≤ η * H + 4 * (v * H) + 2 ^ 43 * μ) (hp' : |p| ≤ 2 * H + 2 ^ 43 * μ)
    (hq : |q - (x + d)| ≤ (η + 7 * v) * (m + H)) (hq' : |q| ≤ 101 / 100 * (m + H))
    (ht : |t - e| ≤ (3 * η + 7 * v) * Q + 4 * (v * Q) + 2 ^ 43 * μ) (ht' : |t| ≤ 2 * Q + 2 ^ 43 * μ)
    (hm : 2 ^ 45 * μ ≤ v * m) (hr : |r - (q + t)| ≤ v * |q + t|) (hy : |y - (r + p)| ≤ v * |r + p|) :
    |y - (x + d + e + d)| ≤ (3 * η + 16 * v) * (m + 2 * H + Q) := by
  have hvm0 : 0 ≤ v * m := mul_nonneg hv hm0
  have hvH0 : 0 ≤ v * H := mul_nonneg hv hH
  have hvQ0 : 0 ≤ v * Q := mul_nonneg hv hQ
  have hηm0 : 0 ≤ η * m := mul_nonneg hη hm0
  have hηH0 : 0 ≤ η * H := mul_nonneg hη hH
  have e1 : |q + t| ≤ 101 / 100 * (m + H) + 2 * Q + 2 ^ 43 * μ := (abs_add_le _ _).trans (by linarith)
  have e2 := mul_le_mul_of_nonneg_left e1 hv
  have e3 : v * (2 ^ 43 * μ) ≤ 1 / 1000 * (2 ^ 43 * μ) := mul_le_mul_of_nonneg_right hv1 (by positivity)
  have e4 : v * |q + t| ≤ 1 / 1000 * |q + t| := mul_le_mul_of_nonneg_right hv1 (abs_nonneg _)
  have e5 : |r + p| ≤ 102 / 100 * (m + H) + 202 / 100 * Q + 2 * H + 2 ^ 45 * μ := by
    have a1 := abs_add_le (r - (q + t)) ((q + t) + p)
    rw [show r - (q + t) + ((q + t) + p) = r + p by ring] at a1
    have a2 := abs_add_le (q + t) p
    linarith
  have e6 := mul_le_mul_of_nonneg_left e5 hv
  have e7 : v * (2 ^ 45 * μ) ≤ 1 / 1000 * (2 ^ 45 * μ) := mul_le_mul_of_nonneg_right hv1 (by positivity)
  rw [show y - (x + d + e + d) = (y - (r + p)) + ((r - (q + t)) + ((q - (x + d)) + ((t - e) + (p - d)))) by ring]
  have a1 := abs_add_le (y - (r + p)) ((r - (q + t)) + ((q - (x + d)) + ((t - e) + (p - d))))
  have a2 := abs_add_le (r - (q + t)) ((q - (x + d)) + ((t - e) + (p - d)))
  have a3 := abs_add_le (q - (x + d)) ((t - e) + (p - d))
  have a4 := abs_add_le (t - e) (p - d)
  linarith

/-- A tracked function at a value of at most `2^900`: finite, and not too large. -/
theorem tracks_at {f : F64 → F64 → Option F64} {g : F64 → ℝ → ℝ} {L G η : ℝ} (hη1 : η ≤ 1 / 1000) (h : Tracks f g L G η) {x t : F64}
    (hx9 : |F64.real x| ≤ 2 ^ 900) :
    ∃ y, f x t = some y ∧ |F64.real y - g t (F64.real x)| ≤ η * (L * |F64.real x| + G) + nu ∧ |F64.real y| ≤ 2 ^ 922 := by
  obtain ⟨y, h1, h2⟩ := h.computed x t hx9
  refine ⟨y, h1, h2, ?_⟩
  have h3 := h.growth t (F64.real x)
  have h4 : L * |F64.real x| + G ≤ 2 ^ 921 := by
    have := mul_le_mul h.slope.2 hx9 (abs_nonneg _) (by positivity : (0 : ℝ) ≤ 2 ^ 20)
    have e : (2 : ℝ) ^ 20 * 2 ^ 900 = 2 ^ 920 := by rw [← pow_add]
    have e' : (2 : ℝ) ^ 900 ≤ 2 ^ 920 := pow_le_pow_right₀ (by norm_num) (by norm_num)
    have e'' : (2 : ℝ) ^ 921 = 2 ^ 920 + 2 ^ 920 := by rw [pow_succ (2 : ℝ) 920]; ring
    exact le_trans (_root_.add_le_add (this.trans e.le) (h.offset.2.trans e')) e''.ge
  have h5 : 0 ≤ L * |F64.real x| + G := (abs_nonneg _).trans h3
  have h6 : η * (L * |F64.real x| + G) ≤ 1 / 1000 * (L * |F64.real x| + G) := mul_le_mul_of_nonneg_right hη1 h5
  have h7 : (2 : ℝ) ^ 922 = 2 * 2 ^ 921 := by rw [pow_succ (2 : ℝ) 921]; ring
  have h8 : (1000 : ℝ) ≤ 2 ^ 921 := le_trans (by norm_num) (pow_le_pow_right₀ (by norm_num) (by norm_num : 10 ≤ 921))
  have h9 := abs_add_le (F64.real y - g t (F64.real x)) (g t (F64.real x))
  rw [sub_add_cancel] at h9
  have h2 : |F64.real y - g t (F64.real x)| ≤ η * (L * |F64.real x| + G) + nu := h2
  exact fin1 h9 h2 h6 h3 h4 h7 h8 nu_le_one

theorem finS {X m H Q μ t T9 : ℝ} (h : X ≤ 4 * (m + 2 * H + Q) + 2 ^ 46 * μ) (hm : m + 2 * H + Q ≤ T9) (h4 : μ ≤ 1)
    (h5 : T9 * 8 + 2 ^ 50 ≤ t) (h0 : 0 ≤ T9) : X ≤ t := by linarith

theorem top_room : (2 : ℝ) ^ 900 * 8 + 2 ^ 50 ≤ top := by
  apply top_big
  have : (2 : ℝ) ^ 50 ≤ 2 ^ 900 := pow_le_pow_right₀ (by norm_num) (by norm_num)
  have h0 : (0 : ℝ) ≤ 2 ^ 900 := by positivity
  calc (2 : ℝ) ^ 900 * 8 + 2 ^ 50 ≤ 2 ^ 900 * 16 := by
        generalize (2 : ℝ) ^ 900 = t9 at this h0 ⊢
        linarith
    _ = 2 ^ 904 := by rw [show (16 : ℝ) = 2 ^ 4 by norm_num, ← pow_add]
    _ ≤ 2 ^ 1000 := pow_le_pow_right₀ (by norm_num) (by norm_num)

/-- One step from a value of size at most `m`. -/
theorem strang_close {P : Process} {b s : F64 → ℝ → ℝ} {B C S T η m : ℝ} (hη : 0 ≤ η) (hη1 : η ≤ 1 / 10000)
    (hd : Tracks P.drift b B C η) (hs : Tracks P.diffusion s S T η) {dt z t mid x : F64} (hmid : midTime dt t = some mid)
    (hdt : 0 ≤ F64.real dt) (hdt1 : F64.real dt ≤ 2 ^ 20)
    (hz : |F64.real z| ≤ 2 ^ 20) (hx : |F64.real x| + 2 ^ (-900 : ℤ) ≤ m)
    (hm : m + (B * m + C) * F64.real dt + (S * (m + (B * m + C) * F64.real dt / 2) + T) * |F64.real z| ≤ 2 ^ 899) :
    ∃ y, strangStep P dt t z x = some y ∧
      |F64.real y - (F64.real x + b t (F64.real x) * F64.real dt +
        s mid (F64.real x + b t (F64.real x) * F64.real dt / 2) * F64.real z)| ≤
      (3 * η + 16 * ur) * (m + (B * m + C) * F64.real dt + (S * (m + (B * m + C) * F64.real dt / 2) + T) * |F64.real z|) := by
  have hK : (0 : ℝ) < 2 ^ (-900 : ℤ) := by positivity
  have hu := ur_pos
  have hu1 : ur ≤ 1 / 10 ^ 6 := by unfold ur; norm_num
  have hu2 := ur_le
  have hμ := nu_pos
  have hμ1 := nu_le_one
  have hxm : |F64.real x| ≤ m := by linarith
  have hm0 : 0 ≤ m := (abs_nonneg _).trans hxm
  have hA0 : 0 ≤ B * m + C := add_nonneg (mul_nonneg hd.slope.1 hm0) hd.offset.1
  obtain ⟨H, hHd⟩ : ∃ H, H = (B * m + C) * F64.real dt / 2 := ⟨_, rfl⟩
  have hH0 : 0 ≤ H := by rw [hHd]; exact div_nonneg (mul_nonneg hA0 hdt) (by norm_num)
  have hHd2 : (B * m + C) * F64.real dt = 2 * H := by rw [hHd]; ring
  have hW0 : 0 ≤ S * (m + H) + T := add_nonneg (mul_nonneg hs.slope.1 (add_nonneg hm0 hH0)) hs.offset.1
  obtain ⟨Q, hQd⟩ : ∃ Q, Q = (S * (m + H) + T) * |F64.real z| := ⟨_, rfl⟩
  have hQ0 : 0 ≤ Q := by rw [hQd]; exact mul_nonneg hW0 (abs_nonneg _)
  rw [← hHd, hHd2, ← hQd] at hm ⊢
  obtain ⟨T9, hT9d⟩ : ∃ T9 : ℝ, T9 = 2 ^ 899 := ⟨_, rfl⟩
  have hT9e : (2 : ℝ) ^ 900 = 2 * T9 := by rw [hT9d, pow_succ (2 : ℝ) 899, mul_comm]
  have hT9p : 0 ≤ T9 := by rw [hT9d]; positivity
  have hroom : T9 * 8 + 2 ^ 50 ≤ top := le_trans (by rw [hT9e]; linarith only [hT9p]) top_room
  rw [← hT9d] at hm
  have hmν : 2 ^ 45 * nu ≤ ur * m := by
    refine nu_small.trans (mul_le_mul_of_nonneg_left ?_ hu.le)
    linarith [abs_nonneg (F64.real x)]
  have hx9 : |F64.real x| ≤ 2 ^ 900 := by rw [hT9e]; linarith only [hxm, hm, hH0, hQ0, hT9p]
  have hη2 : η ≤ 1 / 1000 := by linarith
  -- half a step of drift
  obtain ⟨a, ha, ha1, ha2⟩ := tracks_at (t := t) hη2 hd hx9
  obtain ⟨hf, hhf, hhf1⟩ := half_real
  have hax : B * |F64.real x| + C ≤ B * m + C := by have := mul_le_mul_of_nonneg_left hxm hd.slope.1; linarith
  obtain ⟨ah, hah, hah1⟩ := mulR' (a := hf) (b := a) (big_mul (i := 0) (by rw [hhf1]; norm_num) ha2 (by norm_num))
  have hah2 : |F64.real ah| ≤ 2 ^ 923 := by
    have h1 : |F64.real hf * F64.real a| ≤ 2 ^ 922 := by
      rw [abs_mul, hhf1]
      refine le_trans ?_ ha2
      rw [abs_of_pos (show (0 : ℝ) < 1 / 2 by norm_num)]
      linarith [abs_nonneg (F64.real a)]
    have h2 := abs_add_le (F64.real ah - F64.real hf * F64.real a) (F64.real hf * F64.real a)
    rw [sub_add_cancel] at h2
    have h3 : ur * |F64.real hf * F64.real a| ≤ 1 / 1000 * |F64.real hf * F64.real a| :=
      mul_le_mul_of_nonneg_right hu2 (abs_nonneg _)
    have h7 : (2 : ℝ) ^ 923 = 2 * 2 ^ 922 := by rw [pow_succ (2 : ℝ) 922]; ring
    have h8 : (1000 : ℝ) ≤ 2 ^ 922 := le_trans (by norm_num) (pow_le_pow_right₀ (by norm_num) (by norm_num : 10 ≤ 922))
    exact fin1 h2 hah1 h3 le_rfl h1 h7 h8 hμ1
  obtain ⟨p, hp, hp1⟩ := mulR' (a := ah) (b := dt) (big_mul hah2 (by rw [abs_of_nonneg hdt]; exact hdt1) (by norm_num))
  obtain ⟨tp1, tp2⟩ := term2 (c := F64.real a) (s := b t (F64.real x)) (sc := 1 / 2) (z := F64.real dt) (Q := H) hu.le hu2 hη hη2 hμ.le
    (ha1.trans (add_le_add_left (mul_le_mul_of_nonneg_left hax hη) _)) ((hd.growth _ _).trans hax) (by norm_num) (by norm_num)
    (by rw [abs_of_nonneg hdt]; exact hdt1) (by rw [abs_of_nonneg hdt, hHd]; exact le_of_eq (by ring))
    (by rw [hhf1, mul_comm (1 / 2)] at hah1; exact hah1) hp1
  have hdH : |b t (F64.real x) * (1 / 2) * F64.real dt| ≤ H := by
    rw [abs_mul, abs_mul, abs_of_nonneg hdt, abs_of_pos (show (0 : ℝ) < 1 / 2 by norm_num), hHd]
    have := mul_le_mul_of_nonneg_right ((hd.growth t (F64.real x)).trans hax) hdt
    linarith
  have hhalf : halfDrift P dt t x = some p := by
    unfold halfDrift
    simp only [hhf, ha, hah, hp, Option.bind_eq_bind, Option.bind_some]
  have hxp : |F64.real x + F64.real p| ≤ top := by
    refine finS (m := m) (H := H) (Q := Q) ?_ hm hμ1 hroom hT9p
    refine (abs_add_le _ _).trans ?_
    linarith
  obtain ⟨q, hq, hq1⟩ := addR (a := x) (b := p) hxp
  obtain ⟨A1, A2, A3⟩ := stageA hu.le hu2 hη hη2 hμ.le hH0 hdH tp1 tp2 hxm hmν hq1
  -- the noise
  have hq9 : |F64.real q| ≤ 2 ^ 900 := by
    rw [hT9e]; linarith only [A3, hm, hm0, hH0, hQ0]
  obtain ⟨c, hc, hc1, hc2⟩ := tracks_at (t := mid) hη2 hs hq9
  obtain ⟨B1, B2⟩ := stageB (S := S) (T := T) (A := m + H) hη hu.le hs.slope.1 hs.offset.1 (by linarith) hc1 A3
    (hs.lipschitz mid (F64.real q) (F64.real x + b t (F64.real x) * (1 / 2) * F64.real dt)) A1 A2 (hs.growth mid _)
  obtain ⟨w, hw, hw1⟩ := mulR' (a := c) (b := z) (big_mul hc2 hz (by norm_num))
  obtain ⟨tw1, tw2⟩ := term2 (c := F64.real c) (p := F64.real c) (sc := 1) (z := F64.real z) (Q := Q) (η := 3 * η + 7 * ur) hu.le hu2 (by positivity)
    (by linarith only [hη1, hu1]) hμ.le B1 B2 (by norm_num) (by norm_num) hz (by rw [hQd, mul_one]) (by
      rw [mul_one, sub_self, abs_zero]; exact add_nonneg (mul_nonneg hu.le (abs_nonneg _)) hμ.le) hw1
  have hqw : |F64.real q + F64.real w| ≤ 101 / 100 * (m + H) + 2 * Q + 2 ^ 43 * nu := (abs_add_le _ _).trans (by linarith)
  obtain ⟨r, hr, hr1⟩ := addR (a := q) (b := w) (finS (m := m) (H := H) (Q := Q) (by linarith) hm hμ1 hroom hT9p)
  have hrp : |F64.real r + F64.real p| ≤ 4 * (m + 2 * H + Q) + 2 ^ 46 * nu := by
    have a1 := abs_add_le (F64.real r - (F64.real q + F64.real w)) (F64.real q + F64.real w)
    rw [sub_add_cancel] at a1
    have a2 := abs_add_le (F64.real r) (F64.real p)
    have a3 : ur * |F64.real q + F64.real w| ≤ 1 / 1000 * |F64.real q + F64.real w| :=
      mul_le_mul_of_nonneg_right hu2 (abs_nonneg _)
    linarith
  obtain ⟨y, hy, hy1⟩ := addR (a := r) (b := p) (finS hrp hm hμ1 hroom hT9p)
  refine ⟨y, ?_, ?_⟩
  · unfold strangStep
    simp only [hhalf, hq, hmid, hc, hw, hr, hy, Option.bind_eq_bind, Option.bind_some]
    exact add_zero_some y
  · have D := stageD hu.le hu2 hη hμ.le hm0 hH0 hQ0 tp1 tp2 A1 A3 tw1 tw2 hmν hr1 hy1
    convert D using 2
    rw [show b t (F64.real x) * (1 / 2) * F64.real dt = b t (F64.real x) * F64.real dt / 2 by ring]
    ring

/-! ## The exact Strang-splitting step -/

theorem strang_lip {x y bx bX sx sX dt z g M B C S T : ℝ} (hg : 0 ≤ g) (hdt : 0 ≤ dt) (hB : 0 ≤ B) (hC : 0 ≤ C) (hS : 0 ≤ S)
    (hT : 0 ≤ T) (hX : |x - y| ≤ g * M) (hb : |bx - bX| ≤ B * |x - y|)
    (hs : |sx - sX| ≤ S * |x + bx * dt / 2 - (y + bX * dt / 2)|) :
    |x + bx * dt + sx * z - (y + bX * dt + sX * z)| ≤ g * (M + (B * M + C) * dt + (S * (M + (B * M + C) * dt / 2) + T) * |z|) := by
  have hz := abs_nonneg z
  have b1 : |bx - bX| * dt ≤ g * ((B * M + C) * dt) := by
    have h2 := mul_le_mul_of_nonneg_right (hb.trans (mul_le_mul_of_nonneg_left hX hB)) hdt
    have h3 : 0 ≤ g * (C * dt) := by positivity
    linarith
  have w1 : |x + bx * dt / 2 - (y + bX * dt / 2)| ≤ g * (M + (B * M + C) * dt / 2) := by
    rw [show x + bx * dt / 2 - (y + bX * dt / 2) = (x - y) + (bx - bX) * dt / 2 by ring]
    refine (abs_add_le _ _).trans ?_
    rw [abs_div, abs_mul, abs_of_nonneg hdt, abs_of_pos (show (0 : ℝ) < 2 by norm_num)]
    linarith
  have s1 : |sx - sX| * |z| ≤ g * ((S * (M + (B * M + C) * dt / 2) + T) * |z|) := by
    have h2 := mul_le_mul_of_nonneg_right (hs.trans (mul_le_mul_of_nonneg_left w1 hS)) hz
    have h3 : 0 ≤ g * (T * |z|) := by positivity
    linarith
  rw [show x + bx * dt + sx * z - (y + bX * dt + sX * z) = (x - y) + ((bx - bX) * dt + (sx - sX) * z) by ring]
  have a2 := abs_add_le (x - y) ((bx - bX) * dt + (sx - sX) * z)
  have a3 := abs_add_le ((bx - bX) * dt) ((sx - sX) * z)
  rw [abs_mul, abs_mul, abs_of_nonneg hdt] at a3
  linarith

theorem strang_grow {x bx sx dt z g M B C S T K : ℝ} (hg : 0 ≤ g) (hdt : 0 ≤ dt) (hB : 0 ≤ B) (hC : 0 ≤ C) (hS : 0 ≤ S)
    (hT : 0 ≤ T) (hK : 0 ≤ K) (hx : |x| + K ≤ (1 + g) * M) (hb : |bx| ≤ B * |x| + C) (hs : |sx| ≤ S * |x + bx * dt / 2| + T) :
    |x + bx * dt + sx * z| + K ≤ (1 + g) * (M + (B * M + C) * dt + (S * (M + (B * M + C) * dt / 2) + T) * |z|) := by
  have hz := abs_nonneg z
  have hxg : |x| ≤ (1 + g) * M := by linarith
  have b2 : |bx| * dt ≤ (1 + g) * ((B * M + C) * dt) := by
    have h1 : |bx| ≤ B * ((1 + g) * M) + C := hb.trans (by have := mul_le_mul_of_nonneg_left hxg hB; linarith)
    have h2 := mul_le_mul_of_nonneg_right h1 hdt
    have h3 : 0 ≤ g * (C * dt) := by positivity
    linarith
  have w1 : |x + bx * dt / 2| ≤ (1 + g) * (M + (B * M + C) * dt / 2) := by
    refine (abs_add_le _ _).trans ?_
    rw [abs_div, abs_mul, abs_of_nonneg hdt, abs_of_pos (show (0 : ℝ) < 2 by norm_num)]
    linarith
  have s2 : |sx| * |z| ≤ (1 + g) * ((S * (M + (B * M + C) * dt / 2) + T) * |z|) := by
    have h1 : |sx| ≤ S * ((1 + g) * (M + (B * M + C) * dt / 2)) + T := hs.trans (by have := mul_le_mul_of_nonneg_left w1 hS; linarith)
    have h2 := mul_le_mul_of_nonneg_right h1 hz
    have h3 : 0 ≤ g * (T * |z|) := by positivity
    linarith
  have a2 := abs_add_le (x + bx * dt) (sx * z)
  have a3 := abs_add_le x (bx * dt)
  rw [abs_mul] at a2 a3
  rw [abs_of_nonneg hdt] at a3
  linarith

theorem strangSize_pos {B C S T dt x0 : ℝ} {z : ℕ → F64} (hB : 0 ≤ B) (hC : 0 ≤ C) (hS : 0 ≤ S) (hT : 0 ≤ T) (hdt : 0 ≤ dt)
    (k : ℕ) : 0 < strangSize B C S T dt z x0 k := by
  induction k with
  | zero => unfold strangSize; positivity
  | succ k ih =>
    unfold strangSize
    have := abs_nonneg (F64.real (z k))
    positivity

theorem strangSize_mono {B C S T dt x0 : ℝ} {z : ℕ → F64} (hB : 0 ≤ B) (hC : 0 ≤ C) (hS : 0 ≤ S) (hT : 0 ≤ T) (hdt : 0 ≤ dt) :
    Monotone (strangSize B C S T dt z x0) := by
  refine monotone_nat_of_le_succ fun k => ?_
  have h := strangSize_pos (x0 := x0) (z := z) hB hC hS hT hdt k
  have := abs_nonneg (F64.real (z k))
  conv_rhs => unfold strangSize
  dsimp only
  generalize strangSize B C S T dt z x0 k = m at h
  have h1 : 0 ≤ (B * m + C) * dt := by positivity
  have h2 : 0 ≤ (S * (m + (B * m + C) * dt / 2) + T) * |F64.real (z k)| := by positivity
  linarith

/-- A path of the Strang-splitting scheme. -/
theorem strang_run {P : Process} {b s : F64 → ℝ → ℝ} {B C S T η : ℝ} (hη : 0 ≤ η) (hη1 : η ≤ 1 / 10000)
    (hd : Tracks P.drift b B C η) (hs : Tracks P.diffusion s S T η) {dt x0 : F64} {times : List F64} {mid z : ℕ → F64} {n : ℕ}
    (hdt : 0 ≤ F64.real dt) (hdt1 : F64.real dt ≤ 2 ^ 20) (hmid : ∀ k < n, midTime dt (times.getD k F64.zero) = some (mid k))
    (hz : ∀ k < n, |F64.real (z k)| ≤ 2 ^ 20) (ht : n < times.length) (hgrow : (1 + (3 * η + 16 * ur)) ^ n ≤ 2)
    (hsize : strangSize B C S T (F64.real dt) z (F64.real x0) n ≤ 2 ^ 898) :
    ∃ p, runWith (strangStep P dt) times z x0 n = some p ∧ p.length = n + 1 ∧ ∀ j ≤ n, ∃ x, p[j]? = some x ∧
      |F64.real x - strangExact b s (F64.real dt) (fun i => times.getD i F64.zero) mid z (F64.real x0) j| ≤
        ((1 + (3 * η + 16 * ur)) ^ j - 1) * strangSize B C S T (F64.real dt) z (F64.real x0) j := by
  have hε : 0 ≤ 3 * η + 16 * ur := by have := ur_pos; positivity
  have hB := hd.slope.1
  have hC := hd.offset.1
  have hS := hs.slope.1
  have hT := hs.offset.1
  refine Exists.imp (fun p h => ⟨h.1, h.2.1, fun j hj => (h.2.2 j hj).imp fun x hx => ⟨hx.1, hx.2.1⟩⟩) <|
    runWith_close (step := strangStep P dt) (times := times) (z := z) (x0 := x0) (n := n)
    (E := fun k x => x + b (times.getD k F64.zero) x * F64.real dt +
      s (mid k) (x + b (times.getD k F64.zero) x * F64.real dt / 2) * F64.real (z k))
    (X := strangExact b s (F64.real dt) (fun i => times.getD i F64.zero) mid z (F64.real x0))
    (M := strangSize B C S T (F64.real dt) z (F64.real x0)) (K := 2 ^ (-900 : ℤ)) hε rfl (fun k => rfl) le_rfl ht hgrow ?_ ?_ ?_ n le_rfl
  · intro k hk g x hg hg1 hx
    have hMk : strangSize B C S T (F64.real dt) z (F64.real x0) (k + 1) ≤ 2 ^ 898 :=
      (strangSize_mono hB hC hS hT hdt (by omega)).trans hsize
    have hMp := (strangSize_pos (x0 := F64.real x0) (z := z) hB hC hS hT hdt (k + 1)).le
    have hz0 := abs_nonneg (F64.real (z k))
    have hMs : strangSize B C S T (F64.real dt) z (F64.real x0) (k + 1) =
      strangSize B C S T (F64.real dt) z (F64.real x0) k +
        (B * strangSize B C S T (F64.real dt) z (F64.real x0) k + C) * F64.real dt +
        (S * (strangSize B C S T (F64.real dt) z (F64.real x0) k +
          (B * strangSize B C S T (F64.real dt) z (F64.real x0) k + C) * F64.real dt / 2) + T) * |F64.real (z k)| := rfl
    have e0 : ∀ M : ℝ, (1 + g) * M + (B * ((1 + g) * M) + C) * F64.real dt +
        (S * ((1 + g) * M + (B * ((1 + g) * M) + C) * F64.real dt / 2) + T) * |F64.real (z k)| ≤
        (1 + g) * (M + (B * M + C) * F64.real dt + (S * (M + (B * M + C) * F64.real dt / 2) + T) * |F64.real (z k)|) := by
      intro M
      have c1 : 0 ≤ g * (C * F64.real dt) := by positivity
      have c2 : 0 ≤ g * (T * |F64.real (z k)|) := by positivity
      have c3 : 0 ≤ g * (S * (C * F64.real dt) * |F64.real (z k)|) := by positivity
      linarith
    have e1 := e0 (strangSize B C S T (F64.real dt) z (F64.real x0) k)
    rw [← hMs] at e1
    have e2 : (1 + g) * strangSize B C S T (F64.real dt) z (F64.real x0) (k + 1) ≤ 2 ^ 899 := by
      rw [pow_succ (2 : ℝ) 898, mul_comm]
      exact mul_le_mul hMk (by linarith only [hg1]) (by linarith only [hg]) (by positivity)
    obtain ⟨y, hy1, hy2⟩ := strang_close (t := times.getD k F64.zero) hη hη1 hd hs (hmid k hk) hdt hdt1 (hz k hk) hx (e1.trans e2)
    exact ⟨y, hy1, hy2.trans (mul_le_mul_of_nonneg_left e1 hε)⟩
  · intro k _ g x Y hg hx
    exact strang_lip hg hdt hB hC hS hT hx (hd.lipschitz _ _ _) (hs.lipschitz _ _ _)
  · intro k _ g x hg hx
    exact strang_grow hg hdt hB hC hS hT (by positivity) hx (hd.growth _ _) (hs.growth _ _)

theorem strangExact_scale {b s : F64 → ℝ → ℝ} {r dt h x0 : ℝ} {time mid z : ℕ → F64} (h1 : r * dt = h) (k : ℕ) :
    strangExact (fun t x => b t x * r) s dt time mid z x0 k = strangExact b s h time mid z x0 k := by
  induction k with
  | zero => rfl
  | succ k ih => simp only [strangExact]; rw [ih, mul_assoc _ r, h1]

theorem strangSize_scale {B C S T r dt h x0 : ℝ} {z : ℕ → F64} (h1 : r * dt = h) (k : ℕ) :
    strangSize (B * r) (C * r) S T dt z x0 k = strangSize B C S T h z x0 k := by
  induction k with
  | zero => rfl
  | succ k ih => simp only [strangSize]; rw [ih, ← h1]; ring

end Verif.Float.Sim
