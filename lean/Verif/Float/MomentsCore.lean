import Verif.Float.MomentsRun

/-! Helper lemmas: skewness and kurtosis in terms of the rounded deviations. -/

namespace Verif.Float.Corr
open Verif.Float Verif.Float.Fft Verif.Float.Sim Verif.Float.Bsm

/-! ## Sums of powers of numbers with a given sum of squares -/

theorem sq_le_sum {α : Type} (f : α → ℝ) (xs : List α) (x : α) (hx : x ∈ xs) : f x ^ 2 ≤ (xs.map fun x => f x ^ 2).sum := by
  apply List.single_le_sum
  · intro y hy
    obtain ⟨z, _, rfl⟩ := List.mem_map.1 hy
    positivity
  · exact List.mem_map.2 ⟨x, hx, rfl⟩

theorem abs_le_root {α : Type} (f : α → ℝ) {N : ℝ} (xs : List α) (h : (xs.map fun x => f x ^ 2).sum = N) (x : α) (hx : x ∈ xs) :
    |f x| ≤ √N := by
  rw [← h]
  exact Real.abs_le_sqrt (sq_le_sum f xs x hx)

theorem cubes_le {α : Type} (f : α → ℝ) {N : ℝ} (xs : List α) (h : (xs.map fun x => f x ^ 2).sum = N) :
    (xs.map fun x => |f x ^ 3|).sum ≤ N * √N := by
  calc (xs.map fun x => |f x ^ 3|).sum ≤ (xs.map fun x => f x ^ 2 * √N).sum := by
        apply List.sum_le_sum
        intro x hx
        rw [abs_pow, pow_succ, sq_abs]
        exact mul_le_mul_of_nonneg_left (abs_le_root f xs h x hx) (by positivity)
    _ = N * √N := by rw [List.sum_map_mul_right, h]

theorem fourths_le {α : Type} (f : α → ℝ) {N : ℝ} (xs : List α) (h : (xs.map fun x => f x ^ 2).sum = N) :
    (xs.map fun x => |f x ^ 4|).sum ≤ N * N := by
  calc (xs.map fun x => |f x ^ 4|).sum ≤ (xs.map fun x => f x ^ 2 * N).sum := by
        apply List.sum_le_sum
        intro x hx
        rw [abs_pow, show |f x| ^ 4 = |f x| ^ 2 * |f x| ^ 2 by ring, sq_abs]
        refine mul_le_mul_of_nonneg_left ?_ (by positivity)
        rw [← h]
        exact sq_le_sum f xs x hx
    _ = N * N := by rw [List.sum_map_mul_right, h]

theorem sum_sub_le {α : Type} (f g b : α → ℝ) (xs : List α) (h : ∀ x ∈ xs, |f x - g x| ≤ b x) :
    |(xs.map f).sum - (xs.map g).sum| ≤ (xs.map b).sum := by
  induction xs with
  | nil => simp
  | cons x xs ih =>
    simp only [List.map_cons, List.sum_cons]
    rw [show f x + (xs.map f).sum - (g x + (xs.map g).sum) = (f x - g x) + ((xs.map f).sum - (xs.map g).sum) by ring]
    exact (abs_add_le _ _).trans (_root_.add_le_add (h x List.mem_cons_self) (ih fun z hz => h z (List.mem_cons_of_mem _ hz)))

theorem cubes_near {α : Type} (f g : α → ℝ) {N E : ℝ} (xs : List α) (hf : (xs.map fun x => f x ^ 2).sum = N)
    (hg : (xs.map fun x => g x ^ 2).sum = N) (hE : ∀ x ∈ xs, |f x - g x| ≤ E) :
    |(xs.map fun x => f x ^ 3).sum - (xs.map fun x => g x ^ 3).sum| ≤ 3 * E * N := by
  refine (sum_sub_le _ _ (fun x => 3 / 2 * E * (f x ^ 2 + g x ^ 2)) xs ?_).trans (le_of_eq ?_)
  · intro x hx
    have h1 := hE x hx
    have e : f x ^ 3 - g x ^ 3 = (f x - g x) * (f x ^ 2 + f x * g x + g x ^ 2) := by ring
    have h2 : |f x ^ 2 + f x * g x + g x ^ 2| ≤ 3 / 2 * (f x ^ 2 + g x ^ 2) := by
      rw [abs_le]
      constructor <;> nlinarith [sq_nonneg (f x + g x), sq_nonneg (f x - g x)]
    rw [e, abs_mul]
    have := mul_le_mul h1 h2 (abs_nonneg _) ((abs_nonneg _).trans h1)
    linarith
  · rw [List.sum_map_mul_left, List.sum_map_add, hf, hg]
    ring

theorem fourths_near {α : Type} (f g : α → ℝ) {N E : ℝ} (xs : List α) (hf : (xs.map fun x => f x ^ 2).sum = N)
    (hg : (xs.map fun x => g x ^ 2).sum = N) (hE : ∀ x ∈ xs, |f x - g x| ≤ E) :
    |(xs.map fun x => f x ^ 4).sum - (xs.map fun x => g x ^ 4).sum| ≤ 4 * √N * E * N := by
  refine (sum_sub_le _ _ (fun x => 2 * √N * E * (f x ^ 2 + g x ^ 2)) xs ?_).trans (le_of_eq ?_)
  · intro x hx
    have h1 := hE x hx
    have e : f x ^ 4 - g x ^ 4 = (f x - g x) * ((f x + g x) * (f x ^ 2 + g x ^ 2)) := by ring
    have h2 : |(f x + g x) * (f x ^ 2 + g x ^ 2)| ≤ 2 * √N * (f x ^ 2 + g x ^ 2) := by
      rw [abs_mul, abs_of_nonneg (show 0 ≤ f x ^ 2 + g x ^ 2 by positivity)]
      refine mul_le_mul_of_nonneg_right ((abs_add_le _ _).trans ?_) (by positivity)
      have h3 := abs_le_root f xs hf x hx
      have h4 := abs_le_root g xs hg x hx
      linarith
    rw [e, abs_mul]
    have := mul_le_mul h1 h2 (abs_nonneg _) ((abs_nonneg _).trans h1)
    linarith
  · rw [List.sum_map_mul_left, List.sum_map_add, hf, hg]
    ring

/-! ## Standardised deviations -/

/-- The standardised rounded deviations have `n - 1` as the sum of their squares. -/
theorem standard_sq {α : Type} (f : α → ℝ) (xs : List α) {N : ℝ} (hN : 0 < N) (h0 : ‖vec xs f‖ ≠ 0) :
    (xs.map fun x => (f x / (‖vec xs f‖ / √N)) ^ 2).sum = N := by
  have h1 : ‖vec xs f‖ ^ 2 = (xs.map fun x => f x ^ 2).sum := by
    rw [vec_norm, Real.sq_sqrt]
    apply List.sum_nonneg
    intro y hy
    obtain ⟨x, _, rfl⟩ := List.mem_map.1 hy
    positivity
  have h2 : √N ^ 2 = N := Real.sq_sqrt hN.le
  have h3 : 0 < √N := Real.sqrt_pos.2 hN
  have h4 : (fun x => (f x / (‖vec xs f‖ / √N)) ^ 2) = fun x => f x ^ 2 * (N / ‖vec xs f‖ ^ 2) := by
    funext x
    rw [div_pow, div_pow, h2]
    field_simp
  rw [h4, List.sum_map_mul_right, ← h1]
  field_simp

theorem vec_apply_le {α : Type} (xs : List α) (f : α → ℝ) (x : α) (hx : x ∈ xs) : |f x| ≤ ‖vec xs f‖ := by
  rw [vec_norm]
  exact Real.abs_le_sqrt (sq_le_sum f xs x hx)

theorem vec_smul {α : Type} (xs : List α) (f : α → ℝ) (c : ℝ) : c • vec xs f = vec xs fun x => c * f x := by
  ext i; simp [vec]

/-- Standardised deviations move little when the deviations move little. -/
theorem standard_diff {α : Type} (f g : α → ℝ) (xs : List α) {N η : ℝ} (hN : 0 < N) (hf : ‖vec xs f‖ ≠ 0) (hg : ‖vec xs g‖ ≠ 0)
    (h : ‖vec xs fun x => f x - g x‖ ≤ η * ‖vec xs g‖) (x : α) (hx : x ∈ xs) :
    |f x / (‖vec xs f‖ / √N) - g x / (‖vec xs g‖ / √N)| ≤ 2 * η * √N := by
  have h3 : 0 < √N := Real.sqrt_pos.2 hN
  have h1 := unit_near (vec xs f) (vec xs g) (norm_ne_zero_iff.1 hf) (norm_ne_zero_iff.1 hg)
  rw [vec_smul, vec_smul, vec_sub, vec_sub] at h1
  have h2 := vec_apply_le xs (fun x => ‖vec xs f‖⁻¹ * f x - ‖vec xs g‖⁻¹ * g x) x hx
  have h4 : ‖vec xs fun x => f x - g x‖ / ‖vec xs g‖ ≤ η := by
    rw [div_le_iff₀ (lt_of_le_of_ne (norm_nonneg _) (Ne.symm hg))]
    exact h
  have e : f x / (‖vec xs f‖ / √N) - g x / (‖vec xs g‖ / √N) = √N * (‖vec xs f‖⁻¹ * f x - ‖vec xs g‖⁻¹ * g x) := by
    field_simp
  rw [e, abs_mul, abs_of_pos h3]
  have h5 : |‖vec xs f‖⁻¹ * f x - ‖vec xs g‖⁻¹ * g x| ≤ 2 * η := by
    refine h2.trans (h1.trans ?_)
    linarith
  have := mul_le_mul_of_nonneg_left h5 h3.le
  linarith

/-! ## The results -/

/-- The standardised rounded deviation of `x`. -/
noncomputable def wt (m : F64) (xs : List F64) (x : F64) : ℝ := (dv m x : ℝ) / (‖devs m xs‖ / √(xs.length - 1 : ℝ))

theorem wt_sq (m : F64) (xs : List F64) (h1 : 2 ≤ xs.length) (h0 : ‖devs m xs‖ ≠ 0) :
    (xs.map fun x => wt m xs x ^ 2).sum = xs.length - 1 := by
  have : (2 : ℝ) ≤ xs.length := by exact_mod_cast h1
  exact standard_sq (fun x => (dv m x : ℝ)) xs (by linarith) h0

theorem root_le {n : ℕ} (h2 : n ≤ 2 ^ 40) : √((n : ℝ) - 1) ≤ 2 ^ 20 := by
  rw [Real.sqrt_le_iff]
  have : (n : ℝ) ≤ 2 ^ 40 := by exact_mod_cast h2
  exact ⟨by positivity, by rw [← pow_mul, show 20 * 2 = 40 by norm_num]; linarith⟩

theorem gam_eq (n : ℕ) : gam n = 2 * (ur * n) := by unfold gam ur; norm_num; ring

theorem un_le {n : ℕ} (h : n ≤ 2 ^ 40) : ur * (n : ℝ) ≤ 1 / 2000 := by
  have := gam_le h
  rw [gam_eq] at this
  linarith

/-- What a run of `skewness` or `kurtosis` on data of ordinary size starts from. -/
theorem run_moments (sq : F64 → F64) (hq : CorrectSqrt sq) (xs : List F64) (ht : Tame xs) (h1 : 2 ≤ xs.length) (h2 : xs.length ≤ 2 ^ 40) :
    ∃ n m σ, ofNat xs.length = some n ∧ n.val = xs.length ∧ mean xs = .ok m ∧ standardDeviation sq xs = .ok σ ∧
      |F64.real m - avg xs| ≤ 2 ^ (-51 : ℤ) * (xs.map fun x => |(x.val : ℝ)|).sum ∧
      (‖devs m xs‖ = 0 ↔ ∀ x ∈ xs, mean xs = .ok x) ∧ (‖devs m xs‖ = 0 → σ.val = 0) ∧
      (‖devs m xs‖ ≠ 0 → ∀ (k : ℕ) (power : F64 → Option F64) (ρ X : ℝ),
        (∀ z : F64, ∀ w : ℝ, |w| ≤ 2 ^ 20 → Near z w (16 / 7 * (ur * xs.length) + 9 * ur) mu → ∃ c, power z = some c ∧ Near c (w ^ k) ρ tau) →
        0 ≤ ρ → ρ ≤ 1 / 8 → (xs.map fun x => |wt m xs x ^ k|).sum ≤ X → 1 ≤ X → X ≤ 2 ^ 100 →
        ∃ S, powerSum power m σ xs = some S ∧
          |F64.real S - (xs.map fun x => wt m xs x ^ k).sum| ≤ (ρ + 9 / 4 * (ur * xs.length) + ur) * X) := by
  obtain ⟨s, n, m, σ, hs, hn, hnv, hm, gx, hme, hsd, hσ⟩ := run_sd sq hq xs ht h1 h2
  have hmean := mean_of h1 hs hn hm
  refine ⟨n, m, σ, hn, hnv, hmean, hsd, hme, ?_, ?_, ?_⟩
  · rw [devs_zero, hmean]
    exact forall₂_congr fun x _ => ⟨fun h => by rw [h], fun h => (Res.ok.inj h).symm⟩
  · intro h
    rw [h] at hσ
    simp only [zero_div, sub_zero, mul_zero] at hσ
    exact real_zero.1 (abs_nonpos_iff.1 hσ)
  · intro h0 k power ρ X hpow r0 r1 hX x1 hX'
    have hN : (1 : ℝ) ≤ xs.length - 1 := by
      have : (2 : ℝ) ≤ xs.length := by exact_mod_cast h1
      linarith
    have hu := ur_pos
    have hu1 := ur_small
    have hg := gam_nonneg xs.length
    have hg1 := gam_le h2
    have ha : 0 < ‖devs m xs‖ / √(xs.length - 1 : ℝ) :=
      div_pos (lt_of_le_of_ne (norm_nonneg _) (Ne.symm h0)) (Real.sqrt_pos.2 (by linarith))
    have hge := gam_eq xs.length
    refine powerSum_near k power ρ X m σ xs ha (γ := gam xs.length + 6 * ur) (by linarith) (by linarith) hσ gx ?_ ?_ h2 r0 r1 hX x1 hX'
    · intro x hx
      exact (abs_le_root (wt m xs) xs (wt_sq m xs h1 h0) x hx).trans (root_le h2)
    · intro z w hw hz
      refine hpow z w hw (near_mono hz ?_ le_rfl)
      rw [hge]
      linarith

/-- The factor of the sum of the cubes, times the largest possible sum. -/
noncomputable def skewMax (n : ℕ) : ℝ := n * √((n : ℝ) - 1) / (n - 2)

/-- The factor of the sum of the fourth powers, times the largest possible sum. -/
noncomputable def kurtMax (n : ℕ) : ℝ := n * (n + 1) * (n - 1) / ((n - 2) * (n - 3))

theorem powerSum_zero (power : F64 → Option F64) (m σ : F64) (xs : List F64) (h1 : xs ≠ []) (hσ : σ.val = 0) : powerSum power m σ xs = none := by
  cases xs with
  | nil => exact absurd rfl h1
  | cons x xs =>
    unfold powerSum
    rw [List.mapM_cons]
    have : (do power (← (← x.sub m).div σ) : Option F64) = none := by
      cases x.sub m with
      | none => rfl
      | some d =>
        simp only [Option.bind_eq_bind, Option.bind_some]
        unfold F64.div
        rw [if_pos hσ]; rfl
    rw [this]
    rfl

theorem skew_core (sq : F64 → F64) (hq : CorrectSqrt sq) (xs : List F64) (ht : Tame xs) (h1 : 3 ≤ xs.length) (h2 : xs.length ≤ 2 ^ 40) :
    ∃ m, mean xs = .ok m ∧ |F64.real m - avg xs| ≤ 2 ^ (-51 : ℤ) * (xs.map fun x => |(x.val : ℝ)|).sum ∧
      (‖devs m xs‖ = 0 ↔ ∀ x ∈ xs, mean xs = .ok x) ∧ (‖devs m xs‖ = 0 → skewness sq xs = .nonfinite) ∧
      (‖devs m xs‖ ≠ 0 → ∃ r, skewness sq xs = .ok r ∧
        |F64.real r - xs.length / ((xs.length - 1) * (xs.length - 2)) * (xs.map fun x => wt m xs x ^ 3).sum| ≤
          ur * (10 * xs.length + 54) * skewMax xs.length) := by
  obtain ⟨n, m, σ, hn, hnv, hmean, hsd, hme, hz, hz', hrun⟩ := run_moments sq hq xs ht (by omega) h2
  refine ⟨m, hmean, hme, hz, ?_, ?_⟩
  · intro h0
    unfold skewness
    rw [if_neg (by omega), hmean, hsd]
    simp only [powerSum_zero cube m σ xs (by rintro rfl; simp at h1) (hz' h0), Option.bind_eq_bind, Option.bind_none, Res.of]
  · intro h0
    have hu := ur_pos
    have hu1 := ur_small
    have hL3 : (3 : ℝ) ≤ xs.length := by exact_mod_cast h1
    have hun := un_le h2
    have hun0 : 0 ≤ ur * (xs.length : ℝ) := by positivity
    have hsq1 : 1 ≤ √((xs.length : ℝ) - 1) := by rw [Real.one_le_sqrt]; linarith
    have hsq2 := root_le (n := xs.length) h2
    have hw2 := wt_sq m xs (by omega) h0
    have hX := cubes_le (wt m xs) xs hw2
    have hL40 : (xs.length : ℝ) ≤ 2 ^ 40 := by exact_mod_cast h2
    obtain ⟨S, hS, hSe⟩ := hrun h0 3 cube (16 / 5 * (16 / 7 * (ur * xs.length) + 9 * ur) + 5 * ur) _
      (fun z w hw hz => cube_near (by linarith) (by linarith) hw hz) (by linarith) (by linarith) hX (by nlinarith) (by
        calc ((xs.length : ℝ) - 1) * √((xs.length : ℝ) - 1) ≤ 2 ^ 40 * 2 ^ 20 := mul_le_mul (by linarith) hsq2 (by linarith) (by positivity)
          _ ≤ 2 ^ 100 := by rw [← pow_add]; exact pow_le_pow_right₀ (by norm_num) (by norm_num))
    have hXb : ((xs.length : ℝ) - 1) * √((xs.length : ℝ) - 1) ≤ 2 ^ 84 := by
      calc ((xs.length : ℝ) - 1) * √((xs.length : ℝ) - 1) ≤ 2 ^ 40 * 2 ^ 20 := mul_le_mul (by linarith) hsq2 (by linarith) (by positivity)
        _ ≤ 2 ^ 84 := by rw [← pow_add]; exact pow_le_pow_right₀ (by norm_num) (by norm_num)
    have hXe : skewMax xs.length = xs.length / ((xs.length - 1) * (xs.length - 2)) * (((xs.length : ℝ) - 1) * √((xs.length : ℝ) - 1)) := by
      unfold skewMax
      have : (xs.length : ℝ) - 1 ≠ 0 := by linarith
      have : (xs.length : ℝ) - 2 ≠ 0 := by linarith
      field_simp
    have hX1 : 1 ≤ ((xs.length : ℝ) - 1) * √((xs.length : ℝ) - 1) := by nlinarith
    have hM1 : 1 ≤ skewMax xs.length := by
      unfold skewMax
      rw [one_le_div (by linarith)]
      nlinarith
    have hT : |(xs.map fun x => wt m xs x ^ 3).sum| ≤ ((xs.length : ℝ) - 1) * √((xs.length : ℝ) - 1) := by
      refine le_trans ?_ hX
      have := sum_sub_le (fun x => wt m xs x ^ 3) (fun _ => 0) (fun x => |wt m xs x ^ 3|) xs (fun x _ => by simp)
      simpa using this
    have hK : (0 : ℝ) ≤ xs.length / ((xs.length - 1) * (xs.length - 2)) :=
      div_nonneg (by linarith) (mul_nonneg (by linarith) (by linarith))
    generalize (((xs.length : ℝ) - 1) * √((xs.length : ℝ) - 1)) = X at *
    generalize (xs.map fun x => wt m xs x ^ 3).sum = T at *
    have hD : |F64.real S - T| ≤ (10 * (ur * xs.length) + 35 * ur) * X := hSe.trans (mul_le_mul_of_nonneg_right (by linarith) (by linarith))
    have hS2 : |F64.real S| ≤ 2 * X := by
      have h3 := abs_sub_abs_le_abs_sub (F64.real S) T
      have h4 : (10 * (ur * xs.length) + 35 * ur) * X ≤ 1 * X := mul_le_mul_of_nonneg_right (by linarith) (by linarith)
      linarith
    obtain ⟨r, hr, hre⟩ := scaleSkew_near (t := S) hnv h1 h2 (by
      refine hS2.trans ?_
      rw [show (2 : ℝ) ^ 85 = 2 * 2 ^ 84 by rw [pow_succ]; ring]
      linarith)
    refine ⟨r, ?_, ?_⟩
    · unfold skewness
      rw [if_neg (by omega), hmean, hsd]
      simp only [Option.bind_eq_bind, Option.bind_some, hS, hn, hr, Res.of]
    · unfold Near at hre
      have e : F64.real S * xs.length / ((xs.length - 1) * (xs.length - 2)) = xs.length / ((xs.length - 1) * (xs.length - 2)) * F64.real S := by ring
      rw [e] at hre
      rw [hXe] at hM1 ⊢
      generalize (xs.length : ℝ) / ((xs.length - 1) * (xs.length - 2)) = K at *
      rw [abs_mul, abs_of_nonneg hK] at hre
      have h5 : K * |F64.real S| ≤ K * (2 * X) := mul_le_mul_of_nonneg_left hS2 hK
      have h6 : |K * F64.real S - K * T| ≤ K * ((10 * (ur * xs.length) + 35 * ur) * X) := by
        rw [← mul_sub, abs_mul, abs_of_nonneg hK]
        exact mul_le_mul_of_nonneg_left hD hK
      have hm16 : 3 * mu ≤ ur := by
        have h7 := mu_scale 4 (-53) (by norm_num)
        change _ ≤ ur at h7
        have := mu_pos
        norm_num at h7
        linarith
      have h8 : 9 * ur * (K * |F64.real S|) ≤ 9 * ur * (K * (2 * X)) := mul_le_mul_of_nonneg_left h5 (by linarith)
      have h9 : ur * 1 ≤ ur * (K * X) := mul_le_mul_of_nonneg_left hM1 hu.le
      rw [show F64.real r - K * T = (F64.real r - K * F64.real S) + (K * F64.real S - K * T) by ring]
      refine (abs_add_le _ _).trans ?_
      linarith

theorem kurt_algebra {r S K X T B u n : ℝ} (hu : 0 < u) (hK : 0 ≤ K) (hM1 : 1 ≤ K * X) (hB : B ≤ K * X)
    (hD : |S - T| ≤ (13 * (u * n) + 48 * u) * X) (hS2 : |S| ≤ 2 * X)
    (hre : |r - (K * S - B)| ≤ 22 * u * (|K * S| + B) + u / 2) : |r - (K * T - B)| ≤ u * (13 * n + 115) * (K * X) := by
  rw [abs_mul, abs_of_nonneg hK] at hre
  have h5 : K * |S| ≤ K * (2 * X) := mul_le_mul_of_nonneg_left hS2 hK
  have h6 : |K * S - K * T| ≤ K * ((13 * (u * n) + 48 * u) * X) := by
    rw [← mul_sub, abs_mul, abs_of_nonneg hK]
    exact mul_le_mul_of_nonneg_left hD hK
  have h8 : 22 * u * (K * |S| + B) ≤ 22 * u * (3 * (K * X)) := mul_le_mul_of_nonneg_left (by linarith) (by linarith)
  have h9 : u * 1 ≤ u * (K * X) := mul_le_mul_of_nonneg_left hM1 hu.le
  rw [show r - (K * T - B) = (r - (K * S - B)) + (K * S - K * T) by ring]
  refine (abs_add_le _ _).trans ?_
  linarith

theorem kurtMax_facts {L : ℝ} (hL : 4 ≤ L) :
    L * (L + 1) * (L - 1) / ((L - 2) * (L - 3)) = L * (L + 1) / ((L - 1) * (L - 2) * (L - 3)) * ((L - 1) * (L - 1)) ∧
    3 * ((L - 1) * (L - 1)) / ((L - 2) * (L - 3)) ≤ L * (L + 1) * (L - 1) / ((L - 2) * (L - 3)) ∧
    1 ≤ L * (L + 1) * (L - 1) / ((L - 2) * (L - 3)) ∧ 0 ≤ L * (L + 1) / ((L - 1) * (L - 2) * (L - 3)) := by
  have hP : 0 < (L - 2) * (L - 3) := mul_pos (by linarith) (by linarith)
  refine ⟨?_, ?_, ?_, ?_⟩
  · have : L - 1 ≠ 0 := by linarith
    have : L - 2 ≠ 0 := by linarith
    have : L - 3 ≠ 0 := by linarith
    field_simp
  · refine div_le_div_of_nonneg_right ?_ hP.le
    have h3 : 3 * (L - 1) ≤ L * (L + 1) := by nlinarith
    have := mul_le_mul_of_nonneg_right h3 (show 0 ≤ L - 1 by linarith)
    linarith
  · rw [one_le_div hP]
    have h3 : L - 2 ≤ L * (L + 1) := by nlinarith
    exact mul_le_mul h3 (by linarith) (by linarith) (by nlinarith)
  · exact div_nonneg (by nlinarith) (mul_nonneg (mul_nonneg (by linarith) (by linarith)) (by linarith))

theorem bind_two (g : F64 → F64 → Option F64) {a b : Option F64} {x y : F64} (ha : a = some x) (hb : b = some y) :
    (do g (← a) (← b)) = g x y := by
  rw [ha, hb]; rfl

theorem kurtosis_of {sq : F64 → F64} {xs : List F64} {m σ n S r : F64} (h : ¬ xs.length ≤ 3) (hm : mean xs = .ok m)
    (hs : standardDeviation sq xs = .ok σ) (hS : powerSum fourth m σ xs = some S) (hn : ofNat xs.length = some n)
    (hr : scaleKurt S n = some r) : kurtosis sq xs = .ok r := by
  have h1 : kurtosis sq xs = .of (do scaleKurt (← powerSum fourth m σ xs) (← ofNat xs.length)) := by
    unfold kurtosis
    rw [if_neg h, hm, hs]
  rw [h1, bind_two scaleKurt hS hn, hr]
  rfl

theorem kurt_core (sq : F64 → F64) (hq : CorrectSqrt sq) (xs : List F64) (ht : Tame xs) (h1 : 4 ≤ xs.length) (h2 : xs.length ≤ 2 ^ 40) :
    ∃ m, mean xs = .ok m ∧ |F64.real m - avg xs| ≤ 2 ^ (-51 : ℤ) * (xs.map fun x => |(x.val : ℝ)|).sum ∧
      (‖devs m xs‖ = 0 ↔ ∀ x ∈ xs, mean xs = .ok x) ∧ (‖devs m xs‖ = 0 → kurtosis sq xs = .nonfinite) ∧
      (‖devs m xs‖ ≠ 0 → ∃ r, kurtosis sq xs = .ok r ∧
        |F64.real r - (xs.length * (xs.length + 1) / ((xs.length - 1) * (xs.length - 2) * (xs.length - 3)) * (xs.map fun x => wt m xs x ^ 4).sum -
            3 * (xs.length - 1) ^ 2 / ((xs.length - 2) * (xs.length - 3)))| ≤
          ur * (13 * xs.length + 115) * kurtMax xs.length) := by
  obtain ⟨n, m, σ, hn, hnv, hmean, hsd, hme, hz, hz', hrun⟩ := run_moments sq hq xs ht (by omega) h2
  refine ⟨m, hmean, hme, hz, ?_, ?_⟩
  · intro h0
    unfold kurtosis
    rw [if_neg (by omega), hmean, hsd]
    simp only [powerSum_zero fourth m σ xs (by rintro rfl; simp at h1) (hz' h0), Option.bind_eq_bind, Option.bind_none, Res.of]
  · intro h0
    have hu := ur_pos
    have hu1 := ur_small
    have hL4 : (4 : ℝ) ≤ xs.length := by exact_mod_cast h1
    have hun := un_le h2
    have hun0 : 0 ≤ ur * (xs.length : ℝ) := by positivity
    have hw2 := wt_sq m xs (by omega) h0
    have hX := fourths_le (wt m xs) xs hw2
    have hL40 : (xs.length : ℝ) ≤ 2 ^ 40 := by exact_mod_cast h2
    have hXb : ((xs.length : ℝ) - 1) * (xs.length - 1) ≤ 2 ^ 80 := by
      calc ((xs.length : ℝ) - 1) * (xs.length - 1) ≤ 2 ^ 40 * 2 ^ 40 := mul_le_mul (by linarith) (by linarith) (by linarith) (by positivity)
        _ = 2 ^ 80 := by rw [← pow_add]
    have hX1 : 1 ≤ ((xs.length : ℝ) - 1) * (xs.length - 1) := by nlinarith
    obtain ⟨S, hS, hSe⟩ := hrun h0 4 fourth (22 / 5 * (16 / 7 * (ur * xs.length) + 9 * ur) + 7 * ur) _
      (fun z w hw hz => fourth_near (by linarith) (by linarith) hw hz) (by linarith) (by linarith) hX hX1
      (hXb.trans (pow_le_pow_right₀ (by norm_num) (by norm_num)))
    obtain ⟨hXe, hB, hM1, hK⟩ := kurtMax_facts hL4
    have hT : |(xs.map fun x => wt m xs x ^ 4).sum| ≤ ((xs.length : ℝ) - 1) * (xs.length - 1) := by
      refine le_trans ?_ hX
      have := sum_sub_le (fun x => wt m xs x ^ 4) (fun _ => 0) (fun x => |wt m xs x ^ 4|) xs (fun x _ => by simp)
      simpa using this
    have hD : |F64.real S - (xs.map fun x => wt m xs x ^ 4).sum| ≤ (13 * (ur * xs.length) + 48 * ur) * (((xs.length : ℝ) - 1) * (xs.length - 1)) :=
      hSe.trans (mul_le_mul_of_nonneg_right (by linarith) (by linarith))
    have hS2 : |F64.real S| ≤ 2 * (((xs.length : ℝ) - 1) * (xs.length - 1)) := by
      have h3 := abs_sub_abs_le_abs_sub (F64.real S) (xs.map fun x => wt m xs x ^ 4).sum
      have h4 : (13 * (ur * xs.length) + 48 * ur) * (((xs.length : ℝ) - 1) * (xs.length - 1)) ≤ 1 * (((xs.length : ℝ) - 1) * (xs.length - 1)) :=
        mul_le_mul_of_nonneg_right (by linarith) (by linarith)
      linarith
    obtain ⟨r, hr, hre⟩ := scaleKurt_near (t := S) hnv h1 h2 (by
      refine hS2.trans ?_
      have h3 : (2 : ℝ) * 2 ^ 80 ≤ 2 ^ 84 := by norm_num
      linarith)
    refine ⟨r, ?_, ?_⟩
    · exact kurtosis_of (by omega) hmean hsd hS hn hr
    · have e : F64.real S * xs.length * (xs.length + 1) / ((xs.length - 1) * (xs.length - 2) * (xs.length - 3)) =
          xs.length * (xs.length + 1) / ((xs.length - 1) * (xs.length - 2) * (xs.length - 3)) * F64.real S := by
        rw [mul_assoc (F64.real S), mul_comm (F64.real S), mul_div_right_comm]
      rw [e] at hre
      rw [show 3 * ((xs.length : ℝ) - 1) ^ 2 = 3 * ((xs.length - 1) * (xs.length - 1)) by ring]
      unfold kurtMax
      rw [hXe] at hM1 hB ⊢
      exact kurt_algebra hu hK hM1 hB hD hS2 hre

end Verif.Float.Corr
