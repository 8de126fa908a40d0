import Verif.Float.MomentsCore

/-!
# C112: skewness and kurtosis in double precision
-/

namespace Verif.Float.Corr
open Verif.Float Verif.Float.Fft Verif.Float.Sim Verif.Float.Bsm

/-! ## Panics -/

theorem mean_panic (xs : List F64) (h : xs ≠ []) : mean xs ≠ .panic := by
  unfold mean
  rw [if_neg h]
  exact res_of_ne _

/-- C112: the skewness panics exactly for fewer than three entries, the kurtosis exactly for fewer than four, for all data. -/
theorem C112_panics (sq : F64 → F64) (xs : List F64) :
    (skewness sq xs = .panic ↔ xs.length < 3) ∧ (kurtosis sq xs = .panic ↔ xs.length < 4) := by
  constructor
  · unfold skewness
    split_ifs with h
    · exact iff_of_true rfl (by omega)
    · refine iff_of_false ?_ (by omega)
      have h1 := mean_panic xs (by rintro rfl; simp at h)
      have h2 : standardDeviation sq xs ≠ .panic := fun h' => by have := (C99_panics sq xs []).2.1 h'; omega
      cases hm : mean xs with
      | panic => exact absurd hm h1
      | nonfinite => cases hs : standardDeviation sq xs <;> simp_all
      | ok m =>
        cases hs : standardDeviation sq xs with
        | panic => exact absurd hs h2
        | nonfinite => simp
        | ok s => exact res_of_ne _
  · unfold kurtosis
    split_ifs with h
    · exact iff_of_true rfl (by omega)
    · refine iff_of_false ?_ (by omega)
      have h1 := mean_panic xs (by rintro rfl; simp at h)
      have h2 : standardDeviation sq xs ≠ .panic := fun h' => by have := (C99_panics sq xs []).2.1 h'; omega
      cases hm : mean xs with
      | panic => exact absurd hm h1
      | nonfinite => cases hs : standardDeviation sq xs <;> simp_all
      | ok m =>
        cases hs : standardDeviation sq xs with
        | panic => exact absurd hs h2
        | nonfinite => simp
        | ok s => exact res_of_ne _

example (sq : F64 → F64) : skewness sq [lit 1, lit 2] = .panic ∧ kurtosis sq [lit 1, lit 2, lit 7] = .panic :=
  ⟨(C112_panics sq _).1.2 (by simp), (C112_panics sq _).2.2 (by simp)⟩

/-! ## Data without deviations -/

theorem skew_size (m : F64) (xs : List F64) (h1 : 3 ≤ xs.length) (h0 : ‖devs m xs‖ ≠ 0) :
    |xs.length / ((xs.length - 1) * (xs.length - 2)) * (xs.map fun x => wt m xs x ^ 3).sum| ≤ skewMax xs.length := by
  have hL3 : (3 : ℝ) ≤ xs.length := by exact_mod_cast h1
  have hX := cubes_le (wt m xs) xs (wt_sq m xs (by omega) h0)
  have hT : |(xs.map fun x => wt m xs x ^ 3).sum| ≤ ((xs.length : ℝ) - 1) * √((xs.length : ℝ) - 1) := by
    refine le_trans ?_ hX
    have := sum_sub_le (fun x => wt m xs x ^ 3) (fun _ => 0) (fun x => |wt m xs x ^ 3|) xs (fun x _ => by simp)
    simpa using this
  have hK : (0 : ℝ) ≤ xs.length / ((xs.length - 1) * (xs.length - 2)) :=
    div_nonneg (by linarith) (mul_nonneg (by linarith) (by linarith))
  rw [abs_mul, abs_of_nonneg hK]
  refine (mul_le_mul_of_nonneg_left hT hK).trans (le_of_eq ?_)
  unfold skewMax
  have : (xs.length : ℝ) - 1 ≠ 0 := by linarith
  have : (xs.length : ℝ) - 2 ≠ 0 := by linarith
  field_simp

theorem kurt_size (m : F64) (xs : List F64) (h1 : 4 ≤ xs.length) (h0 : ‖devs m xs‖ ≠ 0) :
    |xs.length * (xs.length + 1) / ((xs.length - 1) * (xs.length - 2) * (xs.length - 3)) * (xs.map fun x => wt m xs x ^ 4).sum -
      3 * (xs.length - 1) ^ 2 / ((xs.length - 2) * (xs.length - 3))| ≤ kurtMax xs.length := by
  have hL4 : (4 : ℝ) ≤ xs.length := by exact_mod_cast h1
  have hX := fourths_le (wt m xs) xs (wt_sq m xs (by omega) h0)
  have hT1 : (xs.map fun x => wt m xs x ^ 4).sum ≤ ((xs.length : ℝ) - 1) * (xs.length - 1) := by
    refine le_trans (List.sum_le_sum fun x _ => le_abs_self _) hX
  have hT0 : 0 ≤ (xs.map fun x => wt m xs x ^ 4).sum := by
    apply List.sum_nonneg
    intro y hy
    obtain ⟨x, _, rfl⟩ := List.mem_map.1 hy
    positivity
  obtain ⟨hXe, hB, hM1, hK⟩ := kurtMax_facts hL4
  have hB0 : (0 : ℝ) ≤ 3 * (xs.length - 1) ^ 2 / ((xs.length - 2) * (xs.length - 3)) :=
    div_nonneg (by positivity) (mul_nonneg (by linarith) (by linarith))
  rw [← pow_two] at hB
  unfold kurtMax
  have h5 := mul_le_mul_of_nonneg_left hT1 hK
  rw [← hXe] at h5
  have h6 := mul_nonneg hK hT0
  rw [abs_le]
  constructor <;> linarith

theorem skewMax_ge {n : ℕ} (h1 : 3 ≤ n) : 0 ≤ skewMax n := by
  have hL3 : (3 : ℝ) ≤ n := by exact_mod_cast h1
  unfold skewMax
  exact div_nonneg (by positivity) (by linarith)

theorem kurtMax_ge {n : ℕ} (h1 : 4 ≤ n) : 0 ≤ kurtMax n := by
  have hL4 : (4 : ℝ) ≤ n := by exact_mod_cast h1
  have := (kurtMax_facts hL4).2.2.1
  unfold kurtMax
  linarith

/-- C112: for data of ordinary size the skewness and the kurtosis are numbers unless every entry equals the computed mean; then they
are NaN. And they are never far outside of what `n` data allow. -/
theorem C112_finite (sq : F64 → F64) (hq : CorrectSqrt sq) (xs : List F64) (hx : Tame xs) (h2 : xs.length ≤ 2 ^ 40) :
    (3 ≤ xs.length → (skewness sq xs = .nonfinite ↔ ∀ x ∈ xs, mean xs = .ok x) ∧
      ∀ r, skewness sq xs = .ok r → |(r.val : ℝ)| ≤ 2 * (xs.length * √((xs.length : ℝ) - 1) / (xs.length - 2))) ∧
    (4 ≤ xs.length → (kurtosis sq xs = .nonfinite ↔ ∀ x ∈ xs, mean xs = .ok x) ∧
      ∀ r, kurtosis sq xs = .ok r → |(r.val : ℝ)| ≤ 2 * (xs.length * (xs.length + 1) * (xs.length - 1) / ((xs.length - 2) * (xs.length - 3)))) := by
  have hun := un_le h2
  have hu := ur_pos
  have hu1 := ur_small
  constructor
  · intro h1
    obtain ⟨m, hm, -, hz, hnf, hok⟩ := skew_core sq hq xs hx h1 h2
    rw [← hz]
    by_cases h0 : ‖devs m xs‖ = 0
    · rw [hnf h0]
      exact ⟨iff_of_true rfl h0, by simp⟩
    · obtain ⟨r, hr, hre⟩ := hok h0
      rw [hr]
      refine ⟨iff_of_false (by simp) h0, ?_⟩
      intro r' h'
      cases h'
      have h3 := skew_size m xs h1 h0
      have h4 := skewMax_ge h1
      have h5 : ur * (10 * xs.length + 54) * skewMax xs.length ≤ 1 * skewMax xs.length := mul_le_mul_of_nonneg_right (by linarith) h4
      have h6 := (abs_sub_abs_le_abs_sub _ _).trans hre
      change |F64.real r| ≤ 2 * skewMax xs.length
      linarith
  · intro h1
    obtain ⟨m, hm, -, hz, hnf, hok⟩ := kurt_core sq hq xs hx h1 h2
    rw [← hz]
    by_cases h0 : ‖devs m xs‖ = 0
    · rw [hnf h0]
      exact ⟨iff_of_true rfl h0, by simp⟩
    · obtain ⟨r, hr, hre⟩ := hok h0
      rw [hr]
      refine ⟨iff_of_false (by simp) h0, ?_⟩
      intro r' h'
      cases h'
      have h3 := kurt_size m xs h1 h0
      have h4 := kurtMax_ge h1
      have h5 : ur * (13 * xs.length + 115) * kurtMax xs.length ≤ 1 * kurtMax xs.length := mul_le_mul_of_nonneg_right (by linarith) h4
      have h6 := (abs_sub_abs_le_abs_sub _ _).trans hre
      change |F64.real r| ≤ 2 * kurtMax xs.length
      linarith

/-! ## Accuracy -/

theorem sd_eq (xs : List F64) (h : 1 ≤ xs.length) : sd xs = ‖vec xs fun x => (x.val : ℝ) - avg xs‖ / √(xs.length - 1 : ℝ) := by
  have : (1 : ℝ) ≤ xs.length := by exact_mod_cast h
  unfold sd
  rw [Real.sqrt_div' _ (by linarith), vec_norm]

theorem exact_sq (xs : List F64) (h : 2 ≤ xs.length) (hs : 0 < spread xs) :
    (xs.map fun x => (((x.val : ℝ) - avg xs) / sd xs) ^ 2).sum = xs.length - 1 := by
  have h1 : (2 : ℝ) ≤ xs.length := by exact_mod_cast h
  rw [sd_eq xs (by omega)]
  refine standard_sq (N := (xs.length : ℝ) - 1) (fun x => (x.val : ℝ) - avg xs) xs (by linarith) ?_
  rw [vec_norm]
  exact hs.ne'

theorem exact_near_wt (m : F64) (xs : List F64) (h : 2 ≤ xs.length) (hs : 0 < spread xs) (h0 : ‖devs m xs‖ ≠ 0)
    (hm : |F64.real m - avg xs| ≤ 2 ^ (-51 : ℤ) * (xs.map fun x => |(x.val : ℝ)|).sum) (x : F64) (hx : x ∈ xs) :
    |wt m xs x - ((x.val : ℝ) - avg xs) / sd xs| ≤ 2 * (ur * (33 / 8 * cond xs + 1)) * √((xs.length : ℝ) - 1) := by
  have h1 : (2 : ℝ) ≤ xs.length := by exact_mod_cast h
  rw [sd_eq xs (by omega)]
  have hn : ‖vec xs fun x => (x.val : ℝ) - avg xs‖ = spread xs := vec_norm _ _
  refine standard_diff (fun x => (dv m x : ℝ)) (fun x => (x.val : ℝ) - avg xs) xs (by linarith) h0 (by rw [hn]; exact hs.ne') ?_ x hx
  rw [hn]
  refine (devs_near xs m hs hm).trans (mul_le_mul_of_nonneg_right ?_ hs.le)
  have hu := ur_pos
  have hu1 := ur_small
  have hc := cond_nonneg xs
  have e3 : (2 : ℝ) ^ (-51 : ℤ) = 4 * ur := by unfold ur; norm_num
  rw [e3]
  have pc : ur * (ur * cond xs) ≤ 1 / 1000000 * (ur * cond xs) := mul_le_mul_of_nonneg_right hu1 (by positivity)
  have : 0 ≤ ur * cond xs := by positivity
  linarith

/-- C112: for data of ordinary size whose spread is not lost in rounding, the skewness is returned, and differs from the sample
skewness by at most `2^-48 (K(xs) + n + 4)` times `n √(n - 1) / (n - 2)`, where `K` compares the size of the data with their spread. -/
theorem C112_skewness_error (sq : F64 → F64) (hq : CorrectSqrt sq) (xs : List F64) (hx : Tame xs) (h1 : 3 ≤ xs.length)
    (h2 : xs.length ≤ 2 ^ 40) (hs : 0 < spread xs) (hk : cond xs ≤ 2 ^ 48) :
    ∃ r, skewness sq xs = .ok r ∧
      |(r.val : ℝ) - skew xs| ≤ 2 ^ (-48 : ℤ) * (cond xs + xs.length + 4) * (xs.length * √((xs.length : ℝ) - 1) / (xs.length - 2)) := by
  obtain ⟨m, hm, hme, hz, -, hok⟩ := skew_core sq hq xs hx h1 h2
  have h0 := devs_ne xs m hs hk hme
  obtain ⟨r, hr, hre⟩ := hok h0
  refine ⟨r, hr, ?_⟩
  have hL3 : (3 : ℝ) ≤ xs.length := by exact_mod_cast h1
  have hd := cubes_near (wt m xs) (fun x => ((x.val : ℝ) - avg xs) / sd xs) xs (wt_sq m xs (by omega) h0) (exact_sq xs (by omega) hs)
    (exact_near_wt m xs (by omega) hs h0 hme)
  have hu := ur_pos
  have hc := cond_nonneg xs
  have hK : (0 : ℝ) ≤ xs.length / ((xs.length - 1) * (xs.length - 2)) :=
    div_nonneg (by linarith) (mul_nonneg (by linarith) (by linarith))
  have hXe : skewMax xs.length = xs.length / ((xs.length - 1) * (xs.length - 2)) * (((xs.length : ℝ) - 1) * √((xs.length : ℝ) - 1)) := by
    unfold skewMax
    have : (xs.length : ℝ) - 1 ≠ 0 := by linarith
    have : (xs.length : ℝ) - 2 ≠ 0 := by linarith
    field_simp
  have hM := skewMax_ge h1
  have e1 : (2 : ℝ) ^ (-48 : ℤ) = 32 * ur := by unfold ur; norm_num
  change |F64.real r - skew xs| ≤ 2 ^ (-48 : ℤ) * (cond xs + xs.length + 4) * skewMax xs.length
  rw [e1]
  unfold skew
  have h6 : |xs.length / ((xs.length - 1) * (xs.length - 2)) * (xs.map fun x => wt m xs x ^ 3).sum -
      xs.length / ((xs.length - 1) * (xs.length - 2)) * (xs.map fun x => (((x.val : ℝ) - avg xs) / sd xs) ^ 3).sum| ≤
      6 * (ur * (33 / 8 * cond xs + 1)) * skewMax xs.length := by
    rw [← mul_sub, abs_mul, abs_of_nonneg hK, hXe]
    refine (mul_le_mul_of_nonneg_left hd hK).trans (le_of_eq ?_)
    ring
  generalize xs.length / ((xs.length - 1) * (xs.length - 2)) * (xs.map fun x => wt m xs x ^ 3).sum = A at *
  generalize xs.length / ((xs.length - 1) * (xs.length - 2)) * (xs.map fun x => (((x.val : ℝ) - avg xs) / sd xs) ^ 3).sum = B at *
  generalize skewMax xs.length = M at *
  rw [show F64.real r - B = (F64.real r - A) + (A - B) by ring]
  refine (abs_add_le _ _).trans ?_
  have key : ur * (10 * xs.length + 54) + 6 * (ur * (33 / 8 * cond xs + 1)) ≤ 32 * ur * (cond xs + xs.length + 4) := by
    have : 0 ≤ ur * cond xs := by positivity
    have : 0 ≤ ur * (xs.length : ℝ) := by positivity
    linarith
  have := mul_le_mul_of_nonneg_right key hM
  linarith

/-- C112: for data of ordinary size whose spread is not lost in rounding, the kurtosis is returned, and differs from the sample excess
kurtosis by at most `2^-47 (K(xs) + n + 4)` times `n (n + 1) (n - 1) / ((n - 2) (n - 3))`. -/
theorem C112_kurtosis_error (sq : F64 → F64) (hq : CorrectSqrt sq) (xs : List F64) (hx : Tame xs) (h1 : 4 ≤ xs.length)
    (h2 : xs.length ≤ 2 ^ 40) (hs : 0 < spread xs) (hk : cond xs ≤ 2 ^ 48) :
    ∃ r, kurtosis sq xs = .ok r ∧
      |(r.val : ℝ) - kurt xs| ≤ 2 ^ (-47 : ℤ) * (cond xs + xs.length + 4) *
        (xs.length * (xs.length + 1) * (xs.length - 1) / ((xs.length - 2) * (xs.length - 3))) := by
  obtain ⟨m, hm, hme, hz, -, hok⟩ := kurt_core sq hq xs hx h1 h2
  have h0 := devs_ne xs m hs hk hme
  obtain ⟨r, hr, hre⟩ := hok h0
  refine ⟨r, hr, ?_⟩
  have hL4 : (4 : ℝ) ≤ xs.length := by exact_mod_cast h1
  have hd := fourths_near (wt m xs) (fun x => ((x.val : ℝ) - avg xs) / sd xs) xs (wt_sq m xs (by omega) h0) (exact_sq xs (by omega) hs)
    (exact_near_wt m xs (by omega) hs h0 hme)
  have hu := ur_pos
  have hc := cond_nonneg xs
  obtain ⟨hXe, -, -, hK⟩ := kurtMax_facts hL4
  have hM := kurtMax_ge h1
  have hsq : √((xs.length : ℝ) - 1) * √((xs.length : ℝ) - 1) = xs.length - 1 := Real.mul_self_sqrt (by linarith)
  have e1 : (2 : ℝ) ^ (-47 : ℤ) = 64 * ur := by unfold ur; norm_num
  change |F64.real r - kurt xs| ≤ 2 ^ (-47 : ℤ) * (cond xs + xs.length + 4) * kurtMax xs.length
  rw [e1]
  unfold kurt
  have h6 : |xs.length * (xs.length + 1) / ((xs.length - 1) * (xs.length - 2) * (xs.length - 3)) * (xs.map fun x => wt m xs x ^ 4).sum -
      xs.length * (xs.length + 1) / ((xs.length - 1) * (xs.length - 2) * (xs.length - 3)) *
        (xs.map fun x => (((x.val : ℝ) - avg xs) / sd xs) ^ 4).sum| ≤ 8 * (ur * (33 / 8 * cond xs + 1)) * kurtMax xs.length := by
    rw [← mul_sub, abs_mul, abs_of_nonneg hK]
    unfold kurtMax
    rw [hXe]
    refine (mul_le_mul_of_nonneg_left hd hK).trans (le_of_eq ?_)
    generalize (xs.length : ℝ) * (xs.length + 1) / ((xs.length - 1) * (xs.length - 2) * (xs.length - 3)) = K at *
    generalize √((xs.length : ℝ) - 1) = q at *
    rw [← hsq]
    ring
  generalize (xs.length : ℝ) * (xs.length + 1) / ((xs.length - 1) * (xs.length - 2) * (xs.length - 3)) * (xs.map fun x => wt m xs x ^ 4).sum = A at *
  generalize (xs.length : ℝ) * (xs.length + 1) / ((xs.length - 1) * (xs.length - 2) * (xs.length - 3)) *
        (xs.map fun x => (((x.val : ℝ) - avg xs) / sd xs) ^ 4).sum = B at *
  generalize 3 * ((xs.length : ℝ) - 1) ^ 2 / ((xs.length - 2) * (xs.length - 3)) = C at *
  generalize kurtMax xs.length = M at *
  rw [show F64.real r - (B - C) = (F64.real r - (A - C)) + (A - B) by ring]
  refine (abs_add_le _ _).trans ?_
  have key : ur * (13 * xs.length + 115) + 8 * (ur * (33 / 8 * cond xs + 1)) ≤ 64 * ur * (cond xs + xs.length + 4) := by
    have : 0 ≤ ur * cond xs := by positivity
    have : 0 ≤ ur * (xs.length : ℝ) := by positivity
    linarith
  have := mul_le_mul_of_nonneg_right key hM
  linarith

/-! ## Constant data -/

theorem tame_replicate (n : ℕ) (z : F64) (hz : Tame [z]) : Tame (List.replicate n z) := by
  intro w hw
  rw [List.eq_of_mem_replicate hw]
  exact hz z List.mem_cons_self

theorem devs_replicate (n : ℕ) (m z : F64) : ‖devs m (List.replicate n z)‖ = √n * |(dv m z : ℝ)| := by
  unfold devs
  rw [vec_norm]
  simp only [List.map_replicate, List.sum_replicate, nsmul_eq_mul]
  rw [Real.sqrt_mul (by positivity), Real.sqrt_sq_eq_abs]

theorem wt_replicate (n : ℕ) (hn : 0 < n) (m x : F64) (h : m ≠ x) :
    wt m (List.replicate n x) x = (if x.val < m.val then -1 else 1) * (√((n : ℝ) - 1) / √n) := by
  obtain ⟨a0, a1⟩ := dv_sign m x h
  have hs : 0 < √(n : ℝ) := Real.sqrt_pos.2 (by exact_mod_cast hn)
  unfold wt
  rw [devs_replicate, List.length_replicate, if_congr a1.symm rfl rfl]
  generalize (dv m x : ℝ) = d at *
  have ha : |d| ≠ 0 := abs_ne_zero.2 a0
  have e : d / (√n * |d| / √((n : ℝ) - 1)) = d / |d| * (√((n : ℝ) - 1) / √n) := by
    rw [div_div_eq_mul_div]
    field_simp
  rw [e]
  congr 1
  rcases lt_or_gt_of_ne a0 with h1 | h1
  · rw [if_pos h1, abs_of_neg h1, div_neg, div_self a0]
  · rw [if_neg (not_lt.2 h1.le), abs_of_pos h1, div_self a0]

/-- C112 (defect): constant data have no skewness and no kurtosis, for their standard deviation is zero. If the computed mean of
constant data is not exactly the constant, the skewness is instead a number next to `√(n (n - 1)) / (n - 2)`, negative if the mean was
rounded up, and the kurtosis is next to `-2 (n - 1) / (n - 3)`. -/
theorem C112_constant (sq : F64 → F64) (hq : CorrectSqrt sq) (n : ℕ) (h2 : n ≤ 2 ^ 40) (x m : F64) (hx : Tame [x])
    (hm : mean (List.replicate n x) = .ok m) (hmx : m ≠ x) :
    sd (List.replicate n x) = 0 ∧
    (3 ≤ n → ∃ r, skewness sq (List.replicate n x) = .ok r ∧
      |(r.val : ℝ) - (if x.val < m.val then -1 else 1) * (√n * √((n : ℝ) - 1) / (n - 2))| ≤
        2 ^ (-48 : ℤ) * (n + 4) * (n * √((n : ℝ) - 1) / (n - 2))) ∧
    (4 ≤ n → ∃ r, kurtosis sq (List.replicate n x) = .ok r ∧
      |(r.val : ℝ) - -(2 * ((n : ℝ) - 1) / (n - 3))| ≤ 2 ^ (-47 : ℤ) * (n + 4) * (n * (n + 1) * (n - 1) / ((n - 2) * (n - 3)))) := by
  have hu := ur_pos
  obtain ⟨a0, -⟩ := dv_sign m x hmx
  have hn : 0 < n := by
    rcases Nat.eq_zero_or_pos n with rfl | h
    · simp [mean] at hm
    · exact h
  have hn0 : (n : ℝ) ≠ 0 := by exact_mod_cast hn.ne'
  have hs : 0 < √(n : ℝ) := Real.sqrt_pos.2 (by exact_mod_cast hn)
  have hnn : √(n : ℝ) ^ 2 = n := Real.sq_sqrt (by positivity)
  have hd0 : ‖devs m (List.replicate n x)‖ ≠ 0 := by rw [devs_replicate]; exact mul_ne_zero hs.ne' (abs_ne_zero.2 a0)
  have ht := tame_replicate n x hx
  have hw := wt_replicate n hn m x hmx
  have hun0 : 0 ≤ ur * (n : ℝ) := by positivity
  refine ⟨?_, ?_, ?_⟩
  · unfold sd avg
    simp only [List.map_replicate, List.sum_replicate, nsmul_eq_mul, List.length_replicate]
    rw [mul_div_cancel_left₀ _ hn0]
    simp
  · intro h1
    obtain ⟨m', hm', -, -, -, hok⟩ := skew_core sq hq (List.replicate n x) ht (by simpa using h1) (by simpa using h2)
    rw [hm] at hm'
    cases hm'
    obtain ⟨r, hr, hre⟩ := hok hd0
    refine ⟨r, hr, ?_⟩
    rw [List.map_replicate, List.sum_replicate, List.length_replicate, nsmul_eq_mul, hw] at hre
    have hL : (3 : ℝ) ≤ n := by exact_mod_cast h1
    have hN : √((n : ℝ) - 1) ^ 2 = n - 1 := Real.sq_sqrt (by linarith)
    have hs3 : ((if x.val < m.val then -1 else 1 : ℝ)) ^ 3 = if x.val < m.val then -1 else 1 := by split_ifs <;> norm_num
    have e : (n : ℝ) / ((n - 1) * (n - 2)) * (n * ((if x.val < m.val then -1 else 1) * (√((n : ℝ) - 1) / √n)) ^ 3) =
        (if x.val < m.val then -1 else 1) * (√n * √((n : ℝ) - 1) / (n - 2)) := by
      rw [mul_pow, hs3]
      generalize (if x.val < m.val then -1 else 1 : ℝ) = s
      have h3 : (n : ℝ) - 1 ≠ 0 := by linarith
      have h4 : (n : ℝ) - 2 ≠ 0 := by linarith
      have e1 : (√((n : ℝ) - 1) / √n) ^ 3 = (n - 1) * √((n : ℝ) - 1) / (n * √n) := by
        rw [div_pow, pow_succ, pow_succ √(n : ℝ), hN, hnn]
      rw [e1]
      have hnn' : √(n : ℝ) * √n = n := Real.mul_self_sqrt (by positivity)
      generalize √((n : ℝ) - 1) = q at *
      generalize √(n : ℝ) = p at *
      field_simp
      rw [pow_two, hnn']
      ring
    rw [e] at hre
    change |F64.real r - _| ≤ _ * skewMax n
    refine hre.trans (mul_le_mul_of_nonneg_right ?_ (skewMax_ge h1))
    have e1 : (2 : ℝ) ^ (-48 : ℤ) = 32 * ur := by unfold ur; norm_num
    rw [e1]
    linarith
  · intro h1
    obtain ⟨m', hm', -, -, -, hok⟩ := kurt_core sq hq (List.replicate n x) ht (by simpa using h1) (by simpa using h2)
    rw [hm] at hm'
    cases hm'
    obtain ⟨r, hr, hre⟩ := hok hd0
    refine ⟨r, hr, ?_⟩
    rw [List.map_replicate, List.sum_replicate, List.length_replicate, nsmul_eq_mul, hw] at hre
    have hL : (4 : ℝ) ≤ n := by exact_mod_cast h1
    have hN : √((n : ℝ) - 1) ^ 2 = n - 1 := Real.sq_sqrt (by linarith)
    have hs4 : ((if x.val < m.val then -1 else 1 : ℝ)) ^ 4 = 1 := by split_ifs <;> norm_num
    have e : (n : ℝ) * (n + 1) / ((n - 1) * (n - 2) * (n - 3)) * (n * ((if x.val < m.val then -1 else 1) * (√((n : ℝ) - 1) / √n)) ^ 4) -
        3 * (n - 1) ^ 2 / ((n - 2) * (n - 3)) = -(2 * ((n : ℝ) - 1) / (n - 3)) := by
      have h3 : (n : ℝ) - 1 ≠ 0 := by linarith
      have h4 : (n : ℝ) - 2 ≠ 0 := by linarith
      have h5 : (n : ℝ) - 3 ≠ 0 := by linarith
      have e1 : (√((n : ℝ) - 1) / √n) ^ 4 = (n - 1) ^ 2 / n ^ 2 := by
        rw [show 4 = 2 * 2 by norm_num, pow_mul, div_pow, hN, hnn, div_pow]
      rw [mul_pow, hs4, e1]
      field_simp
      ring
    rw [e] at hre
    change |F64.real r - _| ≤ _ * kurtMax n
    refine hre.trans (mul_le_mul_of_nonneg_right ?_ (kurtMax_ge h1))
    have e1 : (2 : ℝ) ^ (-47 : ℤ) = 64 * ur := by unfold ur; norm_num
    rw [e1]
    linarith

theorem six_mean : ∃ m, mean (List.replicate 6 (lit (1 / 10))) = .ok m ∧ m.val < (lit (1 / 10)).val :=
  ⟨lit (7205759403792793 / 72057594037927936), by decide +kernel, by decide +kernel⟩

/-- C112 (defect): three prices of 0.1 have a skewness of about -2.449, and six prices of 0.1 have an excess kurtosis of about -3.333. -/
theorem C112_constant_tenths (sq : F64 → F64) (hq : CorrectSqrt sq) :
    (∃ r, skewness sq (List.replicate 3 (lit (1 / 10))) = .ok r ∧ |(r.val : ℝ) + √6| ≤ 2 ^ (-42 : ℤ)) ∧
    ∃ r, kurtosis sq (List.replicate 6 (lit (1 / 10))) = .ok r ∧ |(r.val : ℝ) + 10 / 3| ≤ 2 ^ (-39 : ℤ) := by
  obtain ⟨m3, -, h3, -, l3, -⟩ := const_means
  obtain ⟨m6, h6, l6⟩ := six_mean
  obtain ⟨t1, -⟩ := tame_tenths
  generalize lit (1 / 10) = x at *
  constructor
  · obtain ⟨r, hr, hre⟩ := (C112_constant sq hq 3 (by norm_num) x m3 t1 h3 (by rintro rfl; exact lt_irrefl _ l3)).2.1 le_rfl
    refine ⟨r, hr, ?_⟩
    rw [if_pos l3] at hre
    have e : √(6 : ℝ) = √3 * √2 := by rw [← Real.sqrt_mul (by norm_num)]; norm_num
    have h2 : √(2 : ℝ) ≤ 3 / 2 := Real.sqrt_le_iff.2 ⟨by norm_num, by norm_num⟩
    norm_num at hre
    rw [e]
    refine hre.trans ?_
    norm_num
    linarith
  · obtain ⟨r, hr, hre⟩ := (C112_constant sq hq 6 (by norm_num) x m6 t1 h6 (by rintro rfl; exact lt_irrefl _ l6)).2.2 (by norm_num)
    refine ⟨r, hr, ?_⟩
    norm_num at hre
    refine hre.trans ?_
    norm_num

/-! ## The hypotheses can be met -/

example : ∃ sq, CorrectSqrt sq ∧ ∃ r, skewness sq (List.replicate 3 (lit (1 / 10))) = .ok r ∧ |(r.val : ℝ) + √6| ≤ 2 ^ (-42 : ℤ) := by
  obtain ⟨sq, hq⟩ := correct_exists
  exact ⟨sq, hq, (C112_constant_tenths sq hq).1⟩

example : ∃ sq, CorrectSqrt sq ∧ ∃ r, skewness sq [lit 0, lit 0, lit 3] = .ok r ∧ |(r.val : ℝ) - skew [lit 0, lit 0, lit 3]| ≤
    2 ^ (-48 : ℤ) * (cond [lit 0, lit 0, lit 3] + 3 + 4) * (3 * √2 / 1) := by
  obtain ⟨sq, hq⟩ := correct_exists
  have ha := tame_a
  have sa := spread_a
  have ca := cond_a
  generalize lit 0 = a at *
  generalize lit 3 = d at *
  obtain ⟨r, hr, hre⟩ := C112_skewness_error sq hq _ ha (by simp) (len_three _ _ _).2 (by rw [sa]; positivity) ca
  refine ⟨sq, hq, r, hr, ?_⟩
  have e : (([a, a, d].length : ℕ) : ℝ) = 3 := by simp
  rw [e] at hre
  norm_num at hre ⊢
  exact hre

theorem tame_four : Tame [lit 0, lit 0, lit 0, lit 3] := by
  have h := tame_a
  generalize lit 0 = a at *
  generalize lit 3 = d at *
  intro x hx
  have := h x
  simp only [List.mem_cons, List.not_mem_nil, or_false] at hx this
  exact this (by rcases hx with h | h | h | h <;> simp [h])

theorem spread_four : spread [lit 0, lit 0, lit 0, lit 3] = √(27 / 4) := by
  unfold spread avg
  simp only [List.map_cons, List.map_nil, List.sum_cons, List.sum_nil, List.length_cons, List.length_nil, lit0, lit3]
  norm_num

theorem cond_four : cond [lit 0, lit 0, lit 0, lit 3] ≤ 2 ^ 48 := by
  unfold cond
  rw [spread_four, div_le_iff₀ (by positivity)]
  simp only [List.map_cons, List.map_nil, List.sum_cons, List.sum_nil, List.length_cons, List.length_nil, lit0, lit3]
  have h1 : √(4 : ℝ) ≤ √(27 / 4) := Real.sqrt_le_sqrt (by norm_num)
  have h2 := Real.sqrt_nonneg (27 / 4 : ℝ)
  norm_num at h1 h2 ⊢
  nlinarith

example : ∃ sq, CorrectSqrt sq ∧ ∃ r, kurtosis sq [lit 0, lit 0, lit 0, lit 3] = .ok r ∧
    |(r.val : ℝ) - kurt [lit 0, lit 0, lit 0, lit 3]| ≤ 2 ^ (-47 : ℤ) * (cond [lit 0, lit 0, lit 0, lit 3] + 4 + 4) * (4 * 5 * 3 / (2 * 1)) := by
  obtain ⟨sq, hq⟩ := correct_exists
  have ha := tame_four
  have sa := spread_four
  have ca := cond_four
  generalize lit 0 = a at *
  generalize lit 3 = d at *
  obtain ⟨r, hr, hre⟩ := C112_kurtosis_error sq hq _ ha (by simp) (by simp) (by rw [sa]; positivity) ca
  refine ⟨sq, hq, r, hr, ?_⟩
  have e : (([a, a, a, d].length : ℕ) : ℝ) = 4 := by simp
  rw [e] at hre
  norm_num at hre ⊢
  exact hre

theorem mean_zero : mean [lit 0, lit 0, lit 0] = .ok (lit 0) := by decide +kernel

example : ∃ sq, CorrectSqrt sq ∧ skewness sq [lit 0, lit 0, lit 0] = .nonfinite := by
  obtain ⟨sq, hq⟩ := correct_exists
  have h := mean_zero
  have ht : Tame [lit 0, lit 0, lit 0] := tame_three _ _ _ (.inl lit0) (.inl lit0) (.inl lit0)
  generalize lit 0 = a at *
  exact ⟨sq, hq, (((C112_finite sq hq _ ht (len_three _ _ _).2).1 (by simp)).1).2 (by
    intro x hx
    simp only [List.mem_cons, List.not_mem_nil, or_false, or_self] at hx
    rw [hx]; exact h)⟩

end Verif.Float.Corr
