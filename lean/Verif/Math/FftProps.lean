import Verif.Math.Fft
import Mathlib.Data.List.GetD
import Mathlib.Algebra.BigOperators.Ring.Finset
import Mathlib.Analysis.Complex.ExponentialBounds
import Mathlib.Tactic.FieldSimp
import Mathlib.Tactic.Ring
import Mathlib.Tactic.Linarith
import Mathlib.Tactic.NormNum

/-!
# C43: the complex FFT is the discrete Fourier transform

Specification: `dft x k = Σ_j x_j e^{-2πi jk/N}`.
-/

namespace Verif.Math.Fft

open Finset

/-- The discrete Fourier transform. -/
noncomputable def dft (x : List ℂ) (k : ℕ) : ℂ :=
  ∑ j ∈ range x.length, x.getD j 0 * Complex.exp (-2 * Real.pi * Complex.I * j * k / x.length)

theorem split_get {R : Type} (i : ℕ) (l : List R) (k : ℕ) :
    (i % 2 = 0 → (splitFrom i l).1[k]? = l[2 * k]? ∧ (splitFrom i l).2[k]? = l[2 * k + 1]?) ∧
    (i % 2 = 1 → (splitFrom i l).2[k]? = l[2 * k]? ∧ (splitFrom i l).1[k]? = l[2 * k + 1]?) := by
  induction l generalizing i k with
  | nil => simp [splitFrom]
  | cons a l ih =>
    constructor
    · intro h
      simp only [splitFrom, if_pos h]
      refine ⟨?_, ?_⟩
      · cases k with
        | zero => simp
        | succ k => rw [List.getElem?_cons_succ, show 2 * (k + 1) = 2 * k + 1 + 1 by ring, List.getElem?_cons_succ,
            ((ih (i + 1) k).2 (by omega)).2]
      · rw [List.getElem?_cons_succ, ((ih (i + 1) k).2 (by omega)).1]
    · intro h
      simp only [splitFrom, if_neg (show ¬ i % 2 = 0 by omega)]
      refine ⟨?_, ?_⟩
      · cases k with
        | zero => simp
        | succ k => rw [List.getElem?_cons_succ, show 2 * (k + 1) = 2 * k + 1 + 1 by ring, List.getElem?_cons_succ,
            ((ih (i + 1) k).1 (by omega)).2]
      · rw [List.getElem?_cons_succ, ((ih (i + 1) k).1 (by omega)).1]

theorem split_getD {R : Type} (x : List R) (k : ℕ) (d : R) :
    (splitFrom 0 x).1.getD k d = x.getD (2 * k) d ∧ (splitFrom 0 x).2.getD k d = x.getD (2 * k + 1) d := by
  obtain ⟨h1, h2⟩ := (split_get 0 x k).1 rfl
  simp only [List.getD, h1, h2, and_self]

theorem sum_even_odd {R : Type} [Ring R] (f : ℕ → R) (m : ℕ) :
    ∑ j ∈ range (2 * m), f j = ∑ j ∈ range m, f (2 * j) + ∑ j ∈ range m, f (2 * j + 1) := by
  induction m with
  | zero => simp
  | succ m ih =>
    rw [show 2 * (m + 1) = 2 * m + 1 + 1 by ring, sum_range_succ, sum_range_succ, ih, sum_range_succ, sum_range_succ]
    abel

/-- One level of the recursion, for even length. -/
theorem calculation_two {R : Type} [Ring R] (w : ℕ → ℕ → R) (x : List R) (m : ℕ) (hm : 0 < m) (hx : x.length = 2 * m) :
    (splitFrom 0 x).1.length = m ∧ (splitFrom 0 x).2.length = m ∧
    calculation w x =
      (List.range m).map (fun k => (calculation w (splitFrom 0 x).1).getD k 0 + w (2 * m) k * (calculation w (splitFrom 0 x).2).getD k 0) ++
      (List.range m).map (fun k => (calculation w (splitFrom 0 x).1).getD k 0 - w (2 * m) k * (calculation w (splitFrom 0 x).2).getD k 0) := by
  obtain ⟨h1, h2⟩ := (split_lengths 0 x).1 rfl
  refine ⟨by omega, by omega, ?_⟩
  rw [calculation, if_neg (by omega)]
  simp only [hx, show 2 * m / 2 = m by omega]
  rw [List.drop_eq_nil_of_le (by omega), List.append_nil]

theorem calculation_length {R : Type} [Ring R] (w : ℕ → ℕ → R) (x : List R) (m : ℕ) (hx : x.length = 2 ^ m) :
    (calculation w x).length = 2 ^ m := by
  cases m with
  | zero => rw [calculation, if_pos (by simp [hx])]; exact hx
  | succ m =>
    rw [(calculation_two w x (2 ^ m) (by positivity) (by rw [hx]; ring)).2.2]
    simp; ring

theorem exp_sum (a b : ℂ) (h : ∃ n : ℤ, a = b + n * (2 * Real.pi * Complex.I)) : Complex.exp a = Complex.exp b :=
  Complex.exp_eq_exp_iff_exists_int.2 h

theorem twiddle_eq (n k : ℕ) : twiddle n k = Complex.exp (-2 * Real.pi * Complex.I * k / n) := by
  unfold twiddle
  have : ∀ y : ℝ, (⟨0, y⟩ : ℂ) = y * Complex.I := fun y => by apply Complex.ext <;> simp
  rw [this]
  congr 1
  push_cast
  ring

theorem calculation_dft (m : ℕ) (x : List ℂ) (hx : x.length = 2 ^ m) (k : ℕ) (hk : k < 2 ^ m) :
    (calculation twiddle x).getD k 0 = dft x k := by
  induction m generalizing x k with
  | zero =>
    rw [calculation, if_pos (by simp [hx])]
    unfold dft
    simp at hk
    subst hk
    rw [hx]; simp
  | succ m ih =>
    obtain ⟨l1, l2, e⟩ := calculation_two twiddle x (2 ^ m) (by positivity) (by rw [hx]; ring)
    have hM : (2 ^ m : ℂ) ≠ 0 := pow_ne_zero _ two_ne_zero
    have hdft : ∀ k, dft x k = dft (splitFrom 0 x).1 k + twiddle (2 * 2 ^ m) k * dft (splitFrom 0 x).2 k := by
      intro k
      unfold dft
      rw [l1, l2, hx, show 2 ^ (m + 1) = 2 * 2 ^ m by ring, sum_even_odd, mul_sum]
      congr 1
      · refine sum_congr rfl fun j _ => ?_
        rw [(split_getD x j 0).1]
        congr 2
        push_cast
        field_simp
      · refine sum_congr rfl fun j _ => ?_
        rw [(split_getD x j 0).2, twiddle_eq, mul_left_comm, ← Complex.exp_add]
        congr 2
        push_cast
        field_simp
        ring
    rw [e]
    by_cases h : k < 2 ^ m
    · rw [List.getD_append _ _ _ _ (by simpa using h), List.getD_eq_getElem _ _ (by simpa using h), List.getElem_map,
        List.getElem_range, ih _ l1 k h, ih _ l2 k h, hdft]
    · obtain ⟨j, rfl⟩ : ∃ j, k = 2 ^ m + j := ⟨k - 2 ^ m, by omega⟩
      have hj : j < 2 ^ m := by rw [pow_succ] at hk; omega
      rw [List.getD_append_right _ _ _ _ (by simp), List.length_map, List.length_range, Nat.add_sub_cancel_left,
        List.getD_eq_getElem _ _ (by simpa using hj), List.getElem_map, List.getElem_range, ih _ l1 j hj, ih _ l2 j hj, hdft]
      have hper : ∀ y : List ℂ, y.length = 2 ^ m → dft y (2 ^ m + j) = dft y j := by
        intro y hy
        unfold dft
        rw [hy]
        refine sum_congr rfl fun i _ => ?_
        congr 1
        apply exp_sum
        refine ⟨-i, ?_⟩
        push_cast
        field_simp
        ring
      have htw : twiddle (2 * 2 ^ m) (2 ^ m + j) = -twiddle (2 * 2 ^ m) j := by
        rw [twiddle_eq, twiddle_eq]
        have : (-2 * Real.pi * Complex.I * ((2 ^ m + j : ℕ) : ℂ) / ((2 * 2 ^ m : ℕ) : ℂ)) =
            -2 * Real.pi * Complex.I * (j : ℂ) / ((2 * 2 ^ m : ℕ) : ℂ) + -(Real.pi * Complex.I) := by
          push_cast
          field_simp
          ring
        rw [this, Complex.exp_add, Complex.exp_neg, Complex.exp_pi_mul_I]
        norm_num
      rw [hper _ l1, hper _ l2, htw]
      ring

/-! ## Lengths -/

theorem valid_pow (m : ℕ) : isValidLength (2 ^ m) := by
  refine ⟨by positivity, ?_⟩
  push_cast
  rw [Real.logb_pow, Real.logb_self_eq_one (by norm_num), mul_one]
  norm_num

theorem fract_log (n m : ℕ) (h1 : 2 ^ m ≤ n) (h2 : n < 2 ^ (m + 1)) :
    Int.fract (Real.logb 2 n) = Real.log (n / 2 ^ m) / Real.log 2 := by
  have hn : (0 : ℝ) < n := by
    have : 0 < n := lt_of_lt_of_le (by positivity) h1
    exact_mod_cast this
  have h1' : (2 : ℝ) ^ m ≤ n := by exact_mod_cast h1
  have h2' : (n : ℝ) < 2 ^ (m + 1) := by exact_mod_cast h2
  have e : Real.logb 2 n = m + Real.log (n / 2 ^ m) / Real.log 2 := by
    rw [Real.log_div hn.ne' (by positivity), Real.log_pow, Real.logb]
    have : Real.log 2 ≠ 0 := (Real.log_pos (by norm_num)).ne'
    field_simp
    ring
  rw [e, Int.fract_natCast_add]
  rw [Int.fract_eq_self]
  constructor
  · apply div_nonneg
    · apply Real.log_nonneg
      rw [le_div_iff₀ (by positivity)]; linarith
    · exact (Real.log_pos (by norm_num)).le
  · rw [div_lt_one (Real.log_pos (by norm_num))]
    apply Real.log_lt_log (by positivity)
    rw [div_lt_iff₀ (by positivity)]
    calc (n : ℝ) < 2 ^ (m + 1) := h2'
      _ = 2 * 2 ^ m := by ring

theorem valid_iff (n : ℕ) (hn : n < 2 ^ 34) : isValidLength n ↔ ∃ m, n = 2 ^ m := by
  constructor
  · rintro ⟨h0, h⟩
    obtain ⟨m, h1, h2⟩ : ∃ m, 2 ^ m ≤ n ∧ n < 2 ^ (m + 1) :=
      ⟨Nat.log 2 n, Nat.pow_log_le_self 2 h0, Nat.lt_pow_succ_log_self (by norm_num) n⟩
    refine ⟨m, ?_⟩
    by_contra hne
    have hm : m ≤ 33 := by
      by_contra hc
      have : 2 ^ 34 ≤ 2 ^ m := Nat.pow_le_pow_right (by norm_num) (by omega)
      omega
    rw [fract_log n m h1 h2] at h
    have h3 : 2 ^ m + 1 ≤ n := by omega
    have h3' : (2 : ℝ) ^ m + 1 ≤ n := by exact_mod_cast h3
    have hpm : (0 : ℝ) < 2 ^ m := by positivity
    have hm' : (2 : ℝ) ^ m ≤ 2 ^ 33 := pow_le_pow_right₀ (by norm_num) hm
    have h4 : 1 + 1 / (2 : ℝ) ^ 33 ≤ n / 2 ^ m := by
      rw [le_div_iff₀ hpm, add_mul, one_mul, one_div_mul_eq_div]
      have : (2 : ℝ) ^ m / 2 ^ 33 ≤ 1 := (div_le_one (by positivity)).2 hm'
      linarith
    have h5 : 1 - (1 + 1 / (2 : ℝ) ^ 33)⁻¹ ≤ Real.log (1 + 1 / (2 : ℝ) ^ 33) :=
      Real.one_sub_inv_le_log_of_pos (by positivity)
    have h6 : Real.log (1 + 1 / (2 : ℝ) ^ 33) ≤ Real.log (n / 2 ^ m) := Real.log_le_log (by positivity) h4
    have h7 := Real.log_two_lt_d9
    have h8 : 0 < Real.log 2 := Real.log_pos (by norm_num)
    rw [div_lt_iff₀ h8] at h
    norm_num at h5 h
    linarith
  · rintro ⟨m, rfl⟩
    exact valid_pow m

/-! ## The claims -/

/-- C43: for every input whose length is a power of two, `fft_complex` returns the discrete Fourier transform. -/
theorem C43_fft (x : List ℂ) (m : ℕ) (hx : x.length = 2 ^ m) :
    ∃ y, fftComplex x = some y ∧ y.length = x.length ∧
      ∀ k, k < x.length → y[k]? = some (∑ j ∈ range x.length,
        x.getD j 0 * Complex.exp (-2 * Real.pi * Complex.I * j * k / x.length)) := by
  have hl := calculation_length twiddle x m hx
  refine ⟨calculation twiddle x, ?_, by rw [hl, hx], fun k hk => ?_⟩
  · unfold fftComplex
    rw [if_pos (by rw [hx]; exact valid_pow m)]
  · have hk' : k < (calculation twiddle x).length := by rw [hl, ← hx]; exact hk
    have := calculation_dft m x hx k (by rwa [← hx])
    rw [List.getD_eq_getElem _ _ hk'] at this
    rw [List.getElem?_eq_getElem hk', this]
    rfl

example := C43_fft [1, 2, Complex.I, 0] 2 rfl

/-- C43: below `2 ^ 34` entries both transforms panic exactly when the length is not a power of two. -/
theorem C43_panics (x : List ℂ) (y : List ℝ) (hx : x.length < 2 ^ 34) (hy : y.length < 2 ^ 34) :
    (fftComplex x = none ↔ ¬ ∃ m, x.length = 2 ^ m) ∧ (fftReal y = none ↔ ¬ ∃ m, y.length = 2 ^ m) := by
  constructor
  · rw [← valid_iff _ hx]; unfold fftComplex; split_ifs with h <;> simp [h]
  · rw [← valid_iff _ hy]; unfold fftReal; split_ifs with h <;> simp [h]

example := C43_panics [1, 2, Complex.I] [1, 2, 3, 4] (by norm_num) (by norm_num)

/-- C43 (defect): the length test has a tolerance, so `2 ^ 34 + 1` passes as a power of two. -/
theorem C43_length_check_too_lax : isValidLength (2 ^ 34 + 1) := by
  refine ⟨by norm_num, ?_⟩
  rw [fract_log (2 ^ 34 + 1) 34 (by norm_num) (by norm_num)]
  have h8 : 0 < Real.log 2 := Real.log_pos (by norm_num)
  rw [div_lt_iff₀ h8]
  have h7 := Real.log_two_gt_d9
  have h5 : Real.log (((2 ^ 34 + 1 : ℕ) : ℝ) / 2 ^ 34) ≤ ((2 ^ 34 + 1 : ℕ) : ℝ) / 2 ^ 34 - 1 :=
    Real.log_le_sub_one_of_pos (by positivity)
  norm_num at h5 ⊢
  linarith

theorem twiddleNorm_eq (n k : ℕ) : twiddleNorm n k = 1 := by
  unfold twiddleNorm
  rw [Complex.norm_exp]
  simp

theorem real_dc (m : ℕ) (x : List ℝ) (hx : x.length = 2 ^ m) :
    (calculation twiddleNorm x).getD 0 0 = ∑ j ∈ range (2 ^ m), x.getD j 0 := by
  induction m generalizing x with
  | zero => rw [calculation, if_pos (by simp [hx])]; simp
  | succ m ih =>
    obtain ⟨l1, l2, e⟩ := calculation_two twiddleNorm x (2 ^ m) (by positivity) (by rw [hx]; ring)
    have hp : 0 < 2 ^ m := by positivity
    rw [e, List.getD_append _ _ _ _ (by simp), List.getD_eq_getElem _ _ (by simp), List.getElem_map,
      List.getElem_range, ih _ l1, ih _ l2, twiddleNorm_eq, one_mul, show 2 ^ (m + 1) = 2 * 2 ^ m by ring, sum_even_odd]
    simp only [split_getD]

/-- C43: what the real transform gets right: entry 0 is the sum of the data and entry `N/2` its alternating sum, as in the
discrete Fourier transform. -/
theorem C43_real_dc_nyquist (x : List ℝ) (m : ℕ) (hx : x.length = 2 * 2 ^ m) :
    ∃ y, fftReal x = some y ∧ y.length = x.length ∧ y[0]? = some (∑ j ∈ range x.length, x.getD j 0) ∧
      y[2 ^ m]? = some (∑ j ∈ range x.length, (-1) ^ j * x.getD j 0) := by
  have hx' : x.length = 2 ^ (m + 1) := by rw [hx]; ring
  have hl := calculation_length twiddleNorm x (m + 1) hx'
  have hp : 0 < 2 ^ m := by positivity
  refine ⟨calculation twiddleNorm x, ?_, by rw [hl, hx'], ?_, ?_⟩
  · unfold fftReal
    rw [if_pos (by rw [hx']; exact valid_pow _)]
  · have := real_dc (m + 1) x hx'
    have hlt : 0 < (calculation twiddleNorm x).length := by rw [hl]; positivity
    rw [List.getD_eq_getElem _ _ hlt] at this
    rw [List.getElem?_eq_getElem hlt, this, hx']
  · obtain ⟨l1, l2, e⟩ := calculation_two twiddleNorm x (2 ^ m) (by positivity) hx
    rw [e, List.getElem?_append_right (by simp), List.length_map, List.length_range, Nat.sub_self,
      List.getElem?_eq_getElem (by simp), List.getElem_map, List.getElem_range, real_dc m _ l1, real_dc m _ l2, twiddleNorm_eq,
      one_mul, hx, sum_even_odd, sub_eq_add_neg, ← sum_neg_distrib]
    congr 3
    · funext j; rw [(split_getD x j 0).1, pow_mul]; norm_num
    · funext j; rw [(split_getD x j 0).2, pow_succ, pow_mul]; norm_num

example := C43_real_dc_nyquist [1, 2, 3, 5] 1 rfl

/-- The sign the real transform gives the entry `j` of the data in the entry `k` of the result: `-1` for every binary digit of
`j` that meets a one in the reversed `m` binary digits of `k`. -/
def walshSign (m k j : ℕ) : ℝ := ∏ i ∈ range m, if j.testBit i ∧ k.testBit (m - 1 - i) then -1 else 1

theorem walshSign_succ (m k j : ℕ) (c : Bool) :
    walshSign (m + 1) k (2 * j + c.toNat) = walshSign m k j * if c ∧ k.testBit m then -1 else 1 := by
  unfold walshSign
  rw [prod_range_succ']
  congr 1
  · refine prod_congr rfl fun i hi => ?_
    have : (2 * j + c.toNat).testBit (i + 1) = j.testBit i := by
      rw [Nat.testBit_succ]; congr 1; cases c <;> simp; omega
    rw [this, show m + 1 - 1 - (i + 1) = m - 1 - i by omega]
  · have : (2 * j + c.toNat).testBit 0 = c := by
      cases c <;> simp [Nat.testBit_zero]
    rw [this]; rfl

theorem walshSign_low (m k j : ℕ) : walshSign m (2 ^ m + k) j = walshSign m k j := by
  unfold walshSign
  refine prod_congr rfl fun i hi => ?_
  rw [mem_range] at hi
  rw [Nat.testBit_two_pow_add_gt (by omega)]

theorem calculation_walsh (m : ℕ) (x : List ℝ) (hx : x.length = 2 ^ m) (k : ℕ) (hk : k < 2 ^ m) :
    (calculation twiddleNorm x).getD k 0 = ∑ j ∈ range (2 ^ m), walshSign m k j * x.getD j 0 := by
  induction m generalizing x k with
  | zero =>
    rw [calculation, if_pos (by simp [hx])]
    simp at hk
    subst hk
    simp [walshSign]
  | succ m ih =>
    obtain ⟨l1, l2, e⟩ := calculation_two twiddleNorm x (2 ^ m) (by positivity) (by rw [hx]; ring)
    have h0 := fun j => walshSign_succ m k j false
    have h1 := fun j => walshSign_succ m k j true
    simp only [Bool.toNat_false, Bool.toNat_true, add_zero] at h0 h1
    rw [e, show 2 ^ (m + 1) = 2 * 2 ^ m by ring, sum_even_odd]
    simp only [h0, h1, Bool.false_eq_true, false_and, if_false, true_and, mul_one]
    by_cases h : k < 2 ^ m
    · rw [List.getD_append _ _ _ _ (by simpa using h), List.getD_eq_getElem _ _ (by simpa using h), List.getElem_map,
        List.getElem_range, ih _ l1 k h, ih _ l2 k h, twiddleNorm_eq, one_mul, Nat.testBit_lt_two_pow h]
      simp only [split_getD, Bool.false_eq_true, and_false, if_false, mul_one]
    · obtain ⟨j, rfl⟩ : ∃ j, k = 2 ^ m + j := ⟨k - 2 ^ m, by omega⟩
      have hj : j < 2 ^ m := by rw [pow_succ] at hk; omega
      rw [List.getD_append_right _ _ _ _ (by simp), List.length_map, List.length_range, Nat.add_sub_cancel_left,
        List.getD_eq_getElem _ _ (by simpa using hj), List.getElem_map, List.getElem_range, ih _ l1 j hj, ih _ l2 j hj,
        twiddleNorm_eq, one_mul, Nat.testBit_two_pow_add_eq, Nat.testBit_lt_two_pow hj]
      simp only [split_getD, walshSign_low, Bool.not_false, and_self, if_true, sub_eq_add_neg, ← sum_neg_distrib]
      congr 1
      exact sum_congr rfl fun i _ => by ring

/-- C43: what the real transform computes, for every input whose length is a power of two. Its entry `k` is the sum of the data
with the signs `walshSign m k j`, so it is a Walsh–Hadamard transform and not the Fourier transform. -/
theorem C43_real_walsh (x : List ℝ) (m : ℕ) (hx : x.length = 2 ^ m) :
    ∃ y, fftReal x = some y ∧ y.length = x.length ∧
      ∀ k, k < x.length → y[k]? = some (∑ j ∈ range x.length,
        (∏ i ∈ range m, if j.testBit i ∧ k.testBit (m - 1 - i) then -1 else 1) * x.getD j 0) := by
  have hl := calculation_length twiddleNorm x m hx
  refine ⟨calculation twiddleNorm x, ?_, by rw [hl, hx], fun k hk => ?_⟩
  · unfold fftReal
    rw [if_pos (by rw [hx]; exact valid_pow m)]
  · have hk' : k < (calculation twiddleNorm x).length := by rw [hl, ← hx]; exact hk
    have := calculation_walsh m x hx k (by rwa [← hx])
    rw [List.getD_eq_getElem _ _ hk'] at this
    rw [List.getElem?_eq_getElem hk', this, hx]
    rfl

example := C43_real_walsh [1, 2, 3, 5] 2 rfl

/-- C43 (defect): the real transform is neither the discrete Fourier transform nor its magnitude. On the data of the unit test
it gives `[4, -2, 0, -6]`; the second entry of the transform is `-4 - 2i`. -/
theorem C43_real_is_not_dft :
    fftReal [-1, 2, 3, 0] = some [4, -2, 0, -6] ∧ dft [-1, 2, 3, 0] 1 = -4 - 2 * Complex.I := by
  constructor
  · unfold fftReal
    rw [if_pos (show isValidLength [-1, 2, 3, (0 : ℝ)].length from valid_pow 2)]
    congr 1
    have c1 : ∀ a : ℝ, calculation twiddleNorm [a] = [a] := fun a => by rw [calculation, if_pos (by simp)]
    have c2 : ∀ a b : ℝ, calculation twiddleNorm [a, b] = [a + b, a - b] := fun a b => by
      rw [(calculation_two twiddleNorm [a, b] 1 (by norm_num) (by simp)).2.2]
      simp [splitFrom, c1, twiddleNorm_eq]
    rw [(calculation_two twiddleNorm [-1, 2, 3, 0] 2 (by norm_num) (by simp)).2.2]
    simp [splitFrom, c2, twiddleNorm_eq, List.range_succ]
    norm_num
  · unfold dft
    have e2 : Complex.exp (-2 * Real.pi * Complex.I * 2 * 1 / 4) = -1 := by
      rw [show (-2 * Real.pi * Complex.I * 2 * 1 / 4 : ℂ) = -(Real.pi * Complex.I) by ring, Complex.exp_neg,
        Complex.exp_pi_mul_I]; norm_num
    have e1 : Complex.exp (-2 * Real.pi * Complex.I * 1 * 1 / 4) = -Complex.I := by
      rw [show (-2 * Real.pi * Complex.I * 1 * 1 / 4 : ℂ) = -(Real.pi / 2 * Complex.I) by ring, Complex.exp_neg,
        Complex.exp_pi_div_two_mul_I, Complex.inv_I]
    simp only [List.length_cons, List.length_nil, sum_range_succ, sum_range_zero]
    norm_num
    norm_num at e1 e2
    rw [e1, e2]
    ring

example : ∃ x : List ℂ, x.length = 2 ^ 3 := ⟨List.replicate 8 1, by simp⟩

end Verif.Math.Fft
