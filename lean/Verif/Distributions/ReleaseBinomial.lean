import Verif.Distributions.ReleaseProps

/-!
# C107: the binomial distribution in a build without overflow checks
-/

namespace Verif.Distributions

open MeasureTheory ProbabilityTheory Real

theorem asU32_nat {n : ℕ} (h : n < 2 ^ 32) : asU32 (n:ℝ) = n := by
  unfold asU32; rw [Nat.floor_natCast]; omega

theorem nCkRelease_eq {n k : ℕ} (hk : k ≤ n) : Binomial.nCkRelease n k =
    if k.factorial * (n - k).factorial % 2 ^ 32 = 0 then none
    else some (n.factorial % 2 ^ 32 / (k.factorial * (n - k).factorial % 2 ^ 32)) := by
  unfold Binomial.nCkRelease wrapSub
  rw [if_pos hk]
  simp only [wrapProduct_eq 32 _ (by norm_num : 1 ≤ 32), ← Nat.mul_mod]

theorem nCkRelease_small {n k : ℕ} (hn : n ≤ 12) (hk : k ≤ n) :
    Binomial.nCkRelease n k = some (n.choose k) := by
  have : ∀ n ∈ Finset.range 13, ∀ k ∈ Finset.range 13, k ≤ n →
      Binomial.nCkRelease n k = some (n.choose k) := by decide +kernel
  exact this n (by simp; omega) k (by simp; omega) hk

theorem nCkRelease_mid {n k : ℕ} (h1 : 13 ≤ n) (hn : n ≤ 33) (hk : k ≤ n) :
    ∃ c, Binomial.nCkRelease n k = some c ∧ c ≤ n.choose k ∧ (k = 2 → c < n.choose k) := by
  have : ∀ n ∈ Finset.range 34, 13 ≤ n → ∀ k ∈ Finset.range 34, k ≤ n →
      ∃ c ∈ Binomial.nCkRelease n k, c ≤ n.choose k ∧ (k = 2 → c < n.choose k) := by
    decide +kernel
  exact this n (by simp; omega) h1 k (by simp; omega) hk

theorem nCkRelease_large {n k : ℕ} (h1 : 34 ≤ n) (hk : k ≤ n) : Binomial.nCkRelease n k =
    if 2 ^ 32 ∣ k.factorial * (n - k).factorial then none else some 0 := by
  have h2 : 2 ^ 32 ∣ (34).factorial := by decide +kernel
  have h3 : n.factorial % 2 ^ 32 = 0 :=
    Nat.mod_eq_zero_of_dvd (h2.trans (Nat.factorial_dvd_factorial h1))
  rw [nCkRelease_eq hk, h3, Nat.zero_div]
  simp only [Nat.dvd_iff_mod_eq_zero]

/-- C107: up to twelve trials `Binomial::pmf` is the same in a release build as in a checked one. -/
theorem C107_binomial_few (n : ℕ) (p : ℝ) (d : Binomial) (h : Binomial.new n p = some d)
    (hn : n ≤ 12) (x : ℝ) : d.pmfRelease x = d.pmf x := by
  obtain ⟨h0, h1, rfl⟩ := Binomial.new_some h
  unfold Binomial.pmfRelease Binomial.pmf
  simp only
  by_cases hx : asU64 x ≤ n
  · rw [if_pos hx, if_pos hx, Nat.mod_eq_of_lt (by omega)]
    have hk : asU32 x ≤ n := by unfold asU64 at hx; unfold asU32; omega
    rw [nCkRelease_small hn hk, nCk_small hn hk]
  · rw [if_neg hx, if_neg hx]

example := C107_binomial_few 5 (2 / 5) ⟨5, 2 / 5⟩ (by simp [Binomial.new]; norm_num) (by norm_num) 3

theorem release_pmf {n k : ℕ} {p : ℝ} (h0 : 0 < p) (h1 : p < 1) (hn : n < 2 ^ 32) (hk : k ≤ n) :
    (⟨n, p⟩ : Binomial).pmfRelease k =
      (Binomial.nCkRelease n k).map fun c : ℕ =>
        (c : ℝ) * p ^ asI32 (k:ℝ) * (1 - p) ^ wrapI32 (n - k) := by
  unfold Binomial.pmfRelease
  simp only
  rw [asU64_nat (by omega), asU32_nat (by omega), if_pos hk, Nat.mod_eq_of_lt hn]
  have : ¬ ((p = 0 ∧ asI32 (k:ℝ) < 0) ∨ (1 - p = 0 ∧ wrapI32 (n - k) < 0)) := by
    rintro (⟨h, -⟩ | ⟨h, -⟩) <;> linarith
  simp only [if_neg this]
  cases Binomial.nCkRelease n k <;> rfl

theorem release_pmf_mid {n k : ℕ} {p : ℝ} (h0 : 0 < p) (h1 : p < 1) (hn : n ≤ 33) (hk : k ≤ n) :
    (⟨n, p⟩ : Binomial).pmfRelease k =
      (Binomial.nCkRelease n k).map fun c : ℕ => (c : ℝ) * p ^ k * (1 - p) ^ (n - k) := by
  rw [release_pmf h0 h1 (by omega) hk, asI32_nat (by omega), wrapI32_small (by omega)]
  simp only [zpow_natCast]

/-- C107 (defect): with thirteen to thirty-three trials `Binomial::pmf` answers in a release build,
and the answers are no probabilities of one law: none exceeds the mass, and they add up to less than
one. -/
theorem C107_binomial_some (n : ℕ) (p : ℝ) (d : Binomial) (h : Binomial.new n p = some d)
    (h0 : 0 < p) (h1 : p < 1) (hn : 13 ≤ n) (hn' : n ≤ 33) :
    ∃ v : ℕ → ℝ, (∀ k ≤ n, d.pmfRelease k = some (v k) ∧ 0 ≤ v k ∧
        v k ≤ (Spec.binomialLaw n p).real {(k:ℝ)}) ∧
      v 2 < (Spec.binomialLaw n p).real {(2:ℝ)} ∧ ∑ k ∈ Finset.range (n + 1), v k < 1 := by
  obtain ⟨-, -, rfl⟩ := Binomial.new_some h
  rw [binomialLaw_eq h0.le h1.le]
  have hq : 0 < 1 - p := by linarith
  choose! c hc1 hc2 hc3 using fun k (hk : k ≤ n) => nCkRelease_mid (k := k) hn hn' hk
  have hle : ∀ k ≤ n, (c k : ℝ) * p ^ k * (1 - p) ^ (n - k) ≤ bmass n p k := by
    intro k hk
    have : (c k : ℝ) ≤ n.choose k := by exact_mod_cast hc2 k hk
    unfold bmass
    gcongr
  have hlt : (c 2 : ℝ) * p ^ 2 * (1 - p) ^ (n - 2) < bmass n p 2 := by
    have : (c 2 : ℝ) < n.choose 2 := by exact_mod_cast hc3 2 (by omega) rfl
    unfold bmass
    gcongr
  refine ⟨fun k => c k * p ^ k * (1 - p) ^ (n - k), fun k hk => ⟨?_, by positivity, ?_⟩, ?_, ?_⟩
  · rw [release_pmf_mid h0 h1 hn' hk, hc1 k hk]; rfl
  · rw [bin_mass h0.le h1.le]; exact hle k hk
  · have := bin_mass h0.le h1.le n 2
    rw [Nat.cast_ofNat] at this
    rw [this]; exact hlt
  · calc _ < ∑ k ∈ Finset.range (n + 1), bmass n p k := by
          refine Finset.sum_lt_sum (fun k hk => hle k ?_) ⟨2, ?_, hlt⟩
          · rw [Finset.mem_range] at hk; omega
          · rw [Finset.mem_range]; omega
      _ = 1 := bmass_sum n

example := C107_binomial_some 20 (1 / 2) ⟨20, 1 / 2⟩ (by simp [Binomial.new]; norm_num) (by norm_num)
  (by norm_num) (by norm_num) (by norm_num)
/-- Thirteen trials, one success: four ways, instead of thirteen. -/
example : Binomial.nCkRelease 13 1 = some 4 := by decide +kernel

/-- C107 (defect): with thirty-four trials or more `Binomial::pmf` gives no outcome a positive
probability in a release build: it answers zero, or panics with a division by zero. -/
theorem C107_binomial_many (n : ℕ) (p : ℝ) (d : Binomial) (h : Binomial.new n p = some d)
    (h0 : 0 < p) (h1 : p < 1) (hn : 34 ≤ n) (hn' : n < 2 ^ 32) (k : ℕ) (hk : k ≤ n) :
    0 < (Spec.binomialLaw n p).real {(k:ℝ)} ∧
    d.pmfRelease k = if 2 ^ 32 ∣ k.factorial * (n - k).factorial then none else some 0 := by
  obtain ⟨-, -, rfl⟩ := Binomial.new_some h
  rw [binomialLaw_eq h0.le h1.le, bin_mass h0.le h1.le, release_pmf h0 h1 hn' hk,
    nCkRelease_large hn hk]
  refine ⟨?_, ?_⟩
  · have hq : 0 < 1 - p := by linarith
    have : (0:ℝ) < n.choose k := by exact_mod_cast Nat.choose_pos hk
    unfold bmass
    positivity
  · split_ifs <;> simp

example := C107_binomial_many 34 (1 / 2) ⟨34, 1 / 2⟩ (by simp [Binomial.new]; norm_num) (by norm_num)
  (by norm_num) (by norm_num) (by norm_num) 17 (by norm_num)
example : ¬ 2 ^ 32 ∣ (17).factorial * (34 - 17).factorial := by decide +kernel
example : 2 ^ 32 ∣ (2).factorial * (34 - 2).factorial := by decide +kernel

/-- C107 (defect): from thirty-nine trials on, and up to the range of 32 bits, `Binomial::pmf` panics
everywhere in a release build. -/
theorem C107_binomial_panics (n : ℕ) (p : ℝ) (d : Binomial) (h : Binomial.new n p = some d)
    (hn : 39 ≤ n) (hn' : n < 2 ^ 32) (x : ℝ) : d.pmfRelease x = none := by
  obtain ⟨-, -, rfl⟩ := Binomial.new_some h
  unfold Binomial.pmfRelease
  simp only
  by_cases hx : asU64 x ≤ n
  · rw [if_pos hx]
    have hk : asU32 x ≤ n := by unfold asU64 at hx; unfold asU32; omega
    have h2 : 2 ^ 32 ∣ (asU32 x).factorial * (n - asU32 x).factorial := by
      generalize asU32 x = k at *
      have h3 : 2 ^ 32 ∣ (34).factorial := by decide +kernel
      by_cases hl : 34 ≤ k
      · exact (h3.trans (Nat.factorial_dvd_factorial hl)).mul_right _
      · by_cases hl' : 34 ≤ n - k
        · exact (h3.trans (Nat.factorial_dvd_factorial hl')).mul_left _
        · have : ∀ k ∈ Finset.range 34, ∀ m ∈ Finset.range 34, 39 ≤ k + m →
              2 ^ 32 ∣ k.factorial * m.factorial := by decide +kernel
          exact this k (by simp; omega) (n - k) (by simp; omega) (by omega)
    rw [Nat.mod_eq_of_lt hn', nCkRelease_large (by omega) hk, if_pos h2]
    rfl
  · rw [if_neg hx]

example := C107_binomial_panics 100 (1 / 2) ⟨100, 1 / 2⟩ (by simp [Binomial.new]; norm_num)
  (by norm_num) (by norm_num) 50

/-- C107 (defect): in both builds the number of trials is cut to thirty-two bits: at a multiple of
`2^32` trials, no success at all is certain. -/
theorem C107_binomial_truncated (n : ℕ) (p : ℝ) (d : Binomial) (h : Binomial.new n p = some d)
    (h0 : 0 < p) (hn : 0 < n) (hd : 2 ^ 32 ∣ n) :
    d.pmf 0 = some 1 ∧ d.pmfRelease 0 = some 1 ∧ (Spec.binomialLaw n p).real {(0:ℝ)} < 1 := by
  obtain ⟨h0', h1, rfl⟩ := Binomial.new_some h
  have hm : n % 2 ^ 32 = 0 := Nat.mod_eq_zero_of_dvd hd
  have hw : wrapI32 n = 0 := by unfold wrapI32; rw [hm]; simp
  have e1 : asU64 0 = 0 := by simpa using asU64_nat (n := 0) (by norm_num)
  have e2 : asU32 0 = 0 := by simpa using asU32_nat (n := 0) (by norm_num)
  have e3 : asI32 0 = 0 := by simpa using asI32_nat (n := 0) (by norm_num)
  refine ⟨?_, ?_, ?_⟩
  · unfold Binomial.pmf
    simp only [e1, e2, e3, hm, hw, Nat.sub_zero]
    rw [if_pos (by omega), nCk_small (by norm_num) le_rfl]
    simp
  · unfold Binomial.pmfRelease
    simp only [e1, e2, e3, hm, hw, Nat.sub_zero]
    rw [if_pos (by omega), nCkRelease_small (by norm_num) le_rfl]
    simp
  · have := bin_mass h0' h1 n 0
    rw [Nat.cast_zero] at this
    rw [binomialLaw_eq h0' h1, this]
    unfold bmass
    simp only [Nat.choose_zero_right, Nat.cast_one, pow_zero, mul_one, one_mul, Nat.sub_zero]
    exact pow_lt_one₀ (by linarith) (by linarith) (by omega)

example := C107_binomial_truncated (2 ^ 32) (1 / 2) ⟨2 ^ 32, 1 / 2⟩
  (by simp [Binomial.new]; norm_num) (by norm_num) (by norm_num) dvd_rfl

/-- C107 (defect): beyond the number of trials, where the distribution function is one,
`Binomial::cdf` answers in a release build with the distribution function of `2^64 + n` trials, the
difference having wrapped. Up to the number of trials it is the same as in a checked build. -/
theorem C107_binomial_cdf (n : ℕ) (p : ℝ) (d : Binomial) (h : Binomial.new n p = some d) :
    (∀ x, asU64 x ≤ n → d.cdfRelease x = d.cdf x) ∧
    ∀ k : ℕ, n < k → k < 2 ^ 64 →
      d.cdfRelease k = some (Spec.cdf (Spec.binomialLaw (2 ^ 64 + n) p) k) ∧
      Spec.cdf (Spec.binomialLaw n p) k = 1 ∧
      (0 < p → Spec.cdf (Spec.binomialLaw (2 ^ 64 + n) p) k < 1) := by
  obtain ⟨h0, h1, rfl⟩ := Binomial.new_some h
  refine ⟨fun x hx => ?_, fun k hk hk' => ⟨?_, ?_, fun hp => ?_⟩⟩
  · unfold Binomial.cdfRelease Binomial.cdf wrapSub
    simp only
    rw [if_pos hx, if_pos hx]
  · unfold Binomial.cdfRelease wrapSub
    simp only
    rw [asU64_nat hk', if_neg (by omega), binomialLaw_eq h0 h1,
      bin_cdf h0 h1 _ (by positivity) (by rw [Nat.floor_natCast]; omega), Nat.floor_natCast,
      Nat.add_comm n, betaReg_nat (by omega) h0 h1]
  · rw [binomialLaw_eq h0 h1]
    have hprob := bin_prob h0 h1 n
    refine le_antisymm measureReal_le_one ?_
    have hnn := bin_cdf h0 h1 n (x := (n:ℝ)) (by positivity) (by rw [Nat.floor_natCast])
    rw [Nat.floor_natCast, bmass_sum] at hnn
    rw [← hnn]
    unfold Spec.cdf
    exact measureReal_mono (Set.Iic_subset_Iic.2 (by exact_mod_cast hk.le))
  · rw [binomialLaw_eq h0 h1, bin_cdf h0 h1 _ (by positivity) (by rw [Nat.floor_natCast]; omega),
      Nat.floor_natCast]
    obtain ⟨N, hN⟩ : ∃ N, N = 2 ^ 64 + n := ⟨_, rfl⟩
    rw [← hN]
    have hpos : 0 < bmass N p N := by
      unfold bmass
      simp only [Nat.choose_self, Nat.cast_one, Nat.sub_self, pow_zero, mul_one, one_mul]
      positivity
    have hs := bmass_sum (p := p) N
    rw [Finset.sum_range_succ] at hs
    have hle : ∑ j ∈ Finset.range (k + 1), bmass N p j ≤ ∑ j ∈ Finset.range N, bmass N p j :=
      Finset.sum_le_sum_of_subset_of_nonneg (Finset.range_mono (by omega))
        fun j _ _ => bmass_nonneg h0 h1 N j
    linarith

example := (C107_binomial_cdf 5 (2 / 5) ⟨5, 2 / 5⟩ (by simp [Binomial.new]; norm_num)).2 6
  (by norm_num) (by norm_num)

/-- C107: `Binomial::inv_cdf` is the same in both builds: the loop never passes the number of
trials. -/
theorem C107_binomial_quantile (n : ℕ) (p : ℝ) (d : Binomial) (h : Binomial.new n p = some d)
    (hn : n < 2 ^ 64) (u : ℝ) (fuel : ℕ) : d.invCdfRelease u fuel = d.invCdf u fuel := by
  obtain ⟨h0, h1, rfl⟩ := Binomial.new_some h
  have key : ∀ (fuel k : ℕ), k ≤ n → (⟨n, p⟩ : Binomial).invLoopRelease u fuel k =
      (⟨n, p⟩ : Binomial).invLoop u fuel k := by
    intro fuel
    induction fuel with
    | zero => intro k _; rfl
    | succ fuel ih =>
      intro k hk
      have e := (C107_binomial_cdf n p ⟨n, p⟩ h).1 k (by rw [asU64_nat (by omega)]; exact hk)
      unfold Binomial.invLoopRelease Binomial.invLoop
      rw [e]
      rcases hk.lt_or_eq with hlt | rfl
      · cases (⟨n, p⟩ : Binomial).cdf k with
        | none => rfl
        | some c =>
          simp only
          have := ih (k + 1) hlt
          push_cast at this
          rw [this]
      · have : (⟨k, p⟩ : Binomial).cdf k = none := by
          unfold Binomial.cdf betaReg
          simp only
          rw [asU64_nat hn]
          simp
        rw [this]
  unfold Binomial.invCdfRelease Binomial.invCdf
  have := key fuel 0 (by omega)
  rw [Nat.cast_zero] at this
  rw [this]

example := C107_binomial_quantile 5 (2 / 5) ⟨5, 2 / 5⟩ (by simp [Binomial.new]; norm_num)
  (by norm_num) (1 / 2) 10

end Verif.Distributions
