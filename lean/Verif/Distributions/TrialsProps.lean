import Verif.Distributions.TrialsLemmas
import Verif.Distributions.PoissonProps
import Mathlib.Analysis.Real.Pi.Bounds
import Mathlib.Analysis.Complex.ExponentialBounds

/-!
# C67 and C68: the Bernoulli and binomial distributions

`Spec.bernoulliLaw p` has mass `p` at one and `1 - p` at zero; `Spec.binomialLaw n p` is the law of
the sum of `n` independent such variables.
-/

namespace Verif.Distributions

open MeasureTheory ProbabilityTheory Real

namespace Bernoulli

theorem new_some {p : ℝ} {d : Bernoulli} (h : new p = some d) : 0 ≤ p ∧ p ≤ 1 ∧ d = ⟨p⟩ := by
  unfold new at h
  split_ifs at h with h0
  exact ⟨h0.1, h0.2, by simpa using h.symm⟩

end Bernoulli

namespace Binomial

theorem new_some {n : ℕ} {p : ℝ} {d : Binomial} (h : new n p = some d) :
    0 ≤ p ∧ p ≤ 1 ∧ d = ⟨n, p⟩ := by
  unfold new at h
  split_ifs at h with h0
  exact ⟨h0.1, h0.2, by simpa using h.symm⟩

end Binomial

theorem asI32_nonneg {x : ℝ} (h : 0 ≤ x) : 0 ≤ asI32 x := by
  unfold asI32
  rw [if_pos h]
  have := Int.floor_nonneg.2 h
  omega

theorem bern_cdf {p : ℝ} (h0 : 0 ≤ p) (h1 : p ≤ 1) (x : ℝ) :
    Spec.cdf (Spec.bernoulliLaw p) x = if x < 0 then 0 else if x < 1 then 1 - p else 1 := by
  unfold Spec.cdf
  rw [bern_real h0 h1 measurableSet_Iic]
  simp only [Set.indicator_apply, Set.mem_Iic, Pi.one_apply]
  split_ifs <;> first | linarith | ring

/-- Construction panics exactly when the argument is not a probability. -/
theorem C67_new (p : ℝ) : (Bernoulli.new p = none ↔ p < 0 ∨ 1 < p) ∧
    ∀ d, Bernoulli.new p = some d → d.p = p := by
  refine ⟨?_, fun d h => ?_⟩
  · unfold Bernoulli.new
    split_ifs with h
    · simp only [reduceCtorEq, false_iff, not_or, not_lt]; exact h
    · simp only [true_iff]; by_contra hn; push Not at hn; exact h hn
  · obtain ⟨_, _, rfl⟩ := Bernoulli.new_some h; rfl

/-- `pmf` answers exactly at zero and one, with the mass of the law; elsewhere there is none. -/
theorem C67_pmf (p : ℝ) (d : Bernoulli) (h : Bernoulli.new p = some d) :
    (∀ k, k = 0 ∨ k = 1 → d.pmf k = some ((Spec.bernoulliLaw p).real {k})) ∧
    (∀ k, k ≠ 0 → k ≠ 1 → d.pmf k = none ∧ (Spec.bernoulliLaw p).real {k} = 0) := by
  obtain ⟨h0, h1, rfl⟩ := Bernoulli.new_some h
  have i0 : asI32 0 = 0 := by simp [asI32]
  have i1 : asI32 1 = 1 := by simp [asI32]
  refine ⟨?_, ?_⟩
  · rintro k (rfl | rfl)
    · rw [bern_real h0 h1 (measurableSet_singleton _)]
      simp [Bernoulli.pmf, i0]
    · rw [bern_real h0 h1 (measurableSet_singleton _)]
      simp [Bernoulli.pmf, i1]
  · intro k hk0 hk1
    refine ⟨by simp [Bernoulli.pmf, hk0, hk1], ?_⟩
    rw [bern_real h0 h1 (measurableSet_singleton _)]
    simp [Ne.symm hk0, Ne.symm hk1]

/-- `cdf` is the distribution function outside the open interval from -1 to 0.  Defect: inside it,
where the distribution function is zero, `cdf` is already `1 - p`. -/
theorem C67_cdf (p : ℝ) (d : Bernoulli) (h : Bernoulli.new p = some d) :
    (∀ k, k ≤ -1 ∨ 0 ≤ k → d.cdf k = Spec.cdf (Spec.bernoulliLaw p) k) ∧
    (∀ k, -1 < k → k < 0 → d.cdf k = 1 - p ∧ Spec.cdf (Spec.bernoulliLaw p) k = 0) := by
  obtain ⟨h0, h1, rfl⟩ := Bernoulli.new_some h
  refine ⟨?_, ?_⟩
  · rintro k (hk | hk)
    · rw [bern_cdf h0 h1, if_pos (by linarith)]
      unfold Bernoulli.cdf
      rw [if_pos]
      unfold asI32
      rw [if_neg (by linarith)]
      have : ⌈k⌉ ≤ -1 := Int.ceil_le.2 (by push_cast; exact hk)
      omega
    · rw [bern_cdf h0 h1, if_neg (by linarith)]
      unfold Bernoulli.cdf
      have hn := asI32_nonneg hk
      rw [if_neg (by omega)]
      have : (0 ≤ asI32 k ∧ asI32 k < 1) ↔ k < 1 := by
        have e : asI32 k < 1 ↔ ⌊k⌋ < 1 := by
          unfold asI32; rw [if_pos hk]
          have := Int.floor_nonneg.2 hk
          omega
        rw [e, Int.floor_lt]
        push_cast
        exact ⟨fun h => h.2, fun h => ⟨hn, h⟩⟩
      simp only [this]
  · intro k hk1 hk2
    refine ⟨?_, by rw [bern_cdf h0 h1, if_pos hk2]⟩
    have : asI32 k = 0 := by
      unfold asI32
      rw [if_neg (by linarith)]
      have : ⌈k⌉ = 0 := by rw [Int.ceil_eq_iff]; push_cast; constructor <;> linarith
      omega
    unfold Bernoulli.cdf
    rw [this]; simp

/-- `inv_cdf` answers exactly for levels in `[0,1]`, with the quantile at every positive level other
than `1 - p`.  Defect: at the level `1 - p`, when that is positive, the quantile is zero and the
answer is one. -/
theorem C67_quantile (p : ℝ) (d : Bernoulli) (h : Bernoulli.new p = some d) :
    (∀ u, d.invCdf u = none ↔ u < 0 ∨ 1 < u) ∧
    (∀ u, 0 < u → u ≤ 1 → u ≠ 1 - p →
      ∃ q, d.invCdf u = some q ∧ Spec.IsQuantile (Spec.bernoulliLaw p) u q) ∧
    (p < 1 → d.invCdf (1 - p) = some 1 ∧ Spec.IsQuantile (Spec.bernoulliLaw p) (1 - p) 0) := by
  obtain ⟨h0, h1, rfl⟩ := Bernoulli.new_some h
  have hlow : ∀ u, 0 < u → u ≤ 1 - p → Spec.IsQuantile (Spec.bernoulliLaw p) u 0 := by
    intro u hu hu'
    refine ⟨by rw [bern_cdf h0 h1, if_neg (by simp), if_pos one_pos]; exact hu', ?_⟩
    intro y hy
    by_contra hc
    rw [bern_cdf h0 h1, if_pos (by linarith)] at hy
    linarith
  refine ⟨?_, ?_, ?_⟩
  · intro u
    unfold Bernoulli.invCdf
    split_ifs with hu
    · simp only [reduceCtorEq, false_iff, not_or, not_lt]; exact hu
    · simp only [true_iff]; by_contra hn; push Not at hn; exact hu hn
  · intro u hu hu1 hne
    unfold Bernoulli.invCdf
    rw [if_pos ⟨hu.le, hu1⟩]
    simp only
    split_ifs with hlt
    · exact ⟨0, rfl, hlow u hu hlt.le⟩
    · have hgt : 1 - p < u := lt_of_le_of_ne (not_lt.1 hlt) (Ne.symm hne)
      refine ⟨1, rfl, by rw [bern_cdf h0 h1, if_neg (by norm_num), if_neg (by norm_num)]; exact hu1, ?_⟩
      intro y hy
      by_contra hc
      push Not at hc
      rw [bern_cdf h0 h1] at hy
      split_ifs at hy <;> linarith
  · intro hp
    refine ⟨?_, hlow _ (by linarith) le_rfl⟩
    unfold Bernoulli.invCdf
    rw [if_pos ⟨by linarith, by linarith⟩]
    simp

example := C67_quantile (1 / 4) ⟨1 / 4⟩ (by unfold Bernoulli.new; norm_num)

/-- Characteristic and moment generating function, mean and variance; skewness, excess kurtosis and
entropy when both outcomes are possible (otherwise none of the three is a number); `median` is a
median and `mode` a point of largest mass. -/
theorem C67_moments (p : ℝ) (d : Bernoulli) (h : Bernoulli.new p = some d) :
    (∀ t, d.cf t = Spec.cf (Spec.bernoulliLaw p) t) ∧
    (∀ t, d.mgf t = Spec.mgf (Spec.bernoulliLaw p) t) ∧
    d.mean = Spec.mean (Spec.bernoulliLaw p) ∧ d.variance = Spec.variance (Spec.bernoulliLaw p) ∧
    (0 < p → p < 1 → d.skewness = some (Spec.skewness (Spec.bernoulliLaw p)) ∧
      d.kurtosis = some (Spec.excessKurtosis (Spec.bernoulliLaw p)) ∧
      d.entropy = some (∫ x, -log ((Spec.bernoulliLaw p).real {x}) ∂Spec.bernoulliLaw p)) ∧
    (p = 0 ∨ p = 1 → d.skewness = none ∧ d.kurtosis = none ∧ d.entropy = none) ∧
    Spec.IsMedian (Spec.bernoulliLaw p) d.median ∧
    (∀ x, (Spec.bernoulliLaw p).real {x} ≤ (Spec.bernoulliLaw p).real {d.mode}) := by
  obtain ⟨h0, h1, rfl⟩ := Bernoulli.new_some h
  have hm : Spec.mean (Spec.bernoulliLaw p) = p := by
    unfold Spec.mean; rw [bern_integral h0 h1]; simp
  have hcm : ∀ k : ℕ, Spec.centralMoment (Spec.bernoulliLaw p) k =
      p * (1 - p) ^ k + (1 - p) * (0 - p) ^ k := by
    intro k; unfold Spec.centralMoment; rw [bern_integral h0 h1, hm]; rfl
  have hv : Spec.variance (Spec.bernoulliLaw p) = p * (1 - p) := by
    unfold Spec.variance; rw [hcm]; ring
  have hmass : ∀ x, (Spec.bernoulliLaw p).real {x} =
      (if x = 1 then p else 0) + (if x = 0 then 1 - p else 0) := by
    intro x
    rw [bern_real h0 h1 (measurableSet_singleton _)]
    simp only [Set.indicator_apply, Set.mem_singleton_iff, Pi.one_apply, mul_ite, mul_one, mul_zero,
      eq_comm]
  refine ⟨?_, ?_, hm.symm, hv.symm, ?_, ?_, ?_, ?_⟩
  · intro t
    unfold Spec.cf
    rw [bern_integral h0 h1]
    unfold Bernoulli.cf
    simp only [Complex.real_smul, Complex.ofReal_one, mul_one, Complex.ofReal_zero, mul_zero,
      Complex.exp_zero, Complex.ofReal_sub]
    ring
  · intro t
    unfold Spec.mgf
    rw [bern_integral h0 h1]
    unfold Bernoulli.mgf
    simp
    ring
  · intro hp hp1
    have hq : 0 < 1 - p := by linarith
    have hpq : 0 < p * (1 - p) := by positivity
    have hs : 0 < √(p * (1 - p)) := by positivity
    refine ⟨?_, ?_, ?_⟩
    · unfold Spec.skewness
      rw [hcm, hv]
      unfold Bernoulli.skewness fdiv
      rw [if_neg hs.ne']
      congr 1
      have h3 : √(p * (1 - p)) ^ 3 = p * (1 - p) * √(p * (1 - p)) := by
        rw [pow_succ, sq_sqrt hpq.le]
      simp only
      rw [h3]
      field_simp
      ring
    · unfold Spec.excessKurtosis
      rw [hcm, hv]
      unfold Bernoulli.kurtosis fdiv
      rw [if_neg hpq.ne']
      congr 1
      simp only
      field_simp
      ring
    · rw [bern_integral h0 h1]
      unfold Bernoulli.entropy
      rw [if_neg (by rintro (h | h) <;> simp only at h <;> linarith)]
      simp only [hmass]
      simp
      ring
  · intro hp
    refine ⟨?_, ?_, ?_⟩ <;> rcases hp with rfl | rfl <;>
      simp [Bernoulli.skewness, Bernoulli.kurtosis, Bernoulli.entropy, fdiv]
  · unfold Spec.IsMedian
    rw [bern_real h0 h1 measurableSet_Iic, bern_real h0 h1 measurableSet_Ici]
    unfold Bernoulli.median
    simp only
    split_ifs with hp
    · norm_num at hp
      simp [Set.indicator_apply]; norm_num; linarith
    · norm_num at hp
      simp [Set.indicator_apply]; norm_num; linarith
  · intro x
    rw [hmass, hmass]
    unfold Bernoulli.mode
    simp only
    split_ifs <;> norm_num at * <;> linarith

/-- A concrete instance. -/
example : ∃ d, Bernoulli.new (1 / 4) = some d ∧ d.pmf 0 = some (3 / 4) ∧ d.pmf 2 = none ∧
    d.cdf (-1 / 2) = 3 / 4 ∧ d.mode = 0 := by
  have hn : Bernoulli.new (1 / 4) = some ⟨1 / 4⟩ := by unfold Bernoulli.new; norm_num
  refine ⟨_, hn, ?_, ?_, ?_, ?_⟩
  · rw [(C67_pmf _ _ hn).1 0 (Or.inl rfl), bern_real (by norm_num) (by norm_num)
      (measurableSet_singleton _)]
    norm_num
  · exact ((C67_pmf _ _ hn).2 2 (by norm_num) (by norm_num)).1
  · rw [((C67_cdf _ _ hn).2 (-1 / 2) (by norm_num) (by norm_num)).1]; norm_num
  · unfold Bernoulli.mode; norm_num

/-! ## Binomial -/

theorem wrapI32_small {n : ℕ} (h : n < 2 ^ 31) : wrapI32 n = n := by
  unfold wrapI32
  rw [Nat.mod_eq_of_lt (by omega), if_pos h]

theorem product32_some {m : ℕ} (h : m ≤ 12) : product 32 m = some m.factorial := by
  unfold product
  rw [if_pos]
  calc m.factorial ≤ (12).factorial := Nat.factorial_le h
    _ < 2 ^ 32 := by decide +kernel

theorem product32_none {m : ℕ} (h : 13 ≤ m) : product 32 m = none := by
  unfold product
  rw [if_neg]
  push Not
  calc 2 ^ 32 ≤ (13).factorial := by decide +kernel
    _ ≤ m.factorial := Nat.factorial_le h

theorem nCk_small {n k : ℕ} (hn : n ≤ 12) (hk : k ≤ n) : Binomial.nCk n k = some (n.choose k) := by
  unfold Binomial.nCk
  have hf := Nat.choose_mul_factorial_mul_factorial hk
  have hp : 0 < k.factorial * (n - k).factorial := by positivity
  have hle : k.factorial * (n - k).factorial ≤ (12).factorial := by
    calc k.factorial * (n - k).factorial ≤ n.choose k * (k.factorial * (n - k).factorial) :=
          Nat.le_mul_of_pos_left _ (Nat.choose_pos hk)
      _ = n.factorial := by rw [← hf]; ring
      _ ≤ _ := Nat.factorial_le hn
  have h12 : (12).factorial < 2 ^ 32 := by decide +kernel
  rw [product32_some hn, product32_some (hk.trans hn)]
  simp only [Option.bind_some]
  rw [if_pos hk, product32_some (by omega)]
  simp only [Option.bind_some]
  rw [if_pos (by omega), Nat.choose_eq_factorial_div_factorial hk]

/-- Construction panics exactly when the argument is not a probability. -/
theorem C68_new (n : ℕ) (p : ℝ) : (Binomial.new n p = none ↔ p < 0 ∨ 1 < p) ∧
    (∀ d, Binomial.new n p = some d → d.n = n ∧ d.p = p) ∧
    Binomial.new 1 0.5 = some Binomial.default := by
  refine ⟨?_, fun d h => ?_, ?_⟩
  · unfold Binomial.new
    split_ifs with h
    · simp only [reduceCtorEq, false_iff, not_or, not_lt]; exact h
    · simp only [true_iff]; by_contra hn; push Not at hn; exact h hn
  · obtain ⟨_, _, rfl⟩ := Binomial.new_some h; exact ⟨rfl, rfl⟩
  · unfold Binomial.new Binomial.default
    rw [if_pos (by norm_num)]

/-- Up to twelve trials `pmf` is the mass of the law at `0..n`, and panics beyond.  Defect: with
thirteen trials or more (up to the range of 32 bits) it panics everywhere: `n!` is computed in 32
bits. -/
theorem C68_pmf (n : ℕ) (p : ℝ) (d : Binomial) (h : Binomial.new n p = some d) :
    (n ≤ 12 → (∀ k : ℕ, k ≤ n → d.pmf k = some ((Spec.binomialLaw n p).real {(k:ℝ)})) ∧
      ∀ x : ℝ, n + 1 ≤ x → d.pmf x = none ∧ (Spec.binomialLaw n p).real {x} = 0) ∧
    (13 ≤ n → n < 2 ^ 32 → ∀ x, d.pmf x = none) := by
  obtain ⟨h0, h1, rfl⟩ := Binomial.new_some h
  rw [binomialLaw_eq h0 h1]
  refine ⟨fun hn => ⟨fun k hk => ?_, fun x hx => ⟨?_, ?_⟩⟩, fun hn hn' x => ?_⟩
  · have e1 : asU64 (k:ℝ) = k := by unfold asU64; rw [Nat.floor_natCast]; omega
    have e2 : asU32 (k:ℝ) = k := by unfold asU32; rw [Nat.floor_natCast]; omega
    have e3 : asI32 (k:ℝ) = k := by
      unfold asI32; rw [if_pos (by positivity), Int.floor_natCast]; omega
    rw [bin_mass h0 h1]
    unfold Binomial.pmf
    simp only [e1, e2, e3]
    rw [if_pos hk, Nat.mod_eq_of_lt (by omega), nCk_small hn hk, wrapI32_small (by omega)]
    simp only [Option.bind_some]
    rw [if_neg (by omega), zpow_natCast, zpow_natCast]
    rfl
  · unfold Binomial.pmf
    rw [if_neg]
    have : n + 1 ≤ ⌊x⌋₊ := Nat.le_floor (by push_cast; exact hx)
    unfold asU64
    simp only
    omega
  · by_cases hk : ∃ k : ℕ, x = k
    · obtain ⟨k, rfl⟩ := hk
      have : n + 1 ≤ k := by exact_mod_cast hx
      rw [bin_mass h0 h1]
      unfold bmass
      rw [Nat.choose_eq_zero_of_lt (by omega)]; simp
    · push Not at hk; exact bin_mass_off h0 h1 n x hk
  · unfold Binomial.pmf Binomial.nCk
    simp only
    rw [Nat.mod_eq_of_lt hn', product32_none hn]
    simp

/-- `cdf` is the distribution function at the integers below the number of trials.  Defect: at the
number of trials itself, where the distribution function is one, and beyond, it panics; so it does
at negative arguments from `-1` down, where it is zero. -/
theorem C68_cdf (n : ℕ) (p : ℝ) (d : Binomial) (h : Binomial.new n p = some d)
    (hn : n < 2 ^ 64 - 1) :
    (∀ k : ℕ, k < n → d.cdf k = some (Spec.cdf (Spec.binomialLaw n p) k)) ∧
    (∀ x : ℝ, n ≤ x → d.cdf x = none ∧ Spec.cdf (Spec.binomialLaw n p) x = 1) ∧
    (∀ x : ℝ, x ≤ -1 → d.cdf x = none ∧ Spec.cdf (Spec.binomialLaw n p) x = 0) := by
  obtain ⟨h0, h1, rfl⟩ := Binomial.new_some h
  rw [binomialLaw_eq h0 h1]
  refine ⟨fun k hk => ?_, fun x hx => ⟨?_, ?_⟩, fun x hx => ⟨?_, bin_cdf_neg h0 h1 n (by linarith)⟩⟩
  · have e1 : asU64 (k:ℝ) = k := by unfold asU64; rw [Nat.floor_natCast]; omega
    rw [bin_cdf h0 h1 n (by positivity) (by rw [Nat.floor_natCast]; omega), Nat.floor_natCast]
    unfold Binomial.cdf
    simp only [e1]
    rw [if_pos hk.le, betaReg_nat hk h0 h1]
  · have hf : n ≤ ⌊x⌋₊ := Nat.le_floor hx
    have hu : n ≤ asU64 x := by unfold asU64; omega
    unfold Binomial.cdf
    simp only
    split_ifs with hle
    · have : n - asU64 x = 0 := by omega
      unfold betaReg
      rw [this]; simp
    · rfl
  · have hx0 : 0 ≤ x := le_trans (by positivity) hx
    have hprob := bin_prob h0 h1 n
    refine le_antisymm measureReal_le_one ?_
    have hnn := bin_cdf h0 h1 n (x := (n:ℝ)) (by positivity) (by rw [Nat.floor_natCast])
    rw [Nat.floor_natCast, bmass_sum] at hnn
    rw [← hnn]
    unfold Spec.cdf
    exact measureReal_mono (Set.Iic_subset_Iic.2 hx)
  · unfold Binomial.cdf
    simp only
    split_ifs
    · unfold betaReg
      rw [if_neg]
      rintro ⟨_, hb, _⟩
      linarith
    · rfl

theorem bin_loop (n : ℕ) {p : ℝ} (h0 : 0 ≤ p) (h1 : p ≤ 1) (hn : n < 2 ^ 64 - 1) (u : ℝ) :
    (∀ m : ℕ, m < n → u ≤ ∑ j ∈ Finset.range (m + 1), bmass n p j →
      (∀ i < m, ∑ j ∈ Finset.range (i + 1), bmass n p j < u) →
      ∀ (r k fuel : ℕ), k + r = m → r + 1 ≤ fuel →
        Binomial.invLoop ⟨n, p⟩ u fuel k = .value m) ∧
    ((∀ i < n, ∑ j ∈ Finset.range (i + 1), bmass n p j < u) →
      ∀ (r k fuel : ℕ), k + r = n → r + 1 ≤ fuel →
        Binomial.invLoop ⟨n, p⟩ u fuel k = .panic) := by
  have hnew : Binomial.new n p = some ⟨n, p⟩ := by unfold Binomial.new; rw [if_pos ⟨h0, h1⟩]
  obtain ⟨hc1, hc2, _⟩ := C68_cdf n p _ hnew hn
  have hc : ∀ k : ℕ, k < n → (⟨n, p⟩ : Binomial).cdf k =
      some (∑ j ∈ Finset.range (k + 1), bmass n p j) := by
    intro k hk
    rw [hc1 k hk, binomialLaw_eq h0 h1,
      bin_cdf h0 h1 n (by positivity) (by rw [Nat.floor_natCast]; omega), Nat.floor_natCast]
  refine ⟨?_, ?_⟩
  · intro m hm hhi hlo r
    induction r with
    | zero =>
      intro k fuel hk hf
      obtain ⟨f, rfl⟩ : ∃ f, fuel = f + 1 := ⟨fuel - 1, by omega⟩
      obtain rfl : k = m := by omega
      unfold Binomial.invLoop
      rw [hc k hm]
      simp only
      rw [if_neg (not_lt.2 hhi)]
    | succ r ih =>
      intro k fuel hk hf
      obtain ⟨f, rfl⟩ : ∃ f, fuel = f + 1 := ⟨fuel - 1, by omega⟩
      unfold Binomial.invLoop
      rw [hc k (by omega)]
      simp only
      rw [if_pos (hlo k (by omega))]
      have := ih (k + 1) f (by omega) (by omega)
      push_cast at this
      exact this
  · intro hlo r
    induction r with
    | zero =>
      intro k fuel hk hf
      obtain ⟨f, rfl⟩ : ∃ f, fuel = f + 1 := ⟨fuel - 1, by omega⟩
      obtain rfl : k = n := by omega
      unfold Binomial.invLoop
      rw [(hc2 k le_rfl).1]
    | succ r ih =>
      intro k fuel hk hf
      obtain ⟨f, rfl⟩ : ∃ f, fuel = f + 1 := ⟨fuel - 1, by omega⟩
      unfold Binomial.invLoop
      rw [hc k (by omega)]
      simp only
      rw [if_pos (hlo k (by omega))]
      have := ih (k + 1) f (by omega) (by omega)
      push_cast at this
      exact this

/-- `inv_cdf` is the quantile at every positive level that fewer than `n` successes reach (zero at
level zero).  Defect: at every level beyond the probability of fewer than `n` successes - level one
when `p` is positive, and every level when `n` is zero - it panics instead of answering `n`. -/
theorem C68_quantile (n : ℕ) (p : ℝ) (d : Binomial) (h : Binomial.new n p = some d)
    (hn : n < 2 ^ 64 - 1) (fuel : ℕ) (hf : n + 1 ≤ fuel) :
    (∀ u, u < 0 ∨ 1 < u → d.invCdf u fuel = .panic) ∧
    (∀ u, 0 < u → u ≤ 1 → u ≤ Spec.cdf (Spec.binomialLaw n p) (n - 1) →
      ∃ q, d.invCdf u fuel = .value q ∧ Spec.IsQuantile (Spec.binomialLaw n p) u q) ∧
    (0 < n → d.invCdf 0 fuel = .value 0) ∧
    (∀ u, 0 ≤ u → u ≤ 1 → Spec.cdf (Spec.binomialLaw n p) (n - 1) < u →
      d.invCdf u fuel = .panic ∧ Spec.IsQuantile (Spec.binomialLaw n p) u n) ∧
    (0 < p → Spec.cdf (Spec.binomialLaw n p) (n - 1) < 1) := by
  obtain ⟨_, hc2, _⟩ := C68_cdf n p d h hn
  obtain ⟨h0, h1, rfl⟩ := Binomial.new_some h
  have lv := fun u => (bin_loop n h0 h1 hn u).1
  have lp := fun u => (bin_loop n h0 h1 hn u).2
  rw [binomialLaw_eq h0 h1] at hc2 ⊢
  have hmono : ∀ i j : ℕ, i ≤ j →
      ∑ k ∈ Finset.range i, bmass n p k ≤ ∑ k ∈ Finset.range j, bmass n p k := fun i j hij =>
    Finset.sum_le_sum_of_subset_of_nonneg (Finset.range_mono hij)
      fun k _ _ => bmass_nonneg h0 h1 n k
  have hlast : Spec.cdf (binLaw n p) ((n:ℝ) - 1) = ∑ k ∈ Finset.range n, bmass n p k := by
    rcases Nat.eq_zero_or_pos n with rfl | hpos
    · rw [bin_cdf_neg h0 h1 _ (by norm_num)]; simp
    · obtain ⟨m, rfl⟩ : ∃ m, n = m + 1 := ⟨n - 1, by omega⟩
      rw [show (((m + 1 : ℕ) : ℝ) - 1) = m by push_cast; ring,
        bin_cdf h0 h1 _ (by positivity) (by rw [Nat.floor_natCast]; omega), Nat.floor_natCast]
  have hstart : ∀ u, 0 ≤ u → u ≤ 1 →
      (⟨n, p⟩ : Binomial).invCdf u fuel = Binomial.invLoop ⟨n, p⟩ u fuel ((0:ℕ):ℝ) := by
    intro u hu hu1
    unfold Binomial.invCdf
    rw [if_pos ⟨hu, hu1⟩]; simp
  refine ⟨?_, ?_, ?_, ?_, ?_⟩
  · intro u hu
    unfold Binomial.invCdf
    rw [if_neg]
    rintro ⟨h2, h3⟩
    rcases hu with hu | hu <;> linarith
  · intro u hu hu1 hF
    rw [hlast] at hF
    have hnpos : 0 < n := by
      rcases Nat.eq_zero_or_pos n with rfl | hpos
      · simp at hF; linarith
      · exact hpos
    classical
    have hex : ∃ m : ℕ, u ≤ ∑ j ∈ Finset.range (m + 1), bmass n p j :=
      ⟨n - 1, by rw [Nat.sub_add_cancel hnpos]; exact hF⟩
    obtain ⟨m, hm, hmin⟩ : ∃ m, u ≤ ∑ j ∈ Finset.range (m + 1), bmass n p j ∧
        ∀ i < m, ¬ u ≤ ∑ j ∈ Finset.range (i + 1), bmass n p j :=
      ⟨Nat.find hex, Nat.find_spec hex, fun i hi => Nat.find_min hex hi⟩
    have hmn : m < n := by
      by_contra hc
      exact hmin (n - 1) (by omega) (by rw [Nat.sub_add_cancel hnpos]; exact hF)
    refine ⟨m, ?_, ?_, ?_⟩
    · rw [hstart u hu.le hu1]
      exact lv u m hmn hm (fun i hi => not_le.1 (hmin i hi)) m 0 fuel (by omega) (by omega)
    · rw [bin_cdf h0 h1 n (by positivity) (by rw [Nat.floor_natCast]; omega), Nat.floor_natCast]
      exact hm
    · intro y hy
      rcases lt_or_ge y 0 with hy0 | hy0
      · rw [bin_cdf_neg h0 h1 n hy0] at hy; linarith
      · refine le_trans ?_ (Nat.floor_le hy0)
        have : m ≤ ⌊y⌋₊ := by
          by_contra hc
          rw [bin_cdf h0 h1 n hy0 (by omega)] at hy
          exact hmin _ (by omega) hy
        exact_mod_cast this
  · intro hnpos
    rw [hstart 0 le_rfl zero_le_one]
    have := lv 0 0 hnpos (by simpa using bmass_nonneg h0 h1 n 0) (fun i hi => absurd hi (by omega))
      0 0 fuel rfl (by omega)
    rw [this]; simp
  · intro u hu hu1 hF
    rw [hlast] at hF
    refine ⟨?_, ?_, ?_⟩
    · rw [hstart u hu hu1]
      exact lp u (fun i hi => lt_of_le_of_lt (hmono _ _ hi) hF) n 0 fuel (by omega) hf
    · rw [(hc2 n le_rfl).2]; exact hu1
    · intro y hy
      by_contra hc
      push Not at hc
      rcases lt_or_ge y 0 with hy0 | hy0
      · rw [bin_cdf_neg h0 h1 n hy0] at hy
        have : u = 0 := by linarith
        have h2 : 0 ≤ ∑ k ∈ Finset.range n, bmass n p k :=
          Finset.sum_nonneg fun k _ => bmass_nonneg h0 h1 n k
        linarith
      · have hlt : ⌊y⌋₊ < n := (Nat.floor_lt hy0).2 hc
        rw [bin_cdf h0 h1 n hy0 hlt.le] at hy
        have := hmono (⌊y⌋₊ + 1) n hlt
        linarith
  · intro hp
    rw [hlast]
    have hs := bmass_sum (p := p) n
    rw [Finset.sum_range_succ] at hs
    have : 0 < bmass n p n := by unfold bmass; simp; positivity
    linarith

/-- Characteristic and moment generating function (for fewer than `2^31` trials), mean and variance;
skewness and excess kurtosis when the variance is positive; otherwise these two and `entropy` are
not numbers. -/
theorem C68_moments (n : ℕ) (p : ℝ) (d : Binomial) (h : Binomial.new n p = some d) :
    (n < 2 ^ 31 → (∀ t, d.cf t = Spec.cf (Spec.binomialLaw n p) t) ∧
      ∀ t, d.mgf t = Spec.mgf (Spec.binomialLaw n p) t) ∧
    d.mean = Spec.mean (Spec.binomialLaw n p) ∧
    d.variance = Spec.variance (Spec.binomialLaw n p) ∧
    (0 < n → 0 < p → p < 1 → d.skewness = some (Spec.skewness (Spec.binomialLaw n p)) ∧
      d.kurtosis = some (Spec.excessKurtosis (Spec.binomialLaw n p))) ∧
    (n = 0 ∨ p = 0 ∨ p = 1 → d.skewness = none ∧ d.kurtosis = none ∧ d.entropy = none) := by
  obtain ⟨h0, h1, rfl⟩ := Binomial.new_some h
  rw [binomialLaw_eq h0 h1]
  obtain ⟨e1, e2, e3, e4⟩ := bin_moments h0 h1 n
  refine ⟨fun hn => ⟨fun t => ?_, fun t => ?_⟩, e1.symm, e2.symm, ?_, ?_⟩
  · rw [bin_cf h0 h1]; unfold Binomial.cf; simp only; rw [wrapI32_small hn, zpow_natCast]
  · rw [bin_mgf h0 h1]; unfold Binomial.mgf; simp only; rw [wrapI32_small hn, zpow_natCast]
  · intro hn hp hp1
    have hq : 0 < 1 - p := by linarith
    have hnR : (0:ℝ) < n := by exact_mod_cast hn
    have hv : 0 < n * p * (1 - p) := by positivity
    have hs : 0 < √(n * p * (1 - p)) := by positivity
    refine ⟨?_, ?_⟩
    · rw [e3]
      unfold Binomial.skewness Binomial.variance fdiv
      rw [if_neg hs.ne']
      congr 1
      rw [show √(n * p * (1 - p)) ^ 3 = n * p * (1 - p) * √(n * p * (1 - p)) by
        rw [pow_succ, sq_sqrt hv.le]]
      simp only
      field_simp
    · rw [e4]
      unfold Binomial.kurtosis Binomial.variance fdiv
      rw [if_neg hv.ne']
      congr 1
      simp only
      field_simp
      ring
  · intro hz
    have hv : (⟨n, p⟩ : Binomial).variance = 0 := by
      unfold Binomial.variance
      rcases hz with rfl | rfl | rfl <;> simp
    simp [Binomial.skewness, Binomial.kurtosis, Binomial.entropy, fdiv, hv]

example := C68_moments 5 (1 / 4) ⟨5, 1 / 4⟩ (by unfold Binomial.new; norm_num)

/-- `mode` is a number of successes with the largest mass, unless success is certain.  Defect: in
that case it is `n + 1`, which is impossible. -/
theorem C68_mode (n : ℕ) (p : ℝ) (d : Binomial) (h : Binomial.new n p = some d) :
    (p < 1 → ∃ m : ℕ, d.mode = m ∧ m ≤ n ∧
      ∀ x, (Spec.binomialLaw n p).real {x} ≤ (Spec.binomialLaw n p).real {(m:ℝ)}) ∧
    (p = 1 → d.mode = n + 1 ∧ (Spec.binomialLaw n p).real {d.mode} = 0 ∧
      (Spec.binomialLaw n p).real {(n:ℝ)} = 1) := by
  obtain ⟨h0, h1, rfl⟩ := Binomial.new_some h
  rw [binomialLaw_eq h0 h1]
  refine ⟨fun hp => ?_, fun hp => ?_⟩
  · have hq : 0 < 1 - p := by linarith
    have hnp : 0 ≤ ((n:ℝ) + 1) * p := by positivity
    have hmn : ⌊((n:ℝ) + 1) * p⌋₊ ≤ n := by
      have : ⌊((n:ℝ) + 1) * p⌋₊ < n + 1 := by
        rw [Nat.floor_lt hnp]; push_cast
        nlinarith [show (0:ℝ) < (n:ℝ) + 1 by positivity]
      omega
    refine ⟨⌊((n:ℝ) + 1) * p⌋₊, ?_, hmn, ?_⟩
    · unfold Binomial.mode
      simp only
      rw [← Int.natCast_floor_eq_floor hnp]; simp
    · -- ratio of neighbouring masses
      have step : ∀ m : ℕ, m < n →
          bmass n p (m + 1) * ((m + 1) * (1 - p)) = bmass n p m * ((n - m) * p) := by
        intro m hm
        have hc : ((n.choose (m + 1) : ℕ) : ℝ) * ((m:ℝ) + 1) = (n.choose m : ℕ) * ((n:ℝ) - m) := by
          have := Nat.choose_succ_right_eq n m
          rw [← Nat.cast_sub hm.le]; exact_mod_cast this
        unfold bmass
        rw [show n - m = n - (m + 1) + 1 by omega, pow_succ, pow_succ]
        linear_combination (p ^ m * p * (1 - p) ^ (n - (m + 1)) * (1 - p)) * hc
      have up : ∀ m : ℕ, m < n → m + 1 ≤ ⌊((n:ℝ) + 1) * p⌋₊ → bmass n p m ≤ bmass n p (m + 1) := by
        intro m hm hle
        have h2 : ((m + 1 : ℕ) : ℝ) ≤ ((n:ℝ) + 1) * p := (Nat.le_floor_iff hnp).1 hle
        push_cast at h2
        have hs := step m hm
        have hb := bmass_nonneg h0 h1 n m
        have hpos : 0 < ((m:ℝ) + 1) * (1 - p) := by positivity
        refine le_of_mul_le_mul_right ?_ hpos
        rw [hs]
        refine mul_le_mul_of_nonneg_left ?_ hb
        linarith
      have down : ∀ m : ℕ, ⌊((n:ℝ) + 1) * p⌋₊ ≤ m → bmass n p (m + 1) ≤ bmass n p m := by
        intro m hle
        rcases lt_or_ge m n with hm | hm
        · have h2 : ((n:ℝ) + 1) * p < m + 1 := by
            have := (Nat.floor_lt (n := m + 1) hnp).1 (by omega)
            exact_mod_cast this
          have hs := step m hm
          have hb := bmass_nonneg h0 h1 n m
          have hpos : 0 < ((m:ℝ) + 1) * (1 - p) := by positivity
          refine le_of_mul_le_mul_right ?_ hpos
          rw [hs]
          refine mul_le_mul_of_nonneg_left ?_ hb
          linarith
        · have : bmass n p (m + 1) = 0 := by
            unfold bmass; rw [Nat.choose_eq_zero_of_lt (by omega)]; simp
          rw [this]; exact bmass_nonneg h0 h1 n m
      have all : ∀ m : ℕ, bmass n p m ≤ bmass n p ⌊((n:ℝ) + 1) * p⌋₊ := by
        intro m
        rcases le_total m ⌊((n:ℝ) + 1) * p⌋₊ with hm | hm
        · induction hm using Nat.decreasingInduction with
          | self => exact le_rfl
          | of_succ k hk ih => exact (up k (by omega) hk).trans ih
        · induction m, hm using Nat.le_induction with
          | base => exact le_rfl
          | succ k hk ih => exact (down k hk).trans ih
      intro x
      rw [bin_mass h0 h1]
      by_cases hx : ∃ k : ℕ, x = k
      · obtain ⟨k, rfl⟩ := hx
        rw [bin_mass h0 h1]; exact all k
      · push Not at hx
        rw [bin_mass_off h0 h1 n x hx]; exact bmass_nonneg h0 h1 n _
  · subst hp
    have hmode : (⟨n, 1⟩ : Binomial).mode = ((n + 1 : ℕ) : ℝ) := by
      unfold Binomial.mode
      simp only [mul_one]
      have : ⌊(n:ℝ) + 1⌋ = ((n + 1 : ℕ) : ℤ) := by
        rw [show (n:ℝ) + 1 = ((n + 1 : ℕ) : ℝ) by push_cast; rfl]; exact Int.floor_natCast _
      rw [this]; push_cast; rfl
    refine ⟨by rw [hmode]; push_cast; rfl, ?_, ?_⟩
    · rw [hmode, bin_mass h0 h1]
      unfold bmass; rw [Nat.choose_eq_zero_of_lt (by omega)]; simp
    · rw [bin_mass h0 h1]; unfold bmass; simp

example := C68_mode 5 (1 / 4) ⟨5, 1 / 4⟩ (by unfold Binomial.new; norm_num)

/-- Defects: `median`, the integer part of the mean, need not be a median (one trial with
probability 9/10), and `entropy` is not the entropy (one fair trial). -/
theorem C68_median_entropy_wrong :
    (∃ d, Binomial.new 1 (9 / 10) = some d ∧ ¬ Spec.IsMedian (Spec.binomialLaw 1 (9 / 10)) d.median ∧
      Spec.IsMedian (Spec.binomialLaw 1 (9 / 10)) 1) ∧
    (∃ d e, Binomial.new 1 (1 / 2) = some d ∧ d.entropy = some e ∧
      (∫ x, -log ((Spec.binomialLaw 1 (1 / 2)).real {x}) ∂Spec.binomialLaw 1 (1 / 2)) = log 2 ∧
      log 2 < e) := by
  refine ⟨⟨⟨1, 9 / 10⟩, by unfold Binomial.new; norm_num, ?_, ?_⟩, ?_⟩
  · rw [binomialLaw_eq (by norm_num) (by norm_num)]
    rintro ⟨hm, _⟩
    have : (⟨1, 9 / 10⟩ : Binomial).median = 0 := by
      unfold Binomial.median Binomial.mean
      have : ⌊(((1:ℕ):ℝ)) * (9 / 10)⌋ = 0 := by rw [Int.floor_eq_iff]; norm_num
      simp only
      rw [this]; simp
    rw [this] at hm
    have hc := bin_cdf (p := 9 / 10) (by norm_num) (by norm_num) 1 (x := 0) le_rfl (by simp)
    unfold Spec.cdf at hc
    rw [hc] at hm
    norm_num [bmass] at hm
  · rw [binomialLaw_eq (by norm_num) (by norm_num)]
    unfold Spec.IsMedian
    rw [bin_real (by norm_num) (by norm_num) measurableSet_Iic,
      bin_real (by norm_num) (by norm_num) measurableSet_Ici]
    norm_num [Finset.sum_range_succ, bmass, Set.indicator_apply]
  · refine ⟨⟨1, 1 / 2⟩, 0.5 * log (2 * π * exp 1 * (1 / 4)), by unfold Binomial.new; norm_num, ?_, ?_, ?_⟩
    · unfold Binomial.entropy Binomial.variance
      norm_num
    · rw [binomialLaw_eq (by norm_num) (by norm_num), bin_integral (by norm_num) (by norm_num)]
      simp only [bin_mass (p := 1 / 2) (by norm_num) (by norm_num), Finset.sum_range_succ,
        Finset.sum_range_zero, smul_eq_mul]
      norm_num [bmass]
      rw [one_div, log_inv]; ring
    · have hpi := pi_gt_three
      have he : (2.7:ℝ) < exp 1 := by have := exp_one_gt_d9; linarith
      have h4 : (4:ℝ) < 2 * π * exp 1 * (1 / 4) := by nlinarith
      have : log 4 < log (2 * π * exp 1 * (1 / 4)) := log_lt_log (by norm_num) h4
      have h24 : log 4 = 2 * log 2 := by
        rw [show (4:ℝ) = 2 ^ 2 by norm_num, log_pow]; norm_num
      norm_num at this ⊢
      linarith

/-- Defect: `sample` passes the sample size to the generator as the number of trials.  Its result
does not depend on the number of trials of the distribution at all, although the mean does. -/
theorem C68_sample_wrong (n n' : ℕ) (p : ℝ) (d d' : Binomial) (h : Binomial.new n p = some d)
    (h' : Binomial.new n' p = some d') (gen : ℕ → ℝ → ℕ → ℕ) (size : ℕ) :
    d.sample gen size = d'.sample gen size ∧
    (∀ out, d.sample gen size = some out → ∀ x ∈ out, ∃ i, x = gen size p i) ∧
    (0 < p → n ≠ n' → d.mean ≠ d'.mean) := by
  obtain ⟨_, _, rfl⟩ := Binomial.new_some h
  obtain ⟨_, _, rfl⟩ := Binomial.new_some h'
  refine ⟨rfl, ?_, ?_⟩
  · intro out ho x hx
    unfold Binomial.sample at ho
    split_ifs at ho
    simp only [Option.some.injEq] at ho
    subst ho
    obtain ⟨i, _, rfl⟩ := List.mem_map.1 hx
    exact ⟨i, rfl⟩
  · intro hp hne heq
    unfold Binomial.mean at heq
    simp only at heq
    have := mul_right_cancel₀ hp.ne' heq
    exact hne (by exact_mod_cast this)

/-- A concrete instance: two fair trials; level one makes `inv_cdf` panic. -/
example : ∃ d, Binomial.new 2 (1 / 2) = some d ∧ d.pmf 1 = some (1 / 2) ∧ d.cdf 1 = some (3 / 4) ∧
    d.cdf 2 = none ∧ d.invCdf 1 3 = .panic ∧ d.mode = 1 := by
  have hn : Binomial.new 2 (1 / 2) = some ⟨2, 1 / 2⟩ := by unfold Binomial.new; norm_num
  refine ⟨_, hn, ?_, ?_, ?_, ?_, ?_⟩
  · have := ((C68_pmf 2 _ _ hn).1 (by norm_num)).1 1 (by norm_num)
    rw [binomialLaw_eq (by norm_num) (by norm_num), bin_mass (by norm_num) (by norm_num)] at this
    norm_num [bmass] at this ⊢
    exact this
  · have := (C68_cdf 2 _ _ hn (by norm_num)).1 1 (by norm_num)
    rw [binomialLaw_eq (by norm_num) (by norm_num), bin_cdf (by norm_num) (by norm_num) 2
      (by norm_num) (by simp)] at this
    norm_num [bmass, Finset.sum_range_succ] at this ⊢
    exact this
  · exact ((C68_cdf 2 _ _ hn (by norm_num)).2.1 2 (by norm_num)).1
  · obtain ⟨_, _, _, h4, h5⟩ := C68_quantile 2 _ _ hn (by norm_num) 3 (by norm_num)
    exact (h4 1 (by norm_num) le_rfl (h5 (by norm_num))).1
  · unfold Binomial.mode
    have : ⌊(((2:ℕ):ℝ) + 1) * (1 / 2)⌋ = 1 := by rw [Int.floor_eq_iff]; norm_num
    simp only
    rw [this]; simp

end Verif.Distributions
