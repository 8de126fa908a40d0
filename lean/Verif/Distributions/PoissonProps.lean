import Verif.Distributions.PoissonLemmas

/-!
# C66: the Poisson distribution

The law is `Spec.poissonLaw λ`: Mathlib's `poissonMeasure`, carried from `ℕ` to the real line.
-/

namespace Verif.Distributions

open MeasureTheory ProbabilityTheory Real

namespace Poisson

theorem new_some {l : ℝ} {d : Poisson} (h : new l = some d) : 0 < l ∧ d = ⟨l⟩ := by
  unfold new at h
  split_ifs at h with h0
  exact ⟨h0, by simpa using h.symm⟩

theorem product_some {m : ℕ} (h : m ≤ 20) : product 64 m = some m.factorial := by
  unfold product
  rw [if_pos]
  calc m.factorial ≤ (20).factorial := Nat.factorial_le h
    _ < 2 ^ 64 := by decide +kernel

theorem product_none {m : ℕ} (h : 21 ≤ m) : product 64 m = none := by
  unfold product
  rw [if_neg, ]
  push Not
  calc 2 ^ 64 ≤ (21).factorial := by decide +kernel
    _ ≤ m.factorial := Nat.factorial_le h

theorem asU64_of_lt {x : ℝ} (h : x < 21) : asU64 x ≤ 20 ∧ asU64 x = ⌊x⌋₊ := by
  have : ⌊x⌋₊ < 21 := (Nat.floor_lt' (by norm_num)).2 (by exact_mod_cast h)
  unfold asU64
  omega

theorem asU64_of_ge {x : ℝ} (h : 21 ≤ x) : 21 ≤ asU64 x := by
  have : 21 ≤ ⌊x⌋₊ := Nat.le_floor (by exact_mod_cast h)
  unfold asU64
  omega

theorem asI32_of_lt {x : ℝ} (h0 : 0 ≤ x) (h : x < 21) : asI32 x = (⌊x⌋₊ : ℤ) := by
  have : ⌊x⌋₊ < 21 := (Nat.floor_lt' (by norm_num)).2 (by exact_mod_cast h)
  unfold asI32
  rw [if_pos h0, ← Int.natCast_floor_eq_floor h0]
  omega

theorem pmf_of_lt {l x : ℝ} (h0 : 0 ≤ x) (h : x < 21) :
    (⟨l⟩ : Poisson).pmf x = some (pmass l ⌊x⌋₊) := by
  unfold pmf
  obtain ⟨h1, h2⟩ := asU64_of_lt h
  rw [product_some h1, h2, asI32_of_lt h0 h, Option.map_some, zpow_natCast]
  unfold pmass
  congr 1
  ring

theorem pmf_of_ge {d : Poisson} {x : ℝ} (h : 21 ≤ x) : d.pmf x = none := by
  unfold pmf
  rw [product_none (asU64_of_ge h)]
  rfl

theorem pmf_nat {l : ℝ} {n : ℕ} (h : n ≤ 20) : (⟨l⟩ : Poisson).pmf n = some (pmass l n) := by
  rw [pmf_of_lt (by positivity) (by exact_mod_cast Nat.lt_succ_of_le h), Nat.floor_natCast]

/-- The loop: from the state with the masses below `k` summed. -/
theorem loop_value {l p : ℝ} {n : ℕ} (hn : n ≤ 20)
    (hhi : p ≤ ∑ j ∈ Finset.range (n + 1), pmass l j)
    (hlo : ∀ m ≤ n, ∑ j ∈ Finset.range m, pmass l j < p) :
    ∀ (i k fuel : ℕ), k + i = n + 1 → i + 1 ≤ fuel →
      invLoop ⟨l⟩ p fuel (∑ j ∈ Finset.range k, pmass l j) k = .value n := by
  intro i
  induction i with
  | zero =>
    intro k fuel hk hf
    obtain ⟨f, rfl⟩ : ∃ f, fuel = f + 1 := ⟨fuel - 1, by omega⟩
    have hk' : k = n + 1 := by omega
    subst hk'
    unfold invLoop
    rw [if_neg (not_lt.2 hhi)]
    push_cast
    simp
  | succ i ih =>
    intro k fuel hk hf
    obtain ⟨f, rfl⟩ : ∃ f, fuel = f + 1 := ⟨fuel - 1, by omega⟩
    unfold invLoop
    rw [if_pos (hlo k (by omega)), pmf_nat (by omega)]
    simp only
    rw [← Finset.sum_range_succ]
    exact ih (k + 1) f (by omega) (by omega)

theorem loop_panic {l p : ℝ} (hlo : ∀ m ≤ 21, ∑ j ∈ Finset.range m, pmass l j < p) :
    ∀ (i k fuel : ℕ), k + i = 21 → i + 1 ≤ fuel →
      invLoop ⟨l⟩ p fuel (∑ j ∈ Finset.range k, pmass l j) k = .panic := by
  intro i
  induction i with
  | zero =>
    intro k fuel hk hf
    obtain ⟨f, rfl⟩ : ∃ f, fuel = f + 1 := ⟨fuel - 1, by omega⟩
    have hk' : k = 21 := by omega
    subst hk'
    unfold invLoop
    rw [if_pos (hlo _ le_rfl), pmf_of_ge (by norm_num)]
  | succ i ih =>
    intro k fuel hk hf
    obtain ⟨f, rfl⟩ : ∃ f, fuel = f + 1 := ⟨fuel - 1, by omega⟩
    unfold invLoop
    rw [if_pos (hlo k (by omega)), pmf_nat (by omega)]
    simp only
    rw [← Finset.sum_range_succ]
    exact ih (k + 1) f (by omega) (by omega)

end Poisson

/-- The mass of the law at an integer. -/
theorem poisson_mass {l : ℝ} (hl : 0 < l) (n : ℕ) : (Spec.poissonLaw l).real {(n:ℝ)} = pmass l n := by
  unfold Spec.poissonLaw
  have hm : MeasurableEmbedding (Nat.cast : ℕ → ℝ) := MeasurableEmbedding.natCast
  rw [map_measureReal_apply hm.measurable (measurableSet_singleton _)]
  have : (Nat.cast : ℕ → ℝ) ⁻¹' {(n:ℝ)} = {n} := by ext m; simp
  rw [this, poissonMeasure_real_singleton, Real.coe_toNNReal l hl.le]
  rfl

/-- Construction panics exactly when the rate is not positive. -/
theorem C66_new (l : ℝ) : (Poisson.new l = none ↔ l ≤ 0) ∧
    ∀ d, Poisson.new l = some d → d.lambda = l := by
  refine ⟨?_, fun d h => ?_⟩
  · unfold Poisson.new; split_ifs with h <;> simp [h] <;> linarith
  · obtain ⟨_, rfl⟩ := Poisson.new_some h; rfl

/-- `pmf` is the mass of the law at the integers `0..20`; from `21` on it panics (the factorial does
not fit), although the law has mass there. -/
theorem C66_pmf (l : ℝ) (d : Poisson) (h : Poisson.new l = some d) :
    (∀ n : ℕ, n ≤ 20 → d.pmf n = some ((Spec.poissonLaw l).real {(n:ℝ)})) ∧
    (∀ x : ℝ, 21 ≤ x → d.pmf x = none) ∧
    (∀ n : ℕ, 0 < (Spec.poissonLaw l).real {(n:ℝ)}) := by
  obtain ⟨hl, rfl⟩ := Poisson.new_some h
  refine ⟨fun n hn => ?_, fun x hx => Poisson.pmf_of_ge hx, fun n => ?_⟩
  · rw [poisson_mass hl, Poisson.pmf_nat hn]
  · rw [poisson_mass hl]; exact pmass_pos hl n

example := C66_pmf 3 ⟨3⟩ (by simp [Poisson.new])

/-- Defect: off the non-negative integers, where the law has no mass, `pmf` is positive: between two
integers it repeats the value at the lower one, and at a negative integer `-n` it is
`λ⁻ⁿ exp (-λ)`. -/
theorem C66_pmf_off_support (l : ℝ) (d : Poisson) (h : Poisson.new l = some d) :
    (∀ x : ℝ, 0 ≤ x → d.pmf x = d.pmf ⌊x⌋₊) ∧
    (∀ x : ℝ, 0 ≤ x → x < 21 → ∃ v, d.pmf x = some v ∧ 0 < v) ∧
    (∀ n : ℕ, n ≤ 2 ^ 31 → d.pmf (-n) = some ((l ^ n)⁻¹ * exp (-l))) ∧
    (∀ x : ℝ, (∀ n : ℕ, x ≠ n) → (Spec.poissonLaw l).real {x} = 0) := by
  obtain ⟨hl, rfl⟩ := Poisson.new_some h
  refine ⟨fun x hx => ?_, fun x hx hx' => ⟨_, Poisson.pmf_of_lt hx hx', pmass_pos hl _⟩,
    fun n hn => ?_, fun x hx => ?_⟩
  · rcases lt_or_ge x 21 with h21 | h21
    · have : ((⌊x⌋₊ : ℕ) : ℝ) < 21 := lt_of_le_of_lt (Nat.floor_le hx) h21
      rw [Poisson.pmf_of_lt hx h21, Poisson.pmf_of_lt (by positivity) this, Nat.floor_natCast]
    · have : (21:ℝ) ≤ ((⌊x⌋₊ : ℕ) : ℝ) := by
        have : 21 ≤ ⌊x⌋₊ := Nat.le_floor (by exact_mod_cast h21)
        exact_mod_cast this
      rw [Poisson.pmf_of_ge h21, Poisson.pmf_of_ge this]
  · have h1 : asU64 (-(n:ℝ)) = 0 := by
      unfold asU64
      rw [Nat.floor_of_nonpos (by simp)]; rfl
    have h2 : asI32 (-(n:ℝ)) = -(n:ℤ) := by
      unfold asI32
      have e1 : ⌊-(n:ℝ)⌋ = -(n:ℤ) := by
        rw [show -(n:ℝ) = ((-(n:ℤ) : ℤ) : ℝ) by push_cast; rfl]; exact Int.floor_intCast _
      have e2 : ⌈-(n:ℝ)⌉ = -(n:ℤ) := by
        rw [show -(n:ℝ) = ((-(n:ℤ) : ℤ) : ℝ) by push_cast; rfl]; exact Int.ceil_intCast _
      rw [e1, e2, ite_self]
      omega
    unfold Poisson.pmf
    rw [h1, h2, Poisson.product_some (by norm_num)]
    simp
  · unfold Spec.poissonLaw
    have hm : MeasurableEmbedding (Nat.cast : ℕ → ℝ) := MeasurableEmbedding.natCast
    rw [map_measureReal_apply hm.measurable (measurableSet_singleton _)]
    have : (Nat.cast : ℕ → ℝ) ⁻¹' {x} = ∅ := by
      ext m; simp only [Set.mem_preimage, Set.mem_singleton_iff, Set.mem_empty_iff_false, iff_false]
      exact fun h => hx m h.symm
    rw [this]; simp

example := C66_pmf_off_support 3 ⟨3⟩ (by simp [Poisson.new])

/-- Defect: `cdf` divides by the upper instead of the complete gamma function.  With `F` the true
distribution function, at every integer it answers `2 - 1 / F`: always too small, and negative
whenever `F` is below one half.  Up to `-1` it panics. -/
theorem C66_cdf_wrong (l : ℝ) (d : Poisson) (h : Poisson.new l = some d) :
    (∀ n : ℕ, ∃ c, d.cdf n = some c ∧ c = 2 - 1 / Spec.cdf (Spec.poissonLaw l) n ∧
      c < Spec.cdf (Spec.poissonLaw l) n ∧ (c < 0 ↔ Spec.cdf (Spec.poissonLaw l) n < 1 / 2)) ∧
    (∀ x, x ≤ -1 → d.cdf x = none) := by
  obtain ⟨hl, rfl⟩ := Poisson.new_some h
  refine ⟨fun n => ⟨2 - 1 / Spec.cdf (Spec.poissonLaw l) n, ?_, rfl, ?_⟩, ?_⟩
  · unfold Poisson.cdf
    rw [if_neg (by push Not; positivity), gammaUi_eq (by positivity) hl.le, Real.Gamma_nat_eq_factorial,
      gammaLi_nat, ← poisson_cdf hl]
    have h0 : 0 < Spec.cdf (Spec.poissonLaw l) n := by
      rw [poisson_cdf hl]
      exact Finset.sum_pos (fun j _ => pmass_pos hl j) (by simp)
    congr 1
    rw [show (n.factorial : ℝ) - n.factorial * (1 - Spec.cdf (Spec.poissonLaw l) n) =
      n.factorial * Spec.cdf (Spec.poissonLaw l) n by ring]
    have : (0:ℝ) < n.factorial := by positivity
    field_simp
    ring
  · have h0 : 0 < Spec.cdf (Spec.poissonLaw l) n := by
      rw [poisson_cdf hl]
      exact Finset.sum_pos (fun j _ => pmass_pos hl j) (by simp)
    have h1 : Spec.cdf (Spec.poissonLaw l) n < 1 := by
      have hs : ∑ j ∈ Finset.range (n + 1 + 1), pmass l j ≤ 1 := by
        have := poisson_cdf hl (n + 1)
        rw [← this]; exact measureReal_le_one
      rw [Finset.sum_range_succ] at hs
      have := pmass_pos hl (n + 1)
      rw [poisson_cdf hl]; linarith
    generalize Spec.cdf (Spec.poissonLaw l) n = F at h0 h1
    refine ⟨?_, ?_⟩
    · have : 2 - 1 / F = (2 * F - 1) / F := by field_simp
      rw [this, div_lt_iff₀ h0]
      nlinarith [sq_pos_of_pos (sub_pos.2 h1)]
    · rw [sub_neg, lt_div_iff₀ h0]
      constructor <;> intro <;> linarith
  · intro x hx
    unfold Poisson.cdf
    rw [if_pos (by linarith)]

/-- `inv_cdf` is the quantile function at every level that the masses at `0..20` reach; above that
level (short of `1` by the machine epsilon) it panics; at level zero it answers `-1`. -/
theorem C66_quantile (l : ℝ) (d : Poisson) (h : Poisson.new l = some d) (fuel : ℕ)
    (hf : 22 ≤ fuel) :
    (∀ p, p < 0 ∨ 1 < p → d.invCdf p fuel = .nan) ∧
    (∀ p, p ≤ 1 → 1 - 2⁻¹ ^ 52 < p → d.invCdf p fuel = .infinity) ∧
    (∀ p, 0 < p → p ≤ 1 - 2⁻¹ ^ 52 → p ≤ Spec.cdf (Spec.poissonLaw l) 20 →
      ∃ q, d.invCdf p fuel = .value q ∧ Spec.IsQuantile (Spec.poissonLaw l) p q) ∧
    (∀ p, p ≤ 1 - 2⁻¹ ^ 52 → Spec.cdf (Spec.poissonLaw l) 20 < p → d.invCdf p fuel = .panic) ∧
    d.invCdf 0 fuel = .value (-1) := by
  obtain ⟨hl, rfl⟩ := Poisson.new_some h
  have heps : (0:ℝ) < 2⁻¹ ^ 52 := by positivity
  have heps1 : (2⁻¹:ℝ) ^ 52 < 1 := by norm_num
  have hstart : ∀ p : ℝ, 0 ≤ p → p ≤ 1 - 2⁻¹ ^ 52 →
      (⟨l⟩ : Poisson).invCdf p fuel = Poisson.invLoop ⟨l⟩ p fuel 0 0 := by
    intro p h0 h1
    unfold Poisson.invCdf
    rw [if_neg (by push Not; exact ⟨h0, by linarith⟩), if_neg]
    rw [abs_of_nonpos (by linarith)]; linarith
  have hmono : ∀ m n : ℕ, m ≤ n →
      ∑ j ∈ Finset.range m, pmass l j ≤ ∑ j ∈ Finset.range n, pmass l j := fun m n hmn =>
    Finset.sum_le_sum_of_subset_of_nonneg (Finset.range_mono hmn) fun j _ _ => (pmass_pos hl j).le
  refine ⟨?_, ?_, ?_, ?_, ?_⟩
  · intro p hp
    unfold Poisson.invCdf
    rw [if_pos]
    rintro ⟨h0, h1⟩
    rcases hp with hp | hp <;> linarith
  · intro p h1 h2
    unfold Poisson.invCdf
    rw [if_neg (by push Not; exact ⟨by linarith, h1⟩), if_pos]
    rw [abs_of_nonpos (by linarith)]; linarith
  · intro p h0 h1 hp
    have h20 := poisson_cdf hl 20
    push_cast at h20
    rw [h20] at hp
    classical
    have hex : ∃ n : ℕ, p ≤ ∑ j ∈ Finset.range (n + 1), pmass l j := ⟨20, hp⟩
    obtain ⟨n, hn, hmin⟩ : ∃ n, p ≤ ∑ j ∈ Finset.range (n + 1), pmass l j ∧
        ∀ m < n, ¬ p ≤ ∑ j ∈ Finset.range (m + 1), pmass l j :=
      ⟨Nat.find hex, Nat.find_spec hex, fun m hm => Nat.find_min hex hm⟩
    have hn20 : n ≤ 20 := by
      by_contra hc
      exact hmin 20 (by omega) hp
    have hlo : ∀ m ≤ n, ∑ j ∈ Finset.range m, pmass l j < p := by
      intro m hm
      rcases Nat.eq_zero_or_pos m with rfl | hm0
      · simpa using h0
      · obtain ⟨i, rfl⟩ : ∃ i, m = i + 1 := ⟨m - 1, by omega⟩
        exact not_le.1 (hmin i (by omega))
    have hloop := Poisson.loop_value hn20 hn hlo (n + 1) 0 fuel (by omega) (by omega)
    rw [Finset.sum_range_zero] at hloop
    refine ⟨n, by rw [hstart p h0.le h1, hloop], ?_, ?_⟩
    · rw [poisson_cdf hl]; exact hn
    · intro y hy
      rcases lt_or_ge y 0 with hy0 | hy0
      · rw [poisson_cdf_neg hy0] at hy; linarith
      · rw [poisson_cdf_floor hy0, poisson_cdf hl] at hy
        have : n ≤ ⌊y⌋₊ := by
          by_contra hc
          exact hmin _ (by omega) hy
        exact le_trans (by exact_mod_cast this) (Nat.floor_le hy0)
  · intro p h1 hp
    have h20 := poisson_cdf hl 20
    push_cast at h20
    rw [h20] at hp
    have hlo : ∀ m ≤ 21, ∑ j ∈ Finset.range m, pmass l j < p :=
      fun m hm => lt_of_le_of_lt (hmono m 21 hm) hp
    have hloop := Poisson.loop_panic hlo 21 0 fuel (by omega) (by omega)
    rw [Finset.sum_range_zero] at hloop
    have hp0 : 0 < p := by simpa using hlo 0 (by norm_num)
    rw [hstart p hp0.le h1, hloop]
  · obtain ⟨f, rfl⟩ : ∃ f, fuel = f + 1 := ⟨fuel - 1, by omega⟩
    rw [hstart 0 le_rfl (by linarith)]
    unfold Poisson.invLoop
    rw [if_neg (lt_irrefl _)]
    simp

example := C66_quantile 3 ⟨3⟩ (by simp [Poisson.new]) 25 (by norm_num)

/-- The characteristic and the moment generating function, mean, variance, skewness and excess
kurtosis are those of the law.  `entropy` always panics. -/
theorem C66_moments (l : ℝ) (d : Poisson) (h : Poisson.new l = some d) :
    (∀ t, d.cf t = Spec.cf (Spec.poissonLaw l) t) ∧
    (∀ t, d.mgf t = Spec.mgf (Spec.poissonLaw l) t) ∧
    d.mean = Spec.mean (Spec.poissonLaw l) ∧ d.variance = Spec.variance (Spec.poissonLaw l) ∧
    d.skewness = Spec.skewness (Spec.poissonLaw l) ∧
    d.kurtosis = Spec.excessKurtosis (Spec.poissonLaw l) ∧
    d.entropy = none := by
  obtain ⟨hl, rfl⟩ := Poisson.new_some h
  obtain ⟨e1, e2, e3, e4⟩ := poisson_moments hl
  refine ⟨fun t => ?_, fun t => (poisson_mgf hl.le t).symm, e1.symm, e2.symm, e3.symm, e4.symm, rfl⟩
  rw [cf_eq_charFun, Spec.poissonLaw, charFun_map_cast_poissonMeasure]
  unfold Poisson.cf
  rw [Real.coe_toNNReal l hl.le, mul_comm Complex.I]

example := C66_moments 3 ⟨3⟩ (by simp [Poisson.new])

/-- `mode` is an integer with the largest mass. -/
theorem C66_mode (l : ℝ) (d : Poisson) (h : Poisson.new l = some d) :
    ∃ n : ℕ, d.mode = n ∧
      ∀ x, (Spec.poissonLaw l).real {x} ≤ (Spec.poissonLaw l).real {(n:ℝ)} := by
  have hoff := (C66_pmf_off_support l d h).2.2.2
  obtain ⟨hl, rfl⟩ := Poisson.new_some h
  refine ⟨⌊l⌋₊, ?_, ?_⟩
  · unfold Poisson.mode
    simp only
    rw [← Int.natCast_floor_eq_floor hl.le]; simp
  · have step : ∀ m : ℕ, pmass l (m + 1) = pmass l m * (l / (m + 1)) := by
      intro m
      unfold pmass
      rw [Nat.factorial_succ]; push_cast
      field_simp
      ring
    have up : ∀ m : ℕ, m + 1 ≤ ⌊l⌋₊ → pmass l m ≤ pmass l (m + 1) := by
      intro m hm
      rw [step]
      have : ((m + 1 : ℕ) : ℝ) ≤ l := (Nat.le_floor_iff hl.le).1 hm
      push_cast at this
      refine le_mul_of_one_le_right (pmass_pos hl m).le ?_
      rw [le_div_iff₀ (by positivity)]; linarith
    have down : ∀ m : ℕ, ⌊l⌋₊ ≤ m → pmass l (m + 1) ≤ pmass l m := by
      intro m hm
      rw [step]
      have : l < m + 1 := by
        have := (Nat.floor_lt (n := m + 1) hl.le).1 (by omega)
        exact_mod_cast this
      refine mul_le_of_le_one_right (pmass_pos hl m).le ?_
      rw [div_le_one (by positivity)]; linarith
    have all : ∀ m : ℕ, pmass l m ≤ pmass l ⌊l⌋₊ := by
      intro m
      rcases le_total m ⌊l⌋₊ with hm | hm
      · induction hm using Nat.decreasingInduction with
        | self => exact le_rfl
        | of_succ k hk ih => exact (up k hk).trans ih
      · induction m, hm using Nat.le_induction with
        | base => exact le_rfl
        | succ k hk ih => exact (down k hk).trans ih
    intro x
    rw [poisson_mass hl]
    by_cases hx : ∃ n : ℕ, x = n
    · obtain ⟨n, rfl⟩ := hx
      rw [poisson_mass hl]; exact all n
    · push Not at hx
      rw [hoff x hx]; exact (pmass_pos hl _).le

example := C66_mode (7 / 2) ⟨7 / 2⟩ (by simp [Poisson.new])

/-- Defect: for rates up to `1/20` `median` is negative, and not a median; zero is. -/
theorem C66_median_wrong (l : ℝ) (d : Poisson) (h : Poisson.new l = some d) (hs : l ≤ 1 / 20) :
    d.median < 0 ∧ ¬ Spec.IsMedian (Spec.poissonLaw l) d.median ∧
    Spec.IsMedian (Spec.poissonLaw l) 0 := by
  obtain ⟨hl, rfl⟩ := Poisson.new_some h
  have hneg : (⟨l⟩ : Poisson).median < 0 := by
    unfold Poisson.median
    have : (0.02:ℝ) / l ≥ 0.4 := by
      rw [ge_iff_le, le_div_iff₀ hl]; norm_num; linarith
    have hlt : l + 1 / 3 - 0.02 / l < 0 := by norm_num at this ⊢; linarith
    have := Int.floor_lt.2 (show l + 1 / 3 - 0.02 / l < ((0:ℤ):ℝ) by push_cast; exact hlt)
    exact_mod_cast this
  refine ⟨hneg, ?_, ?_, ?_⟩
  · rintro ⟨h1, _⟩
    have := poisson_cdf_neg (l := l) hneg
    unfold Spec.cdf at this
    rw [this] at h1; norm_num at h1
  · have := poisson_cdf hl 0
    unfold Spec.cdf at this
    simp only [Nat.cast_zero, zero_add, Finset.sum_range_one] at this
    rw [this]
    unfold pmass
    have := add_one_le_exp (-l)
    simp only [pow_zero, Nat.factorial_zero, Nat.cast_one]
    linarith
  · have hz : (Spec.poissonLaw l).real (Set.Ici 0)ᶜ = 0 := by
      unfold Spec.poissonLaw
      have hm : MeasurableEmbedding (Nat.cast : ℕ → ℝ) := MeasurableEmbedding.natCast
      rw [map_measureReal_apply hm.measurable measurableSet_Ici.compl]
      have : (Nat.cast : ℕ → ℝ) ⁻¹' (Set.Ici 0)ᶜ = ∅ := by ext m; simp
      rw [this]; simp
    have := probReal_compl_eq_one_sub (μ := Spec.poissonLaw l) (s := Set.Ici 0) measurableSet_Ici
    linarith

/-- A concrete instance: rate 1; the mass at `2`, and the distribution function at `0`, where the
truth is `exp (-1) < 1/2` and the answer negative. -/
example : ∃ d, Poisson.new 1 = some d ∧ d.mean = 1 ∧ d.pmf 21 = none ∧
    d.pmf 2 = some (exp (-1) / 2) ∧ ∃ c, d.cdf 0 = some c ∧ c < 0 := by
  have hn : Poisson.new 1 = some ⟨1⟩ := by simp [Poisson.new]
  refine ⟨⟨1⟩, hn, rfl, Poisson.pmf_of_ge le_rfl, ?_, ?_⟩
  · have := Poisson.pmf_nat (l := 1) (n := 2) (by norm_num)
    push_cast at this
    rw [this]; norm_num [pmass]
  · obtain ⟨c, h1, _, _, h4⟩ := (C66_cdf_wrong 1 _ hn).1 0
    refine ⟨c, by simpa using h1, h4.2 ?_⟩
    rw [poisson_cdf one_pos]
    simp only [zero_add, Finset.sum_range_one, pmass, pow_zero, Nat.factorial_zero, Nat.cast_one]
    have : (2:ℝ) < exp 1 := by have := add_one_lt_exp (x := 1) one_ne_zero; linarith
    rw [exp_neg]
    have h2 : (exp 1)⁻¹ < 2⁻¹ := by
      apply inv_strictAnti₀ <;> linarith
    linarith

end Verif.Distributions
