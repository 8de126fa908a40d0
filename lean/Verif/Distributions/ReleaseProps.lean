import Verif.Distributions.Release
import Verif.Distributions.PoissonProps
import Verif.Distributions.TrialsProps

/-!
# C107: discrete distributions in a build without overflow checks

The laws are those of C66 and C68.
-/

namespace Verif.Distributions

open MeasureTheory ProbabilityTheory Real

theorem wrapProduct_eq (bits m : ℕ) (hb : 1 ≤ bits) :
    wrapProduct bits m = m.factorial % 2 ^ bits := by
  induction m with
  | zero => 
    have : 1 < 2 ^ bits := Nat.one_lt_two_pow (by omega)
    simp [wrapProduct, Nat.mod_eq_of_lt this]
  | succ m ih =>
    rw [wrapProduct, ih, Nat.factorial_succ, Nat.mod_mul_mod, mul_comm]

theorem wrap64_small {m : ℕ} (h : m ≤ 20) : wrapProduct 64 m = m.factorial := by
  rw [wrapProduct_eq _ _ (by norm_num), Nat.mod_eq_of_lt]
  calc m.factorial ≤ (20).factorial := Nat.factorial_le h
    _ < 2 ^ 64 := by decide +kernel

theorem wrap64_mid {m : ℕ} (h : m ≤ 65) : wrapProduct 64 m ≠ 0 := by
  rw [wrapProduct_eq _ _ (by norm_num)]
  have : ∀ m ∈ Finset.range 66, m.factorial % 2 ^ 64 ≠ 0 := by decide +kernel
  exact this m (by simp; omega)

theorem wrap64_large {m : ℕ} (h : 66 ≤ m) : wrapProduct 64 m = 0 := by
  rw [wrapProduct_eq _ _ (by norm_num)]
  have h1 : 2 ^ 64 ∣ (66).factorial := by decide +kernel
  exact Nat.mod_eq_zero_of_dvd (h1.trans (Nat.factorial_dvd_factorial h))

theorem wrap64_lt {m : ℕ} (h : 21 ≤ m) : wrapProduct 64 m < m.factorial := by
  rw [wrapProduct_eq _ _ (by norm_num)]
  calc m.factorial % 2 ^ 64 < 2 ^ 64 := Nat.mod_lt _ (by norm_num)
    _ ≤ (21).factorial := by decide +kernel
    _ ≤ _ := Nat.factorial_le h

theorem wrap64_le (m : ℕ) : wrapProduct 64 m ≤ m.factorial := by
  rw [wrapProduct_eq _ _ (by norm_num)]; exact Nat.mod_le _ _

theorem asU64_nat {n : ℕ} (h : n < 2 ^ 64) : asU64 (n:ℝ) = n := by
  unfold asU64; rw [Nat.floor_natCast]; omega

theorem asI32_nat {n : ℕ} (h : n < 2 ^ 31) : asI32 (n:ℝ) = n := by
  unfold asI32; rw [if_pos (by positivity), Int.floor_natCast]; omega

namespace Poisson

theorem release_nat {l : ℝ} {n : ℕ} (h : n ≤ 65) : (⟨l⟩ : Poisson).pmfRelease n =
    ((l ^ n * exp (-l) / wrapProduct 64 n : ℝ) : WithTop ℝ) := by
  unfold pmfRelease
  rw [asU64_nat (by omega), asI32_nat (by omega), if_neg (wrap64_mid h)]
  simp

theorem release_top {d : Poisson} {x : ℝ} (h : 66 ≤ x) : d.pmfRelease x = ⊤ := by
  unfold pmfRelease
  have : 66 ≤ ⌊x⌋₊ := Nat.le_floor (by exact_mod_cast h)
  rw [if_pos (wrap64_large (by unfold asU64; omega))]

theorem release_ge {l : ℝ} (hl : 0 < l) (n : ℕ) :
    ((pmass l n : ℝ) : WithTop ℝ) ≤ (⟨l⟩ : Poisson).pmfRelease n := by
  by_cases h : n ≤ 65
  · rw [release_nat h, WithTop.coe_le_coe]
    have h1 : (0:ℝ) < wrapProduct 64 n := by exact_mod_cast Nat.pos_of_ne_zero (wrap64_mid h)
    have h2 : (wrapProduct 64 n : ℝ) ≤ n.factorial := by exact_mod_cast wrap64_le n
    unfold pmass
    calc _ = l ^ n * exp (-l) / n.factorial := by ring
      _ ≤ _ := by gcongr
  · rw [release_top (by exact_mod_cast (by omega : 66 ≤ n))]; exact le_top

theorem release_small {l : ℝ} {n : ℕ} (h : n ≤ 20) :
    (⟨l⟩ : Poisson).pmfRelease n = ((pmass l n : ℝ) : WithTop ℝ) := by
  rw [release_nat (by omega), wrap64_small h]
  unfold pmass
  congr 1
  ring

/-- The masses of the release build below `k`, summed. -/
noncomputable def relSum (l : ℝ) (k : ℕ) : WithTop ℝ :=
  ∑ j ∈ Finset.range k, (⟨l⟩ : Poisson).pmfRelease j

theorem relSum_ge {l : ℝ} (hl : 0 < l) (k : ℕ) :
    ((∑ j ∈ Finset.range k, pmass l j : ℝ) : WithTop ℝ) ≤ relSum l k := by
  unfold relSum
  rw [WithTop.coe_sum]
  exact Finset.sum_le_sum fun j _ => release_ge hl j

theorem relSum_small {l : ℝ} {k : ℕ} (h : k ≤ 21) :
    relSum l k = ((∑ j ∈ Finset.range k, pmass l j : ℝ) : WithTop ℝ) := by
  unfold relSum
  rw [WithTop.coe_sum]
  refine Finset.sum_congr rfl fun j hj => release_small ?_
  rw [Finset.mem_range] at hj; omega

theorem relSum_top {l : ℝ} : relSum l 67 = ⊤ := by
  unfold relSum
  rw [Finset.sum_range_succ, release_top (by norm_num)]
  simp

theorem release_loop {l p : ℝ} {n : ℕ} (hhi : (p : WithTop ℝ) ≤ relSum l (n + 1))
    (hlo : ∀ m ≤ n, relSum l m < (p : WithTop ℝ)) :
    ∀ (i k fuel : ℕ), k + i = n + 1 → i + 1 ≤ fuel →
      invLoopRelease ⟨l⟩ p fuel (relSum l k) k = .value n := by
  intro i
  induction i with
  | zero =>
    intro k fuel hk hf
    obtain ⟨f, rfl⟩ : ∃ f, fuel = f + 1 := ⟨fuel - 1, by omega⟩
    have hk' : k = n + 1 := by omega
    subst hk'
    unfold invLoopRelease
    rw [if_neg (not_lt.2 hhi)]
    push_cast
    simp
  | succ i ih =>
    intro k fuel hk hf
    obtain ⟨f, rfl⟩ : ∃ f, fuel = f + 1 := ⟨fuel - 1, by omega⟩
    unfold invLoopRelease
    rw [if_pos (hlo k (by omega))]
    have : relSum l k + (⟨l⟩ : Poisson).pmfRelease k = relSum l (k + 1) := by
      unfold relSum; rw [Finset.sum_range_succ]
    rw [this]
    exact ih (k + 1) f (by omega) (by omega)

/-- What the release build's quantile is. -/
theorem release_quantile {l p : ℝ} (hp : 0 < p) (hp1 : p ≤ 1 - 2⁻¹ ^ 52) {fuel : ℕ}
    (hf : 68 ≤ fuel) :
    ∃ q : ℕ, q ≤ 66 ∧ (⟨l⟩ : Poisson).invCdfRelease p fuel = .value q ∧
      (p : WithTop ℝ) ≤ relSum l (q + 1) ∧ ∀ m ≤ q, relSum l m < (p : WithTop ℝ) := by
  classical
  have hex : ∃ k, (p : WithTop ℝ) ≤ relSum l k := ⟨67, by rw [relSum_top]; exact le_top⟩
  obtain ⟨q, hq⟩ : ∃ q, Nat.find hex = q + 1 := by
    refine ⟨Nat.find hex - 1, ?_⟩
    have : Nat.find hex ≠ 0 := by
      intro h0
      have h1 := Nat.find_spec hex
      rw [h0] at h1
      unfold relSum at h1
      rw [Finset.range_zero, Finset.sum_empty, ← WithTop.coe_zero, WithTop.coe_le_coe] at h1
      linarith
    omega
  have hhi := Nat.find_spec hex
  rw [hq] at hhi
  have hlo : ∀ m ≤ q, relSum l m < (p : WithTop ℝ) := fun m hm =>
    not_le.1 (Nat.find_min hex (by omega))
  have hle : q ≤ 66 := by
    have := Nat.find_min' hex (m := 67) (by rw [relSum_top]; exact le_top)
    omega
  refine ⟨q, hle, ?_, hhi, hlo⟩
  have heps : (0:ℝ) < 2⁻¹ ^ 52 := by positivity
  unfold invCdfRelease
  rw [if_neg (by push Not; exact ⟨hp.le, by linarith⟩), if_neg]
  · have := release_loop hhi hlo (q + 1) 0 fuel (by omega) (by omega)
    unfold relSum at this
    simpa using this
  · rw [abs_of_nonpos (by linarith), not_lt]; linarith

end Poisson

/-- C107 (defect): in a release build `Poisson::pmf` is the mass of the law at `0..20` only.  At
`21..65` it exceeds it, the factorial having wrapped, and from `66` on it is infinite. -/
theorem C107_poisson_mass (l : ℝ) (d : Poisson) (h : Poisson.new l = some d) :
    (∀ n : ℕ, n ≤ 20 → d.pmfRelease n = (((Spec.poissonLaw l).real {(n:ℝ)} : ℝ) : WithTop ℝ)) ∧
    (∀ n : ℕ, 21 ≤ n → n ≤ 65 → ∃ v : ℝ, d.pmfRelease n = (v : WithTop ℝ) ∧
      (Spec.poissonLaw l).real {(n:ℝ)} < v ∧
      v = (Spec.poissonLaw l).real {(n:ℝ)} * (n.factorial / (n.factorial % 2 ^ 64 : ℕ))) ∧
    (∀ x : ℝ, 66 ≤ x → d.pmfRelease x = ⊤) := by
  obtain ⟨hl, rfl⟩ := Poisson.new_some h
  refine ⟨fun n hn => ?_, fun n h1 h2 => ?_, fun x hx => Poisson.release_top hx⟩
  · rw [poisson_mass hl, Poisson.release_small hn]
  · have h3 : (0:ℝ) < wrapProduct 64 n := by exact_mod_cast Nat.pos_of_ne_zero (wrap64_mid h2)
    have h4 : (wrapProduct 64 n : ℝ) < n.factorial := by exact_mod_cast wrap64_lt h1
    refine ⟨_, Poisson.release_nat h2, ?_, ?_⟩
    · rw [poisson_mass hl]
      unfold pmass
      calc _ = l ^ n * exp (-l) / n.factorial := by ring
        _ < _ := by
          apply div_lt_div_of_pos_left (by positivity) h3 h4
    · rw [poisson_mass hl, ← wrapProduct_eq _ _ (by norm_num)]
      unfold pmass
      have : (n.factorial : ℝ) ≠ 0 := by positivity
      field_simp

example := (C107_poisson_mass 3 ⟨3⟩ (by simp [Poisson.new])).2.1 30 (by norm_num) (by norm_num)
example : (30).factorial % 2 ^ 64 = 9682165104862298112 := by decide +kernel

/-- C107: in a release build `Poisson::inv_cdf` ends at every level, with an integer not above `66`.
It is the quantile at the levels that the masses at `0..20` reach, and never above it. -/
theorem C107_poisson_quantile (l : ℝ) (d : Poisson) (h : Poisson.new l = some d) (p : ℝ) (hp : 0 < p)
    (hp1 : p ≤ 1 - 2⁻¹ ^ 52) (fuel : ℕ) (hf : 68 ≤ fuel) :
    ∃ q : ℕ, d.invCdfRelease p fuel = .value q ∧ q ≤ 66 ∧
      (p ≤ Spec.cdf (Spec.poissonLaw l) 20 → Spec.IsQuantile (Spec.poissonLaw l) p q) ∧
      ∀ y, p ≤ Spec.cdf (Spec.poissonLaw l) y → (q:ℝ) ≤ y := by
  obtain ⟨hl, rfl⟩ := Poisson.new_some h
  obtain ⟨q, hq, he, hhi, hlo⟩ := Poisson.release_quantile hp hp1 hf
  have key : ∀ y, p ≤ Spec.cdf (Spec.poissonLaw l) y → (q:ℝ) ≤ y := by
    intro y hy
    have hy0 : 0 ≤ y := by
      by_contra hn
      rw [poisson_cdf_neg (not_le.1 hn)] at hy
      linarith
    rw [poisson_cdf_floor hy0, poisson_cdf hl] at hy
    have h1 : (p : WithTop ℝ) ≤ Poisson.relSum l (⌊y⌋₊ + 1) :=
      le_trans (WithTop.coe_le_coe.2 hy) (Poisson.relSum_ge hl _)
    have h2 : q ≤ ⌊y⌋₊ := by
      by_contra hn
      exact absurd h1 (not_le.2 (hlo _ (by omega)))
    exact le_trans (by exact_mod_cast h2) (Nat.floor_le hy0)
  refine ⟨q, he, hq, fun h20 => ⟨?_, key⟩, key⟩
  have hq20 : q ≤ 20 := by exact_mod_cast key 20 h20
  rw [poisson_cdf hl]
  rw [Poisson.relSum_small (by omega), WithTop.coe_le_coe] at hhi
  exact hhi

example := C107_poisson_quantile 3 ⟨3⟩ (by simp [Poisson.new]) (1 / 2) (by norm_num) (by norm_num) 68
  le_rfl

/-- The masses grow up to the rate. -/
theorem pmass_shift {l : ℝ} (hl : 0 < l) (j : ℕ) : ∀ m : ℕ, ((m + j : ℕ) : ℝ) ≤ l →
    pmass l j ≤ pmass l (m + j) := by
  intro m
  induction m with
  | zero => intro _; rw [Nat.zero_add]
  | succ m ih =>
    intro h
    push_cast at h ih
    refine (ih (by linarith)).trans ?_
    have hp := pmass_pos hl (m + j)
    have e : pmass l (m + 1 + j) = pmass l (m + j) * (l / (m + j + 1)) := by
      rw [show m + 1 + j = m + j + 1 by omega]
      unfold pmass
      rw [Nat.factorial_succ, pow_succ]
      push_cast
      have h1 : ((m + j).factorial : ℝ) ≠ 0 := by positivity
      have h2 : ((m:ℝ) + j + 1) ≠ 0 := by positivity
      field_simp
    rw [e]
    refine le_mul_of_one_le_right hp.le ?_
    rw [one_le_div (by positivity)]
    linarith

/-- Half of the law, at least, is above `66` when the rate is `133` or more. -/
theorem poisson_half {l : ℝ} (hl : 133 ≤ l) : Spec.cdf (Spec.poissonLaw l) 66 < 1 / 2 := by
  have hl0 : 0 < l := by linarith
  have e := poisson_cdf hl0 66
  rw [Nat.cast_ofNat] at e
  rw [e]
  have h1 : ∑ j ∈ Finset.range (66 + 1), pmass l j ≤
      ∑ j ∈ Finset.range (66 + 1), pmass l (66 + 1 + j) := by
    refine Finset.sum_le_sum fun j hj => ?_
    rw [Finset.mem_range] at hj
    refine pmass_shift hl0 j _ (le_trans ?_ hl)
    exact_mod_cast (by omega : 66 + 1 + j ≤ 133)
  have h2 : ∑ j ∈ Finset.range (66 + 1 + (66 + 1) + 1), pmass l j ≤ 1 :=
    sum_le_hasSum _ (fun j _ => (pmass_pos hl0 j).le) hasSum_pmass
  have h3 := pmass_pos hl0 (66 + 1 + (66 + 1))
  rw [Finset.sum_range_succ, Finset.sum_range_add (fun j => pmass l j) (66 + 1) (66 + 1)] at h2
  generalize ∑ j ∈ Finset.range (66 + 1), pmass l j = A at *
  generalize ∑ j ∈ Finset.range (66 + 1), pmass l (66 + 1 + j) = B at *
  generalize pmass l (66 + 1 + (66 + 1)) = C at *
  linarith

/-- C107 (defect): when the rate is `133` or more, every quantile from the median up is wrong in a
release build: the answer is at most `66`, and the law does not reach the level there. -/
theorem C107_poisson_quantile_wrong (l : ℝ) (d : Poisson) (h : Poisson.new l = some d) (hl : 133 ≤ l)
    (p : ℝ) (hp : 1 / 2 ≤ p) (hp1 : p ≤ 1 - 2⁻¹ ^ 52) (fuel : ℕ) (hf : 68 ≤ fuel) :
    ∃ q : ℕ, d.invCdfRelease p fuel = .value q ∧ q ≤ 66 ∧
      Spec.cdf (Spec.poissonLaw l) q < p ∧ ¬ Spec.IsQuantile (Spec.poissonLaw l) p q := by
  obtain ⟨q, h1, h2, -, -⟩ := C107_poisson_quantile l d h p (by linarith) hp1 fuel hf
  have hl0 : 0 < l := by linarith
  have : Spec.cdf (Spec.poissonLaw l) q < p := by
    refine lt_of_le_of_lt ?_ ((poisson_half hl).trans_le hp)
    have e1 := poisson_cdf hl0 q
    have e2 := poisson_cdf hl0 66
    rw [Nat.cast_ofNat] at e2
    rw [e1, e2]
    exact Finset.sum_le_sum_of_subset_of_nonneg (Finset.range_mono (by omega))
      fun j _ _ => (pmass_pos hl0 j).le
  exact ⟨q, h1, h2, this, fun hq => absurd hq.1 (not_le.2 this)⟩

example := C107_poisson_quantile_wrong 200 ⟨200⟩ (by simp [Poisson.new]) (by norm_num) (1 / 2)
  le_rfl (by norm_num) 68 le_rfl

end Verif.Distributions
