import Verif.Distributions.SamplingLemmas

/-!
# C83: random samples

The random numbers of the external crate are assumed ideal (`Spec.IdealSource`: independent, with the
documented laws); `cap` is the capacity a vector gets when `n` places are asked for.  A sample is
compared with the law its distribution object describes (C57, C62-C68) through its average, its mean
squared deviation and its frequencies (`Spec.Faithful`, `Spec.Approaches`).
-/

namespace Verif.Distributions

open Real MeasureTheory ProbabilityTheory

theorem fill_size {draw : Request → ℕ → ℝ} {cap : ℕ → ℕ} {n : ℕ} {r : Request} {post : ℝ → ℝ} :
    (fill draw cap n r post = none ↔ n = 0 ∨ ¬ r.ok) ∧
    ∀ l, fill draw cap n r post = some l → l.length = cap n := by
  unfold fill
  constructor
  · split_ifs with h
    · simp only [reduceCtorEq, false_iff, not_or, not_not]; exact ⟨by omega, h.2⟩
    · simp only [true_iff]
      by_cases h0 : n = 0
      · exact Or.inl h0
      · exact Or.inr fun hr => h ⟨by omega, hr⟩
  · intro l hl
    split_ifs at hl
    simp only [Option.some.injEq] at hl
    rw [← hl]; simp

/-- For an object accepted by its constructor `sample(n)` fails exactly for `n = 0` (and, for a
uniform distribution, when the two ends coincide).  Otherwise it returns as many numbers as the
capacity of the vector: at least `n`, but exactly `n` only if the allocation was not rounded up. -/
theorem C83_size (draw : Request → ℕ → ℝ) (cap : ℕ → ℕ) (n : ℕ) :
    (∀ m v g, Gaussian.new m v = some g → (g.sampleN draw cap n = none ↔ n = 0) ∧
      ∀ l, g.sampleN draw cap n = some l → l.length = cap n) ∧
    (∀ a d, Exponential.new a = some d → (d.sampleN draw cap n = none ↔ n = 0) ∧
      ∀ l, d.sampleN draw cap n = some l → l.length = cap n) ∧
    (∀ p d, Bernoulli.new p = some d → (d.sampleN draw cap n = none ↔ n = 0) ∧
      ∀ l, d.sampleN draw cap n = some l → l.length = cap n) ∧
    (∀ a d, Poisson.new a = some d → (d.sampleN draw cap n = none ↔ n = 0) ∧
      ∀ l, d.sampleN draw cap n = some l → l.length = cap n) ∧
    (∀ a b d, GammaDist.new a b = some d → (d.sampleN draw cap n = none ↔ n = 0) ∧
      ∀ l, d.sampleN draw cap n = some l → l.length = cap n) ∧
    (∀ k d, ChiSquared.new k = some d → (d.sampleN draw cap n = none ↔ n = 0) ∧
      ∀ l, d.sampleN draw cap n = some l → l.length = cap n) ∧
    (∀ k p d, Binomial.new k p = some d → (d.sampleN draw cap n = none ↔ n = 0) ∧
      ∀ l, d.sampleN draw cap n = some l → l.length = cap n) ∧
    (∀ a b c d, Uniform.new a b c = some d → (d.sampleN draw cap n = none ↔ n = 0 ∨ d.a = d.b) ∧
      ∀ l, d.sampleN draw cap n = some l → l.length = cap n) := by
  refine ⟨?_, ?_, ?_, ?_, ?_, ?_, ?_, ?_⟩
  · intro m v g _
    obtain ⟨h1, h2⟩ := fill_size (draw := draw) (cap := cap) (n := n)
      (r := .normal g.mean (√g.variance)) (post := id)
    exact ⟨by rw [Gaussian.sampleN, h1]; simp [Request.ok], h2⟩
  · intro a d h
    obtain ⟨h0, rfl⟩ := Exponential.new_some h
    obtain ⟨h1, h2⟩ := fill_size (draw := draw) (cap := cap) (n := n) (r := .exp a) (post := id)
    exact ⟨by rw [Exponential.sampleN, h1]; simp [Request.ok, h0], h2⟩
  · intro p d h
    obtain ⟨h0, h0', rfl⟩ := Bernoulli.new_some h
    obtain ⟨h1, h2⟩ := fill_size (draw := draw) (cap := cap) (n := n) (r := .bernoulli p)
      (post := id)
    exact ⟨by rw [Bernoulli.sampleN, h1]; simp [Request.ok, h0, h0'], h2⟩
  · intro a d h
    obtain ⟨h0, rfl⟩ := Poisson.new_some h
    obtain ⟨h1, h2⟩ := fill_size (draw := draw) (cap := cap) (n := n) (r := .poisson a)
      (post := asUsize)
    exact ⟨by rw [Poisson.sampleN, h1]; simp [Request.ok, h0], h2⟩
  · intro a b d h
    obtain ⟨h0, h0', rfl⟩ := GammaDist.new_some h
    obtain ⟨h1, h2⟩ := fill_size (draw := draw) (cap := cap) (n := n) (r := .gamma a b⁻¹)
      (post := asUsize)
    exact ⟨by rw [GammaDist.sampleN, h1]; simp [Request.ok, h0, h0'], h2⟩
  · intro k d h
    obtain ⟨h0, rfl⟩ := ChiSquared.new_some h
    obtain ⟨h1, h2⟩ := fill_size (draw := draw) (cap := cap) (n := n) (r := .chiSquared k)
      (post := asUsize)
    exact ⟨by rw [ChiSquared.sampleN, h1]; simp [Request.ok]; omega, h2⟩
  · intro k p d h
    obtain ⟨h0, h0', rfl⟩ := Binomial.new_some h
    obtain ⟨h1, h2⟩ := fill_size (draw := draw) (cap := cap) (n := n) (r := .binomial n p)
      (post := id)
    exact ⟨by rw [Binomial.sampleN, h1]; simp [Request.ok, h0, h0'], h2⟩
  · intro a b c d h
    have hle : d.a ≤ d.b := by
      cases c with
      | continuous =>
        have hd := (C65_new a b).2.1 d h
        have : ¬ b < a := fun hlt => by
          rw [((C65_new a b).1 _).2 hlt] at h; simp at h
        subst hd; simpa using this
      | discrete =>
        obtain ⟨lo, hi, rfl, hh, _⟩ := (C65_new a b).2.2.1 d h
        simpa using hh
    have hok : (¬ (Request.uniform d.a d.b).ok) ↔ d.a = d.b := by
      simp only [Request.ok, not_lt]
      exact ⟨fun h => le_antisymm hle h, fun h => h.ge⟩
    unfold Uniform.sampleN
    cases d.cls with
    | discrete =>
      obtain ⟨h1, h2⟩ := fill_size (draw := draw) (cap := cap) (n := n) (r := .uniform d.a d.b)
        (post := asUsize)
      exact ⟨by rw [h1, hok], h2⟩
    | continuous =>
      obtain ⟨h1, h2⟩ := fill_size (draw := draw) (cap := cap) (n := n) (r := .uniform d.a d.b)
        (post := id)
      exact ⟨by rw [h1, hok], h2⟩

section

variable {Ω : Type*} [MeasurableSpace Ω] {P : Measure Ω} {X : Ω → Request → ℕ → ℝ}
  (hX : Spec.IdealSource P X) {cap : ℕ → ℕ} (hcap : ∀ n, n ≤ cap n)

include hX hcap

/-- Samples of a Gaussian reproduce its law, with `mean()`, `variance()` and `cdf` as limits. -/
theorem C83_gaussian (m v : ℝ) (g : Gaussian) (h : Gaussian.new m v = some g) :
    Spec.Faithful P (fun ω => g.sampleN (X ω) cap) g.mean g.variance (gaussianReal m v.toNNReal) ∧
    ∀ x, ∀ᵐ ω ∂P, Spec.Approaches (g.sampleN (X ω) cap) (Spec.frequency x) (g.cdf x) := by
  obtain ⟨hv, rfl⟩ := Gaussian.new_some h
  have hr : (Request.normal m (√v)).ok := trivial
  have e : Spec.requestLaw (.normal m (√v)) = gaussianReal m v.toNNReal := by
    simp [Spec.requestLaw, sq_sqrt hv.le]
  obtain ⟨_, _, h3, h4, _⟩ := Gaussian.C57_gaussian_moments m v _ h
  have i1 : MemLp id 2 (gaussianReal m v.toNNReal) := memLp_id_gaussianReal' 2 (by simp)
  have hvar : v = Spec.variance (gaussianReal m v.toNNReal) := by
    have h4' : v = Var[id; gaussianReal m v.toNNReal] := h4
    rw [variance_eq_integral (by fun_prop)] at h4'
    exact h4'
  have key : Spec.Faithful P (fun ω n => fill (X ω) cap n (.normal m (√v)) id) m v
      (Spec.requestLaw (.normal m (√v))) := by
    refine faithful_of_moments hX hr measurable_id (by simp) hcap ?_ ?_ ?_ ?_ <;> rw [e]
    · exact i1.integrable (by norm_num)
    · exact i1.integrable_sq
    · exact h3
    · exact hvar
  rw [e] at key
  refine ⟨key, fun x => ?_⟩
  have hc := (Gaussian.C57_gaussian_law m v _ h).2.1 x
  rw [hc, ProbabilityTheory.cdf_eq_real]
  exact key.2.2 x

/-- Samples of an exponential distribution reproduce its law, with `mean()`, `variance()` and (where
it does not panic) `cdf` as limits. -/
theorem C83_exponential (l : ℝ) (d : Exponential) (h : Exponential.new l = some d) :
    Spec.Faithful P (fun ω => d.sampleN (X ω) cap) d.mean d.variance (expMeasure l) ∧
    ∀ x c, d.cdf x = some c →
      ∀ᵐ ω ∂P, Spec.Approaches (d.sampleN (X ω) cap) (Spec.frequency x) c := by
  have hm := C62_moments l d h
  have hl := C62_law l d h
  obtain ⟨h0, rfl⟩ := Exponential.new_some h
  have key : Spec.Faithful P (fun ω n => fill (X ω) cap n (.exp l) id)
      (⟨l⟩ : Exponential).mean (⟨l⟩ : Exponential).variance (Spec.requestLaw (.exp l)) := by
    refine faithful_of_moments hX (r := .exp l) h0 measurable_id (by simp) hcap ?_ ?_ hm.2.2.2.1 hm.2.2.2.2.1
    · exact (by simpa using (gamma_raw one_pos h0 1).1 : Integrable (fun x => x) (gammaMeasure 1 l))
    · exact (gamma_raw one_pos h0 2).1
  refine ⟨key, fun x c hc => ?_⟩
  rcases le_or_gt 0 x with hx | hx
  · rw [hl.2.2.1 x hx] at hc
    rw [← Option.some.inj hc]
    exact key.2.2 x
  · rw [(hl.2.2.2.1 x hx).1] at hc
    simp at hc

/-- Samples of a Bernoulli distribution reproduce its law, with `mean()`, `variance()` and (outside
the gap where it is wrong, C67) `cdf` as limits. -/
theorem C83_bernoulli (p : ℝ) (d : Bernoulli) (h : Bernoulli.new p = some d) :
    Spec.Faithful P (fun ω => d.sampleN (X ω) cap) d.mean d.variance (Spec.bernoulliLaw p) ∧
    ∀ x, x ≤ -1 ∨ 0 ≤ x →
      ∀ᵐ ω ∂P, Spec.Approaches (d.sampleN (X ω) cap) (Spec.frequency x) (d.cdf x) := by
  have hm := C67_moments p d h
  have hl := C67_cdf p d h
  obtain ⟨h0, h1, rfl⟩ := Bernoulli.new_some h
  have key : Spec.Faithful P (fun ω n => fill (X ω) cap n (.bernoulli p) id)
      (⟨p⟩ : Bernoulli).mean (⟨p⟩ : Bernoulli).variance (Spec.requestLaw (.bernoulli p)) :=
    faithful_of_moments hX (r := .bernoulli p) ⟨h0, h1⟩ measurable_id (by simp) hcap (bern_integrable h0 h1 _)
      (bern_integrable h0 h1 _) hm.2.2.1 hm.2.2.2.1
  refine ⟨key, fun x hx => ?_⟩
  rw [hl.1 x hx]
  exact key.2.2 x

/-- Samples of a Poisson distribution reproduce its law, with `mean()` and `variance()` as limits.
(The proportion of numbers up to `k` does not approach `cdf(k)`: that function is wrong at every
natural number.) -/
theorem C83_poisson (l : ℝ) (d : Poisson) (h : Poisson.new l = some d) :
    Spec.Faithful P (fun ω => d.sampleN (X ω) cap) d.mean d.variance (Spec.poissonLaw l) ∧
    ∀ k : ℕ, ∃ c L, d.cdf k = some c ∧ c < L ∧
      ∀ᵐ ω ∂P, Spec.Approaches (d.sampleN (X ω) cap) (Spec.frequency k) L := by
  have hm := C66_moments l d h
  have hw := C66_cdf_wrong l d h
  obtain ⟨h0, rfl⟩ := Poisson.new_some h
  have d1 := hasSum_desc l 1
  have d2 := hasSum_desc l 2
  have c1 : ∀ n : ℕ, ((n.descFactorial 1 : ℕ) : ℝ) = n := fun n => by simp
  have c2 : ∀ n : ℕ, ((n.descFactorial 2 : ℕ) : ℝ) = (n - 1) * n := fun n => by
    rw [cast_desc, c1]; simp
  simp only [c1] at d1
  simp only [c2] at d2
  obtain ⟨i1, _⟩ := poisson_of_hasSum h0.le (f := fun x => x) (fun n => by positivity) d1
  obtain ⟨i2, _⟩ := poisson_of_hasSum h0.le (f := fun x => x ^ 2) (v := l ^ 2 + l ^ 1)
    (fun n => by positivity) (by
      refine (d2.add d1).congr_fun fun n => ?_
      ring)
  have hid : ∀ᵐ x ∂Spec.poissonLaw l, asUsize x = x := by
    unfold Spec.poissonLaw
    refine (ae_map_iff (p := fun x => asUsize x = x) (by fun_prop)
      (measurableSet_eq_fun asUsize_measurable measurable_id)).2 ?_
    exact Filter.Eventually.of_forall fun n => by simp [asUsize]
  have key : Spec.Faithful P (fun ω n => fill (X ω) cap n (.poisson l) asUsize)
      (⟨l⟩ : Poisson).mean (⟨l⟩ : Poisson).variance (Spec.requestLaw (.poisson l)) :=
    faithful_of_moments hX (r := .poisson l) h0 asUsize_measurable hid hcap i1 i2 hm.2.2.1 hm.2.2.2.1
  refine ⟨key, fun k => ?_⟩
  obtain ⟨c, e1, _, e2, _⟩ := hw.1 k
  exact ⟨c, _, e1, e2, key.2.2 k⟩

/-- Samples of a continuous uniform distribution reproduce its law, with `mean()`, `variance()` and
`cdf` as limits. -/
theorem C83_uniform (a b : ℝ) (hab : a < b) (d : Uniform)
    (h : Uniform.new a b .continuous = some d) :
    Spec.Faithful P (fun ω => d.sampleN (X ω) cap) d.mean d.variance (Spec.contLaw a b) ∧
    ∀ x c, d.cdf x = some c →
      ∀ᵐ ω ∂P, Spec.Approaches (d.sampleN (X ω) cap) (Spec.frequency x) c := by
  have hm := C65_continuous_moments a b hab d h
  have hl := C65_continuous_law a b hab d h
  obtain rfl := (C65_new a b).2.1 d h
  have key : Spec.Faithful P (fun ω n => fill (X ω) cap n (.uniform a b) id)
      (⟨a, b, .continuous⟩ : Uniform).mean (⟨a, b, .continuous⟩ : Uniform).variance
      (Spec.requestLaw (.uniform a b)) :=
    faithful_of_moments hX (r := .uniform a b) hab measurable_id (by simp) hcap
      (cont_integrable hab continuous_id) (cont_integrable hab (by fun_prop))
      hm.2.2.2.2.1 hm.2.2.2.2.2.1
  refine ⟨key, fun x c hc => ?_⟩
  rw [(hl.2.1 x).2] at hc
  rw [← Option.some.inj hc]
  exact key.2.2 x

theorem truncated_gamma {a b : ℝ} {r : Request} (hr : r.ok) (ha : 0 < a) (hb : 0 < b)
    (e : Spec.requestLaw r = gammaMeasure a b) :
    (∀ᵐ ω ∂P, Spec.Approaches (fun n => fill (X ω) cap n r asUsize) Spec.average
      (∫ x, asUsize x ∂gammaMeasure a b)) ∧
    ∀ x, 0 ≤ x → ∀ᵐ ω ∂P, Spec.Approaches (fun n => fill (X ω) cap n r asUsize) (Spec.frequency x)
      (Spec.cdf (gammaMeasure a b) (⌊x⌋₊ + 1)) := by
  refine ⟨?_, fun x hx => ?_⟩
  · have := average_approaches (P := P) hX hr asUsize_measurable
      (by rw [e]; exact asUsize_integrable_gamma ha hb) hcap
    rwa [e] at this
  · have := frequency_approaches (P := P) hX hr asUsize_measurable x hcap
    rwa [e, asUsize_preimage x hx, real_Iio_eq_cdf] at this

/-- Defect: samples of a gamma distribution are biased.  Their average approaches a number strictly
below `mean()`, and the proportion of numbers up to `x` approaches `cdf` at the next integer, which
is strictly above `cdf(x)`. -/
theorem C83_gamma_wrong (a b : ℝ) (d : GammaDist) (h : GammaDist.new a b = some d) :
    (∃ L, L < d.mean ∧ ∀ᵐ ω ∂P, Spec.Approaches (d.sampleN (X ω) cap) Spec.average L) ∧
    ∀ x c, d.cdf x = some c → ∃ L, d.cdf (⌊x⌋₊ + 1) = some L ∧ c < L ∧
      ∀ᵐ ω ∂P, Spec.Approaches (d.sampleN (X ω) cap) (Spec.frequency x) L := by
  have ht := (C63_sample_truncated a b d h).2.2
  have hl := C63_law a b d h
  obtain ⟨ha, hb, rfl⟩ := GammaDist.new_some h
  obtain ⟨k1, k2⟩ := truncated_gamma (P := P) hX hcap (a := a) (b := b) (r := .gamma a b⁻¹)
    ⟨ha, inv_pos.2 hb⟩ ha hb (by simp [Spec.requestLaw])
  refine ⟨⟨_, ht, k1⟩, fun x c hc => ?_⟩
  have hx : 0 < x := by
    by_contra hx
    rw [(hl.2.2.2.1 x (not_lt.1 hx)).1] at hc
    simp at hc
  have hlt := Nat.lt_floor_add_one x
  have hL := hl.2.2.1 (⌊x⌋₊ + 1) (by positivity)
  exact ⟨_, hL, (hl.2.2.2.2 _ _ _ _ hlt hc hL).2.1, k2 x hx.le⟩

/-- Defect: samples of a chi-squared distribution are biased in the same way. -/
theorem C83_chi_squared_wrong (z : Bool) (k : ℕ) (d : ChiSquared) (h : ChiSquared.new k = some d) :
    (∃ L, L < d.mean ∧ ∀ᵐ ω ∂P, Spec.Approaches (d.sampleN (X ω) cap) Spec.average L) ∧
    ∀ x c, 0 < x → d.cdf z x = some c → ∃ L, d.cdf z (⌊x⌋₊ + 1) = some L ∧ c < L ∧
      ∀ᵐ ω ∂P, Spec.Approaches (d.sampleN (X ω) cap) (Spec.frequency x) L := by
  have ht := (C64_sample_truncated k d h).2.2
  have hl := C64_law z k d h
  obtain ⟨hk, rfl⟩ := ChiSquared.new_some h
  have hkR : (0:ℝ) < k := by exact_mod_cast hk
  obtain ⟨k1, k2⟩ := truncated_gamma (P := P) hX hcap (a := k / 2) (b := 1 / 2)
    (r := .chiSquared k) hkR (by positivity) (by norm_num) rfl
  rw [← chiLaw_eq hk] at k1 k2
  refine ⟨⟨_, ht, k1⟩, fun x c hx hc => ?_⟩
  have hlt := Nat.lt_floor_add_one x
  have hL := (hl.2.1 (⌊x⌋₊ + 1) (by positivity)).2
  refine ⟨_, hL, ?_, k2 x hx.le⟩
  rw [(hl.2.1 x hx).2] at hc
  rw [← Option.some.inj hc]
  exact hl.2.2.2.2 _ _ hx.le hlt

/-- Defect: samples of a discrete uniform distribution on non-negative integers come out too small by
one half on average - the upper end is never drawn, so that the proportion of numbers below it
approaches one, not `cdf`. -/
theorem C83_discrete_uniform_wrong (lo hi : ℕ) (hlt : lo < hi) :
    ∃ d, Uniform.new lo hi .discrete = some d ∧
      (∀ᵐ ω ∂P, Spec.Approaches (d.sampleN (X ω) cap) Spec.average (d.mean - 1 / 2)) ∧
      (∀ k : ℕ, lo ≤ k → k < hi → ∃ c L, d.cdf k = some c ∧ c < L ∧
        L = ((k:ℝ) - lo + 1) / (hi - lo) ∧
        ∀ᵐ ω ∂P, Spec.Approaches (d.sampleN (X ω) cap) (Spec.frequency k) L) := by
  have hltR : (lo:ℝ) < hi := by exact_mod_cast hlt
  have hn := (C65_new lo hi).2.2.2 lo hi (by exact_mod_cast hlt.le)
  simp only [Int.cast_natCast] at hn
  refine ⟨_, hn, ?_, ?_⟩
  · have key := average_approaches (P := P) hX (r := .uniform lo hi) hltR asUsize_measurable ?_ hcap
    · have e : ∫ x, asUsize x ∂Spec.requestLaw (.uniform lo hi) =
          (⟨(lo:ℝ), hi, .discrete⟩ : Uniform).mean - 1 / 2 := by
        simp only [Spec.requestLaw]
        rw [cont_integral hltR]
        obtain ⟨n, rfl⟩ := Nat.exists_eq_add_of_lt hlt
        rw [show lo + n + 1 = lo + (n + 1) by ring, asUsize_integral_nat, sum_arith]
        simp only [Uniform.mean, smul_eq_mul]
        push_cast
        have : (lo:ℝ) + (n + 1) - lo ≠ 0 := by
          have : (0:ℝ) ≤ n := Nat.cast_nonneg n
          intro h; linarith
        field_simp
        ring
      rw [e] at key
      exact key
    · simp only [Spec.requestLaw, Spec.contLaw]
      refine Integrable.smul_measure ?_ (by simp [hlt])
      exact (asUsize_mono.monotoneOn _).integrableOn_isCompact isCompact_Icc
  · intro k h1 h2
    have h1R : (lo:ℝ) ≤ k := by exact_mod_cast h1
    have h2R : (k:ℝ) + 1 ≤ hi := by exact_mod_cast h2
    have key := frequency_approaches (P := P) hX (r := .uniform lo hi) hltR asUsize_measurable
      (k:ℝ) hcap
    rw [asUsize_preimage _ (Nat.cast_nonneg k)] at key
    simp only [Spec.requestLaw, Nat.floor_natCast] at key
    rw [real_Iio_eq_cdf, cont_cdf hltR, if_neg (by linarith), if_pos h2R] at key
    refine ⟨((k:ℝ) - lo + 1) / (hi - lo + 1), ((k:ℝ) - lo + 1) / (hi - lo), ?_, ?_, rfl, ?_⟩
    · simp only [Uniform.cdf, fdiv]
      rw [if_neg (by linarith), if_pos ⟨h1R, by linarith⟩, if_neg (by linarith)]
      simp
    · exact div_lt_div_of_pos_left (by linarith) (by linarith) (by linarith)
    · have e : ((k:ℝ) + 1 - lo) / (hi - lo) = ((k:ℝ) - lo + 1) / (hi - lo) := by ring
      rw [e] at key
      exact key

/-- Defect: the expectation of the average of a sample of `n` numbers of a binomial distribution is
`n` times the probability of success - the size of the sample in place of the number of trials. -/
theorem C83_binomial_wrong (trials : ℕ) (p : ℝ) (d : Binomial)
    (h : Binomial.new trials p = some d) (n : ℕ) (hn : 0 < n) :
    (∀ ω, ∃ l, d.sampleN (X ω) cap n = some l) ∧
    ∫ ω, Spec.average ((d.sampleN (X ω) cap n).getD []) ∂P = n * p ∧
    (0 < p → n ≠ trials →
      ∫ ω, Spec.average ((d.sampleN (X ω) cap n).getD []) ∂P ≠ d.mean) := by
  obtain ⟨h0, h1, rfl⟩ := Binomial.new_some h
  have hok : (Request.binomial n p).ok := ⟨h0, h1⟩
  have e : ∀ ω, (⟨trials, p⟩ : Binomial).sampleN (X ω) cap n =
      some ((List.range (cap n)).map fun i => X ω (.binomial n p) i) := by
    intro ω
    simp only [Binomial.sampleN, fill]
    rw [if_pos ⟨hn, hok⟩]; rfl
  have hc : (cap n : ℝ) ≠ 0 := by
    have := hcap n
    exact_mod_cast (by omega : cap n ≠ 0)
  have hi : ∀ i, Integrable (fun ω => X ω (.binomial n p) i) P ∧
      ∫ ω, X ω (.binomial n p) i ∂P = n * p := by
    intro i
    have hm := hX.measurable (.binomial n p) i hok
    have hl := hX.law (.binomial n p) i hok
    simp only [Spec.requestLaw] at hl
    rw [binomialLaw_eq h0 h1] at hl
    have i1 : Integrable (fun x : ℝ => x) (binLaw n p) := bin_integrable _
    constructor
    · rw [← hl] at i1
      exact i1.comp_measurable hm
    · have := integral_map (μ := P) hm.aemeasurable (f := fun x : ℝ => x) (by fun_prop)
      rw [hl] at this
      rw [← this]
      exact (bin_moments h0 h1 n).1
  have key : ∫ ω, Spec.average (((⟨trials, p⟩ : Binomial).sampleN (X ω) cap n).getD []) ∂P
      = n * p := by
    simp only [e, Option.getD_some, Spec.average, sum_map_range, List.length_map, List.length_range]
    rw [integral_div, integral_finset_sum _ fun i _ => (hi i).1]
    simp only [(hi _).2, Finset.sum_const, Finset.card_range, nsmul_eq_mul]
    field_simp
  refine ⟨fun ω => ⟨_, e ω⟩, key, fun hp hne => ?_⟩
  rw [key]
  simp only [Binomial.mean]
  intro heq
  exact hne (by exact_mod_cast mul_right_cancel₀ hp.ne' heq)

end

/-- An ideal source exists, the exact capacity is one of those admitted, and with them standard
normal samples of growing size average out to zero while samples of an exponential of rate one cut
to integers (a gamma distribution with both parameters one) stay below their mean. -/
example : ∃ (Ω : Type) (_ : MeasurableSpace Ω) (P : Measure Ω) (X : Ω → Request → ℕ → ℝ),
    IsProbabilityMeasure P ∧ Spec.IdealSource P X ∧
    (∃ g, Gaussian.new 0 1 = some g ∧
      ∀ᵐ ω ∂P, Spec.Approaches (g.sampleN (X ω) id) Spec.average 0) ∧
    (∃ d, GammaDist.new 1 1 = some d ∧ ∃ L < 1,
      ∀ᵐ ω ∂P, Spec.Approaches (d.sampleN (X ω) id) Spec.average L) ∧
    (∃ d, Binomial.new 3 (1 / 2) = some d ∧
      ∫ ω, Spec.average ((d.sampleN (X ω) id 10).getD []) ∂P = 5) := by
  obtain ⟨Ω, m, P, X, hP, hX⟩ := ideal_exists
  have hg : Gaussian.new 0 1 = some ⟨0, 1⟩ := by simp [Gaussian.new]
  have hd : GammaDist.new 1 1 = some ⟨1, 1⟩ := by simp [GammaDist.new]
  have hb : Binomial.new 3 (1 / 2) = some ⟨3, 1 / 2⟩ := by unfold Binomial.new; norm_num
  refine ⟨Ω, m, P, X, hP, hX, ⟨_, hg, (C83_gaussian hX (cap := id) (fun n => le_rfl) _ _ _ hg).1.1⟩,
    ⟨_, hd, ?_⟩, ⟨_, hb, ?_⟩⟩
  · obtain ⟨⟨L, h1, h2⟩, _⟩ := C83_gamma_wrong hX (cap := id) (fun n => le_rfl) _ _ _ hd
    exact ⟨L, by simpa [GammaDist.mean] using h1, h2⟩
  · rw [(C83_binomial_wrong hX (cap := id) (fun n => le_rfl) _ _ _ hb 10 (by norm_num)).2.1]
    norm_num

/-- The other distributions, over any ideal source. -/
example {Ω : Type} [MeasurableSpace Ω] {P : Measure Ω} [IsProbabilityMeasure P] {X : Ω → Request → ℕ → ℝ}
    (hX : Spec.IdealSource P X) :=
  C83_exponential hX (cap := id) (fun n => le_rfl) 2 ⟨2⟩ (by simp [Exponential.new])

example {Ω : Type} [MeasurableSpace Ω] {P : Measure Ω} [IsProbabilityMeasure P] {X : Ω → Request → ℕ → ℝ}
    (hX : Spec.IdealSource P X) :=
  C83_bernoulli hX (cap := id) (fun n => le_rfl) (1 / 4) ⟨1 / 4⟩ (by unfold Bernoulli.new; norm_num)

example {Ω : Type} [MeasurableSpace Ω] {P : Measure Ω} [IsProbabilityMeasure P] {X : Ω → Request → ℕ → ℝ}
    (hX : Spec.IdealSource P X) :=
  C83_poisson hX (cap := id) (fun n => le_rfl) 2 ⟨2⟩ (by unfold Poisson.new; norm_num)

example {Ω : Type} [MeasurableSpace Ω] {P : Measure Ω} [IsProbabilityMeasure P] {X : Ω → Request → ℕ → ℝ}
    (hX : Spec.IdealSource P X) :=
  C83_uniform hX (cap := id) (fun n => le_rfl) 2 5 (by norm_num) _ (by unfold Uniform.new; norm_num; rfl)

example {Ω : Type} [MeasurableSpace Ω] {P : Measure Ω} [IsProbabilityMeasure P] {X : Ω → Request → ℕ → ℝ}
    (hX : Spec.IdealSource P X) :=
  C83_chi_squared_wrong hX (cap := id) (fun n => le_rfl) true 3 ⟨3⟩ (by simp [ChiSquared.new])

example {Ω : Type} [MeasurableSpace Ω] {P : Measure Ω} [IsProbabilityMeasure P] {X : Ω → Request → ℕ → ℝ}
    (hX : Spec.IdealSource P X) :=
  C83_discrete_uniform_wrong hX (cap := id) (fun n => le_rfl) 2 5 (by norm_num)

end Verif.Distributions
