import Verif.Distributions.Sampling
import Mathlib.Probability.StrongLaw
import Mathlib.Probability.Independence.InfinitePi

/-! The law of large numbers for samples. -/

namespace Verif.Distributions

open Real MeasureTheory ProbabilityTheory Filter Topology

theorem requestLaw_prob (r : Request) (h : r.ok) : IsProbabilityMeasure (Spec.requestLaw r) := by
  cases r with
  | normal m s => simp only [Spec.requestLaw]; infer_instance
  | exp l => exact isProbabilityMeasure_expMeasure h
  | bernoulli p => exact bern_prob h.1 h.2
  | poisson l => simp only [Spec.requestLaw]; infer_instance
  | gamma s c => exact gamma_prob h.1 (inv_pos.2 h.2)
  | chiSquared k => exact gamma_prob (half_pos h) (by norm_num)
  | uniform a b => exact cont_prob h
  | binomial n p =>
    have := bern_prob h.1 h.2
    simp only [Spec.requestLaw, Spec.binomialLaw]
    exact Measure.isProbabilityMeasure_map (by fun_prop)

theorem asUsize_measurable : Measurable asUsize := by
  unfold asUsize
  exact (measurable_from_top (f := fun n : ℕ => (n : ℝ))).comp Nat.measurable_floor

variable {Ω : Type*} [MeasurableSpace Ω] {P : Measure Ω} {X : Ω → Request → ℕ → ℝ}

/-- The averages of any integrable function of the draws. -/
theorem slln (hX : Spec.IdealSource P X) {r : Request} (hr : r.ok) {f : ℝ → ℝ} (hf : Measurable f)
    (hi : Integrable f (Spec.requestLaw r)) {cap : ℕ → ℕ} (hcap : ∀ n, n ≤ cap n) :
    ∀ᵐ ω ∂P, Tendsto (fun n => (∑ i ∈ Finset.range (cap n), f (X ω r i)) / (cap n : ℝ)) atTop
      (𝓝 (∫ x, f x ∂Spec.requestLaw r)) := by
  have hid : ∀ i, IdentDistrib (fun ω => X ω r i) (fun ω => X ω r 0) P P := fun i =>
    ⟨(hX.measurable r i hr).aemeasurable, (hX.measurable r 0 hr).aemeasurable,
      by rw [hX.law r i hr, hX.law r 0 hr]⟩
  have hint : Integrable (fun ω => f (X ω r 0)) P := by
    rw [← hX.law r 0 hr] at hi
    exact hi.comp_measurable (hX.measurable r 0 hr)
  have key := strong_law_ae_real (fun i ω => f (X ω r i)) hint
    (fun i j hij => (hX.indep r hr i j hij).comp hf hf) (fun i => (hid i).comp hf)
  have e : ∫ ω, f (X ω r 0) ∂P = ∫ x, f x ∂Spec.requestLaw r := by
    rw [← hX.law r 0 hr, integral_map (hX.measurable r 0 hr).aemeasurable hf.aestronglyMeasurable]
  filter_upwards [key] with ω h
  rw [e] at h
  exact h.comp (tendsto_atTop_mono hcap tendsto_id)

theorem approaches_of_tendsto {draw : Request → ℕ → ℝ} {cap : ℕ → ℕ} {r : Request} {post : ℝ → ℝ}
    (hr : r.ok) {stat : List ℝ → ℝ} {L : ℝ}
    (h : Tendsto (fun n => stat ((List.range (cap n)).map fun i => post (draw r i))) atTop (𝓝 L)) :
    Spec.Approaches (fun n => fill draw cap n r post) stat L := by
  intro ε hε
  obtain ⟨N, hN⟩ := Metric.tendsto_atTop.1 h ε hε
  refine ⟨max N 1, fun n hn => ⟨(List.range (cap n)).map fun i => post (draw r i), ?_, ?_⟩⟩
  · simp only [fill]
    rw [if_pos ⟨by omega, hr⟩]
  · have := hN n (by omega)
    rwa [Real.dist_eq] at this

theorem sum_map_range (f : ℕ → ℝ) (n : ℕ) :
    ((List.range n).map f).sum = ∑ i ∈ Finset.range n, f i := by
  induction n with
  | zero => simp
  | succ n ih => rw [List.range_succ, Finset.sum_range_succ]; simp [ih]

theorem average_approaches (hX : Spec.IdealSource P X) {r : Request} (hr : r.ok) {post : ℝ → ℝ}
    (hf : Measurable post) (hi : Integrable post (Spec.requestLaw r)) {cap : ℕ → ℕ}
    (hcap : ∀ n, n ≤ cap n) :
    ∀ᵐ ω ∂P, Spec.Approaches (fun n => fill (X ω) cap n r post) Spec.average
      (∫ x, post x ∂Spec.requestLaw r) := by
  filter_upwards [slln hX hr hf hi hcap] with ω h
  refine approaches_of_tendsto hr ?_
  simpa [Spec.average, sum_map_range] using h

theorem spread_approaches (hX : Spec.IdealSource P X) {r : Request} (hr : r.ok) {post : ℝ → ℝ}
    (m : ℝ) (hf : Measurable post)
    (hi : Integrable (fun x => (post x - m) ^ 2) (Spec.requestLaw r)) {cap : ℕ → ℕ}
    (hcap : ∀ n, n ≤ cap n) :
    ∀ᵐ ω ∂P, Spec.Approaches (fun n => fill (X ω) cap n r post) (Spec.spread m)
      (∫ x, (post x - m) ^ 2 ∂Spec.requestLaw r) := by
  filter_upwards [slln hX hr (f := fun x => (post x - m) ^ 2) (by fun_prop) hi hcap] with ω h
  refine approaches_of_tendsto hr ?_
  simp only [Spec.spread, Spec.average, List.map_map, List.length_map, List.length_range]
  simpa [sum_map_range, Function.comp_def] using h

theorem frequency_map (x : ℝ) (f : ℕ → ℝ) (n : ℕ) :
    Spec.frequency x ((List.range n).map f) =
      (∑ i ∈ Finset.range n, (Set.Iic x).indicator (1 : ℝ → ℝ) (f i)) / n := by
  unfold Spec.frequency
  simp only [List.length_map, List.length_range]
  congr 1
  induction n with
  | zero => simp
  | succ n ih =>
    rw [List.range_succ, Finset.sum_range_succ, List.map_append, List.filter_append,
      List.length_append, Nat.cast_add, ih]
    congr 1
    by_cases h : f n ≤ x <;> simp [h]

theorem frequency_approaches (hX : Spec.IdealSource P X) {r : Request} (hr : r.ok) {post : ℝ → ℝ}
    (hf : Measurable post) (x : ℝ) {cap : ℕ → ℕ} (hcap : ∀ n, n ≤ cap n) :
    ∀ᵐ ω ∂P, Spec.Approaches (fun n => fill (X ω) cap n r post) (Spec.frequency x)
      ((Spec.requestLaw r).real (post ⁻¹' Set.Iic x)) := by
  have := requestLaw_prob r hr
  have hs : MeasurableSet (post ⁻¹' Set.Iic x) := hf measurableSet_Iic
  have e : (fun y => (Set.Iic x).indicator (1 : ℝ → ℝ) (post y)) =
      (post ⁻¹' Set.Iic x).indicator 1 := by
    funext y; simp [Set.indicator]
  have hm : Measurable fun y => (Set.Iic x).indicator (1 : ℝ → ℝ) (post y) := by
    rw [e]; exact measurable_one.indicator hs
  have hi : Integrable (fun y => (Set.Iic x).indicator (1 : ℝ → ℝ) (post y))
      (Spec.requestLaw r) := by
    rw [e]; exact (integrable_const (1:ℝ)).indicator hs
  filter_upwards [slln hX hr hm hi hcap] with ω h
  refine approaches_of_tendsto hr ?_
  rw [e, integral_indicator_one hs] at h
  simp only [frequency_map]
  exact h

/-- Samples handed on as drawn. -/
theorem faithful_of_moments (hX : Spec.IdealSource P X) {r : Request} (hr : r.ok) {post : ℝ → ℝ}
    (hpost : Measurable post) (hid : ∀ᵐ x ∂Spec.requestLaw r, post x = x) {cap : ℕ → ℕ}
    (hcap : ∀ n, n ≤ cap n) {m v : ℝ} (i1 : Integrable (fun x => x) (Spec.requestLaw r))
    (i2 : Integrable (fun x => x ^ 2) (Spec.requestLaw r))
    (hm : m = Spec.mean (Spec.requestLaw r)) (hv : v = Spec.variance (Spec.requestLaw r)) :
    Spec.Faithful P (fun ω n => fill (X ω) cap n r post) m v (Spec.requestLaw r) := by
  have := requestLaw_prob r hr
  refine ⟨?_, ?_, fun x => ?_⟩
  · have e : ∫ x, post x ∂Spec.requestLaw r = m := by
      rw [integral_congr_ae hid, hm]; rfl
    rw [← e]
    exact average_approaches hX hr hpost (i1.congr (hid.mono fun x hx => hx.symm)) hcap
  · have hid2 : ∀ᵐ x ∂Spec.requestLaw r, (post x - m) ^ 2 = (x - m) ^ 2 :=
      hid.mono fun x hx => by rw [hx]
    have e : ∫ x, (post x - m) ^ 2 ∂Spec.requestLaw r = v := by
      rw [integral_congr_ae hid2, hv, hm]; rfl
    rw [← e]
    refine spread_approaches hX hr m hpost ?_ hcap
    have i3 : Integrable (fun x => (x - m) ^ 2) (Spec.requestLaw r) := by
      have : (fun x : ℝ => (x - m) ^ 2) = fun x => x ^ 2 - (2 * m) * x + m ^ 2 := by
        funext x; ring
      rw [this]
      exact (i2.sub (i1.const_mul _)).add (integrable_const _)
    exact i3.congr (hid2.mono fun x hx => hx.symm)
  · have e : (Spec.requestLaw r).real (post ⁻¹' Set.Iic x) = Spec.cdf (Spec.requestLaw r) x := by
      unfold Spec.cdf
      refine measureReal_congr ?_
      filter_upwards [hid] with y hy
      apply propext
      change post y ≤ x ↔ y ≤ x
      rw [hy]
    rw [← e]
    exact frequency_approaches hX hr hpost x hcap

/-- Cutting to the integer part moves the mass between two integers down to the lower one. -/
theorem asUsize_preimage (x : ℝ) (hx : 0 ≤ x) :
    asUsize ⁻¹' Set.Iic x = Set.Iio ((⌊x⌋₊ : ℝ) + 1) := by
  ext y
  simp only [Set.mem_preimage, Set.mem_Iic, Set.mem_Iio, asUsize]
  rw [← Nat.le_floor_iff hx, ← Nat.lt_succ_iff, Nat.floor_lt' (by simp)]
  push_cast
  rfl

theorem real_Iio_eq_cdf (μ : Measure ℝ) [NullSingletonClass μ] (x : ℝ) : μ.real (Set.Iio x) = Spec.cdf μ x :=
  measureReal_congr Iio_ae_eq_Iic

instance gamma_noAtoms (a b : ℝ) : NullSingletonClass (gammaMeasure a b) := by
  unfold gammaMeasure; infer_instance

instance cont_noAtoms (a b : ℝ) : NullSingletonClass (Spec.contLaw a b) := by
  unfold Spec.contLaw
  refine ⟨fun x => ?_⟩
  rw [Measure.smul_apply, measure_singleton, smul_zero]

theorem asUsize_integrable_gamma {a b : ℝ} (ha : 0 < a) (hb : 0 < b) :
    Integrable asUsize (gammaMeasure a b) := by
  obtain ⟨i1, _⟩ := gamma_raw ha hb 1
  simp only [pow_one] at i1
  refine Integrable.mono' i1 asUsize_measurable.aestronglyMeasurable ?_
  filter_upwards [gamma_ae_pos (a := a) (r := b)] with x hx
  unfold asUsize
  rw [Real.norm_of_nonneg (by positivity)]
  exact Nat.floor_le hx.le

theorem asUsize_Ioc (k : ℕ) : ∫ x in (k:ℝ)..((k + 1 : ℕ) : ℝ), asUsize x = k := by
  rw [intervalIntegral.integral_of_le (by simp), integral_Ioc_eq_integral_Ioo,
    setIntegral_congr_fun (g := fun _ => (k:ℝ)) measurableSet_Ioo]
  · simp
  · intro x hx
    have hk : (k:ℝ) < x := hx.1
    have hk1 : x < ((k + 1 : ℕ):ℝ) := hx.2
    have : ⌊x⌋₊ = k := by
      rw [Nat.floor_eq_iff ((Nat.cast_nonneg k).trans hk.le)]
      exact ⟨hk.le, by push_cast at hk1; exact hk1⟩
    simp [asUsize, this]

theorem asUsize_mono : Monotone asUsize := fun x y h => by
  unfold asUsize; exact_mod_cast Nat.floor_le_floor h

theorem asUsize_integral_nat (a n : ℕ) :
    ∫ x in (a:ℝ)..((a + n : ℕ) : ℝ), asUsize x = ∑ i ∈ Finset.range n, ((a + i : ℕ) : ℝ) := by
  have h := intervalIntegral.sum_integral_adjacent_intervals (μ := volume) (f := asUsize)
    (a := fun i : ℕ => ((a + i : ℕ) : ℝ)) (n := n)
    (fun k _ => asUsize_mono.intervalIntegrable)
  simp only [Nat.add_zero] at h
  rw [← h]
  exact Finset.sum_congr rfl fun i _ => asUsize_Ioc (a + i)

theorem sum_arith (a n : ℕ) : ∑ i ∈ Finset.range n, ((a + i : ℕ) : ℝ) =
    n * (a + (n - 1) / 2 : ℝ) := by
  induction n with
  | zero => simp
  | succ n ih => rw [Finset.sum_range_succ, ih]; push_cast; ring

/-- There is an ideal source. -/
theorem ideal_exists : ∃ (Ω : Type) (_ : MeasurableSpace Ω) (P : Measure Ω)
    (X : Ω → Request → ℕ → ℝ), IsProbabilityMeasure P ∧ Spec.IdealSource P X := by
  classical
  let μ : Request × ℕ → Measure ℝ := fun q =>
    if q.1.ok then Spec.requestLaw q.1 else Measure.dirac 0
  have hμ : ∀ q, IsProbabilityMeasure (μ q) := fun q => by
    simp only [μ]
    split_ifs with h
    · exact requestLaw_prob _ h
    · infer_instance
  refine ⟨Request × ℕ → ℝ, inferInstance, Measure.infinitePi μ, fun ω r i => ω (r, i),
    inferInstance, ⟨fun r i _ => by fun_prop, fun r i h => ?_, fun r _ i j hij => ?_⟩⟩
  · rw [Measure.infinitePi_map_eval]; simp [μ, h]
  · have h := iIndepFun_infinitePi (P := μ) (X := fun _ x => x) (fun _ => measurable_id)
    exact h.indepFun (show ((r, i) : Request × ℕ) ≠ (r, j) by simpa using hij)

end Verif.Distributions
