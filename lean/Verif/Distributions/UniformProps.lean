import Verif.Distributions.UniformLemmas

/-!
# C65: the uniform distribution

The continuous class is compared with `Spec.contLaw a b` (normalised length), the discrete class with
`Spec.discLaw lo hi` (equal masses on the integers from `lo` to `hi`).
-/

namespace Verif.Distributions

open MeasureTheory Real

theorem roundAway_near (x : ℝ) : |x - roundAway x| ≤ 1 / 2 := by
  unfold roundAway
  split_ifs with h
  · have h1 := Int.floor_le (x + 1 / 2)
    have h2 := Int.lt_floor_add_one (x + 1 / 2)
    rw [abs_le]; constructor <;> linarith
  · have h1 := Int.le_ceil (x - 1 / 2)
    have h2 := Int.ceil_lt_add_one (x - 1 / 2)
    rw [abs_le]; constructor <;> linarith

theorem roundAway_mono {x y : ℝ} (h : x ≤ y) : roundAway x ≤ roundAway y := by
  unfold roundAway
  split_ifs with h1 h2 h2
  · exact Int.floor_le_floor (by linarith)
  · exact absurd (h1.trans h) h2
  · push Not at h1
    have a1 : ⌈x - 1 / 2⌉ ≤ 0 := Int.ceil_le.2 (by push_cast; linarith)
    have a2 : 0 ≤ ⌊y + 1 / 2⌋ := Int.le_floor.2 (by push_cast; linarith)
    omega
  · exact Int.ceil_le_ceil (by linarith)

theorem roundAway_int (k : ℤ) : roundAway k = k := by
  unfold roundAway
  split_ifs
  · rw [Int.floor_eq_iff]; constructor <;> push_cast <;> linarith
  · rw [Int.ceil_eq_iff]; constructor <;> push_cast <;> linarith

/-- Construction panics exactly when the ends are in the wrong order.  The continuous class keeps
them; the discrete class replaces each by a nearest integer and leaves integers alone. -/
theorem C65_new (a b : ℝ) :
    (∀ cls, Uniform.new a b cls = none ↔ b < a) ∧
    (∀ d, Uniform.new a b .continuous = some d → d = ⟨a, b, .continuous⟩) ∧
    (∀ d, Uniform.new a b .discrete = some d → ∃ lo hi : ℤ, d = ⟨lo, hi, .discrete⟩ ∧ lo ≤ hi ∧
      |a - lo| ≤ 1 / 2 ∧ |b - hi| ≤ 1 / 2) ∧
    (∀ lo hi : ℤ, lo ≤ hi →
      Uniform.new lo hi .discrete = some ⟨(lo:ℝ), (hi:ℝ), .discrete⟩) := by
  refine ⟨?_, ?_, ?_, ?_⟩
  · intro cls
    unfold Uniform.new
    split_ifs with h
    · cases cls <;> simp [h]
    · simpa using h
  · intro d hd
    unfold Uniform.new at hd
    split_ifs at hd with h
    simpa using hd.symm
  · intro d hd
    unfold Uniform.new at hd
    split_ifs at hd with h
    exact ⟨_, _, by simpa using hd.symm, roundAway_mono h, roundAway_near a, roundAway_near b⟩
  · intro lo hi h
    unfold Uniform.new
    rw [if_pos (by exact_mod_cast h)]
    simp only [roundAway_int]

/-- Continuous class on a proper interval: `pdf` is a density and `cdf` the distribution function of
the law; `inv_cdf` answers exactly for levels in `[0,1]`, inverts `cdf`, and is the quantile. -/
theorem C65_continuous_law (a b : ℝ) (hab : a < b) (d : Uniform)
    (h : Uniform.new a b .continuous = some d) :
    Spec.contLaw a b = volume.withDensity (fun x => ENNReal.ofReal ((d.pdf x).getD 0)) ∧
    (∀ x, (d.pdf x).isSome ∧ d.cdf x = some (Spec.cdf (Spec.contLaw a b) x)) ∧
    (∀ p, d.invCdf p = none ↔ p < 0 ∨ 1 < p) ∧
    (∀ p, 0 < p → p ≤ 1 → ∃ q, d.invCdf p = some q ∧ Spec.IsQuantile (Spec.contLaw a b) p q) ∧
    (∀ p q, d.invCdf p = some q → d.cdf q = some p) ∧
    (∀ x p, a ≤ x → x ≤ b → d.cdf x = some p → d.invCdf p = some x) := by
  obtain rfl := (C65_new a b).2.1 d h
  have hpos : 0 < b - a := by linarith
  have hpdf : ∀ x, (⟨a, b, .continuous⟩ : Uniform).pdf x =
      some ((Set.Icc a b).indicator (fun _ => (b - a)⁻¹) x) := by
    intro x
    simp only [Uniform.pdf, Set.indicator_apply, Set.mem_Icc, fdiv]
    rw [if_neg hpos.ne']
    split_ifs <;> simp
  have hcdf : ∀ x, (⟨a, b, .continuous⟩ : Uniform).cdf x = some (Spec.cdf (Spec.contLaw a b) x) := by
    intro x
    rw [cont_cdf hab]
    simp only [Uniform.cdf, fdiv]
    rw [if_neg hpos.ne']
    split_ifs with h1 h2 h3 h3
    · rfl
    · rfl
    · exact absurd h2.2 h3
    · push Not at h1; exact absurd ⟨h1, h3⟩ h2
    · rfl
  have hq : ∀ p, 0 ≤ p → p ≤ 1 → Spec.cdf (Spec.contLaw a b) (a + p * (b - a)) = p := by
    intro p h0 h1
    rw [cont_cdf hab, if_neg (by nlinarith), if_pos (by nlinarith)]
    field_simp; ring
  refine ⟨?_, fun x => ⟨by rw [hpdf]; rfl, hcdf x⟩, ?_, ?_, ?_, ?_⟩
  · simp only [hpdf, Option.getD_some]
    have : (fun x => ENNReal.ofReal ((Set.Icc a b).indicator (fun _ => (b - a)⁻¹) x)) =
        (Set.Icc a b).indicator (fun _ => (ENNReal.ofReal (b - a))⁻¹) := by
      funext x
      simp only [Set.indicator_apply]
      split_ifs
      · exact ENNReal.ofReal_inv_of_pos hpos
      · simp
    rw [this, withDensity_indicator measurableSet_Icc, withDensity_const]
    rfl
  · intro p
    simp only [Uniform.invCdf]
    split_ifs with hp
    · simp only [reduceCtorEq, false_iff, not_or, not_lt]; exact hp
    · simp only [true_iff]
      by_contra hn; push Not at hn; exact hp hn
  · intro p h0 h1
    refine ⟨a + p * (b - a), by simp only [Uniform.invCdf]; rw [if_pos ⟨h0.le, h1⟩], ?_, ?_⟩
    · exact (hq p h0.le h1).ge
    · intro y hy
      by_contra hc
      push Not at hc
      rw [cont_cdf hab] at hy
      split_ifs at hy with h2 h3
      · linarith
      · rw [le_div_iff₀ hpos] at hy; linarith
      · push Not at h3; nlinarith
  · intro p q hpq
    simp only [Uniform.invCdf] at hpq
    split_ifs at hpq with hp
    simp only [Option.some.injEq] at hpq
    rw [hcdf, ← hpq, hq p hp.1 hp.2]
  · intro x p h1 h2 hp
    rw [hcdf, cont_cdf hab, if_neg (not_lt.2 h1), if_pos h2] at hp
    simp only [Option.some.injEq] at hp
    subst hp
    simp only [Uniform.invCdf]
    rw [if_pos ⟨div_nonneg (by linarith) hpos.le, (div_le_one hpos).2 (by linarith)⟩]
    congr 1
    field_simp
    ring

example := C65_continuous_law (-1) 3 (by norm_num) _ (by unfold Uniform.new; norm_num; rfl)

/-- Continuous class: characteristic and moment generating function away from zero (at zero, where
both are 1, they are not numbers), moments, median, mode and entropy. -/
theorem C65_continuous_moments (a b : ℝ) (hab : a < b) (d : Uniform)
    (h : Uniform.new a b .continuous = some d) :
    (∀ t, t ≠ 0 → d.cf t = some (Spec.cf (Spec.contLaw a b) t)) ∧
    (∀ t, t ≠ 0 → d.mgf t = some (Spec.mgf (Spec.contLaw a b) t)) ∧
    d.cf 0 = none ∧ d.mgf 0 = none ∧
    d.mean = Spec.mean (Spec.contLaw a b) ∧ d.variance = Spec.variance (Spec.contLaw a b) ∧
    d.skewness = Spec.skewness (Spec.contLaw a b) ∧
    d.kurtosis = some (Spec.excessKurtosis (Spec.contLaw a b)) ∧
    Spec.IsMedian (Spec.contLaw a b) d.median ∧
    (∃ m top, d.mode = some m ∧ d.pdf m = some top ∧ ∀ x v, d.pdf x = some v → v ≤ top) ∧
    d.entropy = some (∫ x, -log ((d.pdf x).getD 0) ∂Spec.contLaw a b) := by
  have hp := cont_prob hab
  obtain ⟨_, hlaw, _⟩ := C65_continuous_law a b hab d h
  obtain rfl := (C65_new a b).2.1 d h
  have hpos : 0 < b - a := by linarith
  obtain ⟨e1, e2, e3, e4⟩ := cont_moments hab
  have hmid : (⟨a, b, .continuous⟩ : Uniform).median = a + 1 / 2 * (b - a) := by
    unfold Uniform.median; norm_num; ring
  refine ⟨?_, ?_, ?_, ?_, ?_, ?_, ?_, ?_, ?_, ?_, ?_⟩
  · intro t ht
    have hc : Complex.I * t ≠ 0 := mul_ne_zero Complex.I_ne_zero (by exact_mod_cast ht)
    have hba : ((b:ℂ) - a) ≠ 0 := by
      have : ((b - a : ℝ) : ℂ) ≠ 0 := by exact_mod_cast hpos.ne'
      push_cast at this; exact this
    unfold Spec.cf
    rw [cont_integral hab, integral_exp_mul_complex hc]
    simp only [Uniform.cf, cdiv]
    rw [if_neg (mul_ne_zero hc hba)]
    congr 1
    rw [Complex.real_smul]
    push_cast
    field_simp
  · intro t ht
    unfold Spec.mgf
    rw [cont_integral hab, intervalIntegral.integral_comp_mul_left (fun x => exp x) ht, integral_exp]
    simp only [Uniform.mgf, fdiv]
    rw [if_neg (mul_ne_zero ht hpos.ne')]
    congr 1
    simp only [smul_eq_mul]
    field_simp
  · simp [Uniform.cf, cdiv]
  · simp [Uniform.mgf, fdiv]
  · rw [e1]; simp only [Uniform.mean]; norm_num; ring
  · rw [e2]; simp only [Uniform.variance]
  · rw [e3]; rfl
  · rw [e4]; simp only [Uniform.kurtosis]
  · have hc : Spec.cdf (Spec.contLaw a b) (a + 1 / 2 * (b - a)) = 1 / 2 := by
      rw [cont_cdf hab, if_neg (by nlinarith), if_pos (by nlinarith)]
      field_simp; ring
    rw [hmid]
    unfold Spec.cdf at hc
    refine ⟨hc.ge, ?_⟩
    have h1 := probReal_compl_eq_one_sub (μ := Spec.contLaw a b) (s := Set.Iic (a + 1 / 2 * (b - a)))
      measurableSet_Iic
    have h2 : (Set.Iic (a + 1 / 2 * (b - a)))ᶜ ⊆ Set.Ici (a + 1 / 2 * (b - a)) := by
      intro x hx; simp only [Set.mem_compl_iff, Set.mem_Iic, not_le] at hx; exact hx.le
    have := measureReal_mono (μ := Spec.contLaw a b) h2
    linarith
  · refine ⟨(a + b) * 0.5, (b - a)⁻¹, rfl, ?_, ?_⟩
    · simp only [Uniform.pdf, fdiv]
      rw [if_pos (by norm_num; constructor <;> linarith), if_neg hpos.ne', one_div]
    · intro x v hv
      simp only [Uniform.pdf, fdiv] at hv
      rw [if_neg hpos.ne'] at hv
      split_ifs at hv
      · simp only [Option.some.injEq] at hv; rw [← hv, one_div]
      · simp only [Option.some.injEq] at hv; rw [← hv]; positivity
  · rw [cont_integral hab]
    have : ∫ x in a..b, -log (((⟨a, b, .continuous⟩ : Uniform).pdf x).getD 0) =
        ∫ x in a..b, log (b - a) := by
      refine intervalIntegral.integral_congr fun x hx => ?_
      rw [Set.uIcc_of_le hab.le] at hx
      simp only [Uniform.pdf, fdiv]
      rw [if_pos ⟨hx.1, hx.2⟩, if_neg hpos.ne']
      simp [log_inv]
    rw [this, intervalIntegral.integral_const]
    simp only [Uniform.entropy]
    rw [if_neg hpos.ne']
    simp only [smul_eq_mul]
    congr 1
    field_simp

example := C65_continuous_moments (-1) 3 (by norm_num) _ (by unfold Uniform.new; norm_num; rfl)

/-- Defect: a continuous uniform law on a single point is accepted; then neither the density nor the
distribution function at that point, the entropy, or `cf` and `mgf` anywhere are numbers, and
sampling panics. -/
theorem C65_continuous_degenerate (a : ℝ) : ∃ d, Uniform.new a a .continuous = some d ∧
    d.pdf a = none ∧ d.cdf a = none ∧ d.entropy = none ∧
    (∀ t, d.cf t = none ∧ d.mgf t = none) ∧ ∀ draws, d.sample draws = none := by
  refine ⟨⟨a, a, .continuous⟩, by simp [Uniform.new], ?_, ?_, ?_, ?_, ?_⟩
  · simp [Uniform.pdf, fdiv]
  · simp [Uniform.cdf, fdiv]
  · simp [Uniform.entropy]
  · intro t; exact ⟨by simp [Uniform.cf, cdiv], by simp [Uniform.mgf, fdiv]⟩
  · intro draws; simp [Uniform.sample]

/-- Discrete class: `pmf` is the mass of the law at the integers and outside the interval, and `cdf`
the distribution function everywhere.  `inv_cdf` and `mode` always panic. -/
theorem C65_discrete_law (a b : ℝ) (d : Uniform) (h : Uniform.new a b .discrete = some d)
    (lo hi : ℤ) (hlo : d.a = lo) (hhi : d.b = hi) :
    (∀ k : ℤ, d.pdf k = some ((Spec.discLaw lo hi).real {(k:ℝ)})) ∧
    (∀ x : ℝ, x < lo ∨ hi < x → d.pdf x = some ((Spec.discLaw lo hi).real {x})) ∧
    (∀ x, d.cdf x = some (Spec.cdf (Spec.discLaw lo hi) x)) ∧
    (∀ p, d.invCdf p = none) ∧ d.mode = none := by
  obtain ⟨lo', hi', rfl, hle, _⟩ := (C65_new a b).2.2.1 d h
  simp only [Int.cast_inj] at hlo hhi
  subst hlo hhi
  have hpos := disc_pos hle
  have hout : ∀ x : ℝ, x < lo' ∨ hi' < x → (⟨(lo':ℝ), hi', .discrete⟩ : Uniform).pdf x =
      some ((Spec.discLaw lo' hi').real {x}) := by
    intro x hx
    rw [disc_mass_zero hle x]
    · simp only [Uniform.pdf]
      rw [if_neg]
      rintro ⟨h1, h2⟩
      rcases hx with hx | hx <;> linarith
    · intro k h1 h2 he
      have h1' : (lo':ℝ) ≤ k := by exact_mod_cast h1
      have h2' : (k:ℝ) ≤ hi' := by exact_mod_cast h2
      rcases hx with hx | hx <;> linarith
  refine ⟨?_, hout, ?_, ?_, rfl⟩
  · intro k
    by_cases hk : lo' ≤ k ∧ k ≤ hi'
    · rw [disc_mass hle k hk]
      simp only [Uniform.pdf, fdiv]
      rw [if_pos (by exact_mod_cast hk), if_neg hpos.ne', one_div]
    · refine hout k ?_
      by_contra hc
      push Not at hc
      exact hk (by exact_mod_cast hc)
  · intro x
    rw [disc_cdf hle]
    simp only [Uniform.cdf, fdiv]
    rw [if_neg hpos.ne']
    split_ifs with h1 h2 h3 h3
    · rfl
    · rfl
    · exact absurd h2.2 h3
    · push Not at h1; exact absurd ⟨h1, h3⟩ h2
    · rfl
  · intro p
    simp only [Uniform.invCdf]
    split_ifs <;> rfl

example := C65_discrete_law (1 : ℕ) (6 : ℕ) _ ((C65_new 0 0).2.2.2 1 6 (by norm_num)) 1 6 (by simp) (by simp)

/-- Defect: between two integers of the interval, where the law has no mass, `pmf` reports the mass
of an integer. -/
theorem C65_discrete_off_integers (a b : ℝ) (d : Uniform)
    (h : Uniform.new a b .discrete = some d) (lo hi : ℤ) (hlo : d.a = lo) (hhi : d.b = hi)
    (x : ℝ) (hx : ∀ k : ℤ, x ≠ k) (h1 : lo ≤ x) (h2 : x ≤ hi) :
    d.pdf x = some ((Spec.discLaw lo hi).real {(lo:ℝ)}) ∧ (Spec.discLaw lo hi).real {x} = 0 ∧
    0 < (Spec.discLaw lo hi).real {(lo:ℝ)} := by
  obtain ⟨lo', hi', rfl, hle, _⟩ := (C65_new a b).2.2.1 d h
  simp only [Int.cast_inj] at hlo hhi
  subst hlo hhi
  have hpos := disc_pos hle
  rw [disc_mass hle lo' ⟨le_rfl, hle⟩, disc_mass_zero hle x fun k _ _ => hx k]
  refine ⟨?_, rfl, by positivity⟩
  simp only [Uniform.pdf, fdiv]
  rw [if_pos ⟨h1, h2⟩, if_neg hpos.ne', one_div]

example := C65_discrete_off_integers (1 : ℕ) (6 : ℕ) _ ((C65_new 0 0).2.2.2 1 6 (by norm_num)) 1 6 (by simp) (by simp)
  (5 / 2) (fun k hk => by
    have : (5 : ℝ) = 2 * k := by linarith
    have h2 : (5 : ℤ) = 2 * k := by exact_mod_cast this
    omega) (by norm_num) (by norm_num)

/-- Discrete class: characteristic function (except at the multiples of `2π`, where it is not a
number), moment generating function (except at zero), mean, skewness, excess kurtosis (for at least
two points), median and entropy. -/
theorem C65_discrete_moments (a b : ℝ) (d : Uniform) (h : Uniform.new a b .discrete = some d)
    (lo hi : ℤ) (hlo : d.a = lo) (hhi : d.b = hi) :
    (∀ t : ℝ, Complex.exp (Complex.I * t) ≠ 1 → d.cf t = some (Spec.cf (Spec.discLaw lo hi) t)) ∧
    (∀ t : ℝ, Complex.exp (Complex.I * t) = 1 → d.cf t = none) ∧
    (∀ t, t ≠ 0 → d.mgf t = some (Spec.mgf (Spec.discLaw lo hi) t)) ∧ d.mgf 0 = none ∧
    d.mean = Spec.mean (Spec.discLaw lo hi) ∧ d.skewness = Spec.skewness (Spec.discLaw lo hi) ∧
    (lo < hi → d.kurtosis = some (Spec.excessKurtosis (Spec.discLaw lo hi))) ∧
    (lo = hi → d.kurtosis = none) ∧
    Spec.IsMedian (Spec.discLaw lo hi) d.median ∧
    d.entropy = some (∫ x, -log ((Spec.discLaw lo hi).real {x}) ∂Spec.discLaw lo hi) := by
  obtain ⟨lo', hi', rfl, hle, _⟩ := (C65_new a b).2.2.1 d h
  simp only [Int.cast_inj] at hlo hhi
  subst hlo hhi
  have hpos := disc_pos hle
  have hp := disc_prob hle
  have hcard := disc_card hle
  have hleR : (lo':ℝ) ≤ hi' := by exact_mod_cast hle
  obtain ⟨e1, e2, e3, e4⟩ := disc_moments hle
  refine ⟨?_, ?_, ?_, ?_, ?_, ?_, ?_, ?_, ?_, ?_⟩
  · intro t ht
    have hc : ((hi':ℂ) - lo' + 1) ≠ 0 := by
      have : ((hi' - lo' + 1 : ℝ) : ℂ) ≠ 0 := by exact_mod_cast hpos.ne'
      push_cast at this; exact this
    have hd : (1 - Complex.exp (Complex.I * t)) ≠ 0 := sub_ne_zero.2 (Ne.symm ht)
    unfold Spec.cf
    rw [disc_integral hle, disc_sum hle (fun x : ℝ => Complex.exp (Complex.I * t * x))]
    have hs : ∀ j : ℕ, Complex.exp (Complex.I * t * (((lo':ℝ) + (j:ℝ) : ℝ) : ℂ)) =
        Complex.exp (Complex.I * t * lo') * Complex.exp (Complex.I * t) ^ j := by
      intro j
      rw [← Complex.exp_nat_mul, ← Complex.exp_add]
      congr 1; push_cast; ring
    simp only [hs]
    rw [← Finset.mul_sum, geom_sum_eq ht, ← Complex.exp_nat_mul]
    have hn : (((hi' - lo' + 1).toNat : ℕ) : ℂ) = hi' - lo' + 1 := by
      have : (((((hi' - lo' + 1).toNat : ℕ) : ℝ)) : ℂ) = ((hi' - lo' + 1 : ℝ) : ℂ) := by rw [hcard]
      push_cast at this; exact this
    rw [hn]
    simp only [Uniform.cf, cdiv]
    push_cast
    rw [if_neg (mul_ne_zero hd hc)]
    congr 1
    have hsplit : Complex.exp (Complex.I * t * (hi' + 1)) =
        Complex.exp (Complex.I * t * lo') * Complex.exp ((hi' - lo' + 1) * (Complex.I * t)) := by
      rw [← Complex.exp_add]; congr 1; ring
    rw [hsplit, Complex.real_smul]
    push_cast
    have hd' : Complex.exp (Complex.I * t) - 1 ≠ 0 := sub_ne_zero.2 ht
    generalize Complex.exp (Complex.I * t) = z at *
    generalize Complex.exp (Complex.I * t * lo') = w at *
    generalize Complex.exp ((hi' - lo' + 1) * (Complex.I * t)) = u at *
    field_simp
    ring
  · intro t ht
    simp [Uniform.cf, cdiv, ht]
  · intro t ht
    have het : exp t ≠ 1 := by rw [Ne, exp_eq_one_iff]; exact ht
    unfold Spec.mgf
    rw [disc_integral hle, disc_sum hle (fun x : ℝ => exp (t * x))]
    have hs : ∀ j : ℕ, exp (t * ((lo':ℝ) + (j:ℝ))) = exp (t * lo') * exp t ^ j := by
      intro j
      rw [← exp_nat_mul, ← exp_add]
      congr 1; ring
    simp only [hs]
    rw [← Finset.mul_sum, geom_sum_eq het, ← exp_nat_mul, hcard]
    have hd' : exp t - 1 ≠ 0 := sub_ne_zero.2 het
    have hd : 1 - exp t ≠ 0 := sub_ne_zero.2 (Ne.symm het)
    simp only [Uniform.mgf, fdiv]
    rw [if_neg (mul_ne_zero hpos.ne' hd)]
    congr 1
    have hsplit : exp (t * (hi' + 1)) = exp (t * lo') * exp ((hi' - lo' + 1) * t) := by
      rw [← exp_add]; congr 1; ring
    rw [hsplit, smul_eq_mul]
    generalize exp t = z at *
    generalize exp (t * lo') = w at *
    generalize exp (((hi':ℝ) - lo' + 1) * t) = u at *
    have := hpos.ne'
    field_simp
    ring
  · simp [Uniform.mgf, fdiv]
  · rw [e1]; simp only [Uniform.mean]; norm_num; ring
  · rw [e3]; rfl
  · intro hlt
    rw [e4 hlt]
    have h2 : (lo':ℝ) + 1 ≤ hi' := by exact_mod_cast hlt
    simp only [Uniform.kurtosis, fdiv]
    rw [if_neg (by nlinarith)]
  · intro he
    subst he
    simp [Uniform.kurtosis, fdiv]
  · have hmed : (⟨(lo':ℝ), hi', .discrete⟩ : Uniform).median = ((lo':ℝ) + hi') / 2 := by
      simp only [Uniform.median]; norm_num; ring
    rw [hmed]
    generalize hm : ((lo':ℝ) + hi') / 2 = m
    -- reflection of the integers about the middle
    have hrefl : ∑ k ∈ Finset.Icc lo' hi', (Set.Iic m).indicator (1 : ℝ → ℝ) (k:ℝ) =
        ∑ k ∈ Finset.Icc lo' hi', (Set.Ici m).indicator (1 : ℝ → ℝ) (k:ℝ) := by
      refine Finset.sum_bij (fun k _ => lo' + hi' - k) ?_ ?_ ?_ ?_
      · intro k hk; rw [Finset.mem_Icc] at *; omega
      · intro k _ j _ hkj; omega
      · intro k hk; rw [Finset.mem_Icc] at hk
        exact ⟨lo' + hi' - k, Finset.mem_Icc.2 (by omega), by omega⟩
      · intro k _
        simp only [Set.indicator_apply, Set.mem_Iic, Set.mem_Ici, Pi.one_apply]
        push_cast
        have : ((k:ℝ) ≤ m) ↔ (m ≤ (lo':ℝ) + hi' - k) := by constructor <;> intro <;> linarith
        simp only [this]
    have heq : (Spec.discLaw lo' hi').real (Set.Iic m) = (Spec.discLaw lo' hi').real (Set.Ici m) := by
      rw [disc_real hle measurableSet_Iic, disc_real hle measurableSet_Ici, hrefl]
    have h1 := probReal_compl_eq_one_sub (μ := Spec.discLaw lo' hi') (s := Set.Iic m)
      measurableSet_Iic
    have h2 : (Set.Iic m)ᶜ ⊆ Set.Ici m := by
      intro x hx; simp only [Set.mem_compl_iff, Set.mem_Iic, not_le] at hx; exact hx.le
    have h3 := measureReal_mono (μ := Spec.discLaw lo' hi') h2
    exact ⟨by linarith, by linarith⟩
  · rw [disc_integral hle]
    have : ∑ k ∈ Finset.Icc lo' hi', -log ((Spec.discLaw lo' hi').real {(k:ℝ)}) =
        ∑ k ∈ Finset.Icc lo' hi', log ((hi':ℝ) - lo' + 1) := by
      refine Finset.sum_congr rfl fun k hk => ?_
      rw [disc_mass hle k (Finset.mem_Icc.1 hk), log_inv, neg_neg]
    rw [this, Finset.sum_const, Int.card_Icc, show hi' + 1 - lo' = hi' - lo' + 1 by ring,
      nsmul_eq_mul, hcard]
    simp only [Uniform.entropy, smul_eq_mul]
    rw [if_neg hpos.ne']
    congr 1
    have := hpos.ne'
    field_simp

example := C65_discrete_moments (1 : ℕ) (6 : ℕ) _ ((C65_new 0 0).2.2.2 1 6 (by norm_num)) 1 6 (by simp) (by simp)

/-- Defect: in the discrete class `variance` exceeds the variance of the law by one twelfth. -/
theorem C65_discrete_variance_wrong (a b : ℝ) (d : Uniform)
    (h : Uniform.new a b .discrete = some d) (lo hi : ℤ) (hlo : d.a = lo) (hhi : d.b = hi) :
    d.variance = Spec.variance (Spec.discLaw lo hi) + 1 / 12 := by
  obtain ⟨lo', hi', rfl, hle, _⟩ := (C65_new a b).2.2.1 d h
  simp only [Int.cast_inj] at hlo hhi
  subst hlo hhi
  rw [(disc_moments hle).2.1]
  simp only [Uniform.variance]
  ring

example := C65_discrete_variance_wrong (1 : ℕ) (6 : ℕ) _ ((C65_new 0 0).2.2.2 1 6 (by norm_num)) 1 6 (by simp) (by simp)

/-- `sample` in the continuous class hands the draws on.  Defect: in the discrete class it cuts draws
from the half-open interval down to natural numbers, so that with a positive upper end it never
yields that end, and with a non-positive one it yields nothing but zeros. -/
theorem C65_sample (a b : ℝ) (draws : List ℝ) (hne : draws ≠ []) :
    (∀ d, Uniform.new a b .continuous = some d → a < b → d.sample draws = some draws) ∧
    (∀ d, ∀ lo hi : ℤ, Uniform.new a b .discrete = some d → d.a = lo → d.b = hi → lo < hi →
      (∀ x ∈ draws, d.a ≤ x ∧ x < d.b) →
      ∃ out, d.sample draws = some out ∧ out.length = draws.length ∧
        (0 < hi → ∀ y ∈ out, y < hi) ∧ (hi ≤ 0 → ∀ y ∈ out, y = 0)) ∧
    (∀ d, ∀ lo : ℤ, Uniform.new a b .discrete = some d → d.a = lo → d.b = lo →
      d.sample draws = none) := by
  refine ⟨?_, ?_, ?_⟩
  · intro d h hab
    obtain rfl := (C65_new a b).2.1 d h
    simp only [Uniform.sample]
    rw [if_pos ⟨hab, hne⟩]
  · intro d lo hi h h1 h2 hlt hdr
    obtain ⟨lo', hi', rfl, hle, _⟩ := (C65_new a b).2.2.1 d h
    simp only [Int.cast_inj] at h1 h2
    subst h1 h2
    refine ⟨draws.map asUsize, ?_, by simp, ?_, ?_⟩
    · simp only [Uniform.sample]
      rw [if_pos ⟨by exact_mod_cast hlt, hne⟩]
    · intro hpos y hy
      obtain ⟨x, hx, rfl⟩ := List.mem_map.1 hy
      have hx2 := (hdr x hx).2
      unfold asUsize
      rcases le_or_gt 0 x with h0 | h0
      · exact lt_of_le_of_lt (Nat.floor_le h0) hx2
      · rw [Nat.floor_of_nonpos h0.le]
        simpa using hpos
    · intro hneg y hy
      obtain ⟨x, hx, rfl⟩ := List.mem_map.1 hy
      have hx2 : x < hi' := (hdr x hx).2
      have : (hi':ℝ) ≤ 0 := by exact_mod_cast hneg
      unfold asUsize
      rw [Nat.floor_of_nonpos (by linarith)]
      simp
  · intro d lo h h1 h2
    simp only [Uniform.sample, h1, h2, lt_irrefl, false_and, if_false]

/-- Concrete instances: a die, whose reported variance is 3 instead of 35/12, and the unit
interval. -/
example : (∃ d, Uniform.new 1 6 .discrete = some d ∧ d.a = (1:ℤ) ∧ d.b = (6:ℤ) ∧ d.variance = 3 ∧
      Spec.variance (Spec.discLaw 1 6) = 35 / 12 ∧ d.pdf 3 = some (1 / 6)) ∧
    (∃ d, Uniform.new 0 1 .continuous = some d ∧ d.cdf (1 / 4) = some (1 / 4) ∧
      d.invCdf 2 = none) := by
  constructor
  · have h := (C65_new 0 0).2.2.2 1 6 (by norm_num)
    push_cast at h
    refine ⟨_, h, by simp, by simp, ?_, ?_, ?_⟩
    · simp only [Uniform.variance]; norm_num
    · rw [(disc_moments (by norm_num)).2.1]; norm_num
    · simp only [Uniform.pdf, fdiv]; norm_num
  · refine ⟨⟨0, 1, .continuous⟩, by simp [Uniform.new], ?_, ?_⟩
    · simp only [Uniform.cdf, fdiv]; norm_num
    · simp only [Uniform.invCdf]; norm_num

end Verif.Distributions
