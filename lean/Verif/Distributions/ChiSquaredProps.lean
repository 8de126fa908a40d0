import Verif.Distributions.GammaProps
import Verif.Distributions.ExponentialProps
import Mathlib.Analysis.SpecialFunctions.Log.Deriv
import Mathlib.Analysis.Complex.ExponentialBounds

/-!
# C64: the chi-squared distribution

The law is `Spec.chiLaw k`: the sum of the squares of `k` independent standard normal variables.
-/

namespace Verif.Distributions

open MeasureTheory ProbabilityTheory Real

namespace ChiSquared

theorem new_some {k : ℕ} {d : ChiSquared} (h : new k = some d) : 0 < k ∧ d = ⟨k⟩ := by
  unfold new at h
  split_ifs at h with h0
  exact ⟨h0, by simpa using h.symm⟩

end ChiSquared

/-- Construction panics exactly for zero degrees of freedom. -/
theorem C64_new (k : ℕ) : (ChiSquared.new k = none ↔ k = 0) ∧
    ∀ d, ChiSquared.new k = some d → d.k = k := by
  refine ⟨?_, fun d h => ?_⟩
  · unfold ChiSquared.new
    split_ifs with h
    · simp; omega
    · simp; omega
  · obtain ⟨_, rfl⟩ := ChiSquared.new_some h; rfl

/-- `pdf` is a density and `cdf` the distribution function of the law of a sum of squares of
independent standard normal variables. -/
theorem C64_law (z : Bool) (k : ℕ) (d : ChiSquared) (h : ChiSquared.new k = some d) :
    Spec.chiLaw k = volume.withDensity (fun x => ENNReal.ofReal ((d.pdf x).getD 0)) ∧
    (∀ x, 0 < x → (d.pdf x).isSome ∧ d.cdf z x = some (Spec.cdf (Spec.chiLaw k) x)) ∧
    (∀ x, x < 0 → d.pdf x = none ∧ d.cdf z x = none ∧ Spec.cdf (Spec.chiLaw k) x = 0) ∧
    (∀ c, d.cdf z 0 = some c → c = 0) ∧
    (∀ x y, 0 ≤ x → x < y → Spec.cdf (Spec.chiLaw k) x < Spec.cdf (Spec.chiLaw k) y) := by
  obtain ⟨hk, rfl⟩ := ChiSquared.new_some h
  have ha : (0:ℝ) < k / 2 := by positivity
  have hb : (0:ℝ) < 1 / 2 := by norm_num
  have hg := Gamma_pos_of_pos ha
  rw [chiLaw_eq hk]
  have hp := gamma_prob ha hb
  refine ⟨?_, ?_, ?_, ?_, ?_⟩
  · rw [gammaMeasure]
    refine withDensity_congr_ae ?_
    have : ∀ᵐ x : ℝ, x ≠ 0 := by simp [ae_iff]
    filter_upwards [this] with x hx
    rw [gammaPDF, gammaPDFReal]
    unfold ChiSquared.pdf ChiSquared.inDomain
    by_cases h0 : 0 < x
    · rw [if_pos h0.le, if_pos (by split_ifs <;> linarith)]
      simp only [Option.getD_some]
      congr 1
      rw [one_div, inv_rpow (by norm_num), show -(2⁻¹ * x) = -x / 2 by ring]
      field_simp
    · have h1 : ¬ 0 ≤ x := fun h => h0 (lt_of_le_of_ne h (Ne.symm hx))
      rw [if_neg h1, if_neg (by split_ifs <;> assumption)]; simp
  · intro x hx
    unfold ChiSquared.pdf ChiSquared.cdf
    have hd : ChiSquared.inDomain ⟨k⟩ x := by
      unfold ChiSquared.inDomain; split_ifs <;> linarith
    rw [if_pos hd, if_pos ⟨hd, fun h => absurd h hx.ne'⟩, gamma_cdf ha hb hx.le]
    refine ⟨rfl, ?_⟩
    rw [show x / 2 = 1 / 2 * x by ring]
  · intro x hx
    have hd : ¬ ChiSquared.inDomain ⟨k⟩ x := by
      unfold ChiSquared.inDomain; split_ifs <;> linarith
    unfold ChiSquared.pdf ChiSquared.cdf
    exact ⟨if_neg hd, if_neg fun hh => hd hh.1, gamma_cdf_neg hx.le⟩
  · intro c hc
    unfold ChiSquared.cdf at hc
    split_ifs at hc
    simp only [zero_div, gammaLi_zero, Option.some.injEq] at hc
    exact hc.symm
  · intro x y hx hxy
    rw [gamma_cdf ha hb hx, gamma_cdf ha hb (hx.trans hxy.le)]
    exact div_lt_div_of_pos_right (gammaLi_lt ha (by positivity) (by nlinarith)) hg

example := C64_law false 3 ⟨3⟩ (by simp [ChiSquared.new])

/-- The characteristic function, the moment generating function (where it is finite; elsewhere the
call panics), mean, variance, skewness, excess kurtosis, and the entropy: the expectation of minus
the logarithm of the density. -/
theorem C64_moments (k : ℕ) (d : ChiSquared) (h : ChiSquared.new k = some d) :
    (∀ t, d.cf t = Spec.cf (Spec.chiLaw k) t) ∧
    (∀ t, t < 1 / 2 → d.mgf t = some (Spec.mgf (Spec.chiLaw k) t)) ∧
    (∀ t, d.mgf t = none ↔ 1 / 2 ≤ t) ∧
    d.mean = Spec.mean (Spec.chiLaw k) ∧ d.variance = Spec.variance (Spec.chiLaw k) ∧
    d.skewness = Spec.skewness (Spec.chiLaw k) ∧
    d.kurtosis = Spec.excessKurtosis (Spec.chiLaw k) ∧
    d.entropy = ∫ x, -log ((d.pdf x).getD 0) ∂Spec.chiLaw k := by
  obtain ⟨hk, rfl⟩ := ChiSquared.new_some h
  have ha : (0:ℝ) < k / 2 := by positivity
  have hb : (0:ℝ) < 1 / 2 := by norm_num
  have hkR : (0:ℝ) < k := by positivity
  have hg := Gamma_pos_of_pos ha
  have hp := gamma_prob ha hb
  obtain ⟨e1, e2, e3, e4⟩ := gamma_moments ha hb
  rw [chiLaw_eq hk]
  refine ⟨?_, ?_, ?_, ?_, ?_, ?_, ?_, ?_⟩
  · intro t; rw [gamma_cf ha hb]
    unfold ChiSquared.cf
    congr 1
    · push_cast; ring
    · push_cast; ring
  · intro t ht; rw [gamma_mgf ha hb ht]; unfold ChiSquared.mgf; rw [if_pos (by linarith)]
    rw [show 1 - t / (1 / 2) = 1 - 2 * t by ring, neg_div]
  · intro t; unfold ChiSquared.mgf; split_ifs with ht <;> simp <;> linarith
  · rw [e1]; unfold ChiSquared.mean; ring
  · rw [e2]; unfold ChiSquared.variance; ring
  · rw [e3]; unfold ChiSquared.skewness
    rw [show (8:ℝ) / k = (2:ℝ) ^ 2 / (k / 2) by field_simp; norm_num, sqrt_div (by norm_num),
      sqrt_sq (by norm_num)]
  · rw [e4]; unfold ChiSquared.kurtosis; field_simp; norm_num
  · obtain ⟨il, vl⟩ := gamma_log ha hb
    obtain ⟨i1, v1⟩ := gamma_raw ha hb 1
    simp only [pow_one] at i1 v1
    rw [(gamma_ratio ha).1] at v1
    have hpt : ∀ᵐ x ∂gammaMeasure (k / 2) (1 / 2),
        -log (((⟨k⟩ : ChiSquared).pdf x).getD 0) =
          (k / 2 * log 2 + log (Real.Gamma (k / 2))) + ((1 - k / 2) * log x + 1 / 2 * x) := by
      filter_upwards [gamma_ae_pos (a := k / 2) (r := 1 / 2)] with x hx
      unfold ChiSquared.pdf ChiSquared.inDomain
      rw [if_pos (by split_ifs <;> linarith)]
      simp only [Option.getD_some]
      rw [log_div (by positivity) (by positivity), log_mul (by positivity) (exp_pos _).ne',
        log_mul (by positivity) (by positivity), log_exp, log_rpow hx, log_rpow (by norm_num)]
      ring
    rw [integral_congr_ae hpt, integral_add (f := fun _ =>
        (k / 2 * log 2 + log (Real.Gamma (k / 2))))
        (g := fun x => (1 - k / 2) * log x + 1 / 2 * x) (integrable_const _)
        ((il.const_mul _).add (i1.const_mul _)),
      integral_add (il.const_mul _) (i1.const_mul _), integral_const_mul,
      integral_const_mul (1 / 2 : ℝ) (fun x : ℝ => x), v1, vl, integral_const]
    simp only [probReal_univ, smul_eq_mul, one_mul]
    unfold ChiSquared.entropy
    rw [log_mul (by norm_num) hg.ne', one_div, log_inv]
    ring

example := C64_moments 3 ⟨3⟩ (by simp [ChiSquared.new])

/-- `mode`: for three or more degrees of freedom the point where the density is largest; otherwise
zero, and the density decreases from there. -/
theorem C64_mode (k : ℕ) (d : ChiSquared) (h : ChiSquared.new k = some d) :
    (3 ≤ k → d.mode = k - 2 ∧
      ∃ top, d.pdf d.mode = some top ∧ ∀ x v, d.pdf x = some v → v ≤ top) ∧
    (k ≤ 2 → d.mode = 0 ∧
      ∀ x y v w, 0 < x → x ≤ y → d.pdf x = some v → d.pdf y = some w → w ≤ v) := by
  obtain ⟨hk, rfl⟩ := ChiSquared.new_some h
  have ha : (0:ℝ) < k / 2 := by positivity
  have hb : (0:ℝ) < 1 / 2 := by norm_num
  have hg := Gamma_pos_of_pos ha
  have hden : 0 < (2:ℝ) ^ ((k:ℝ) / 2) * Real.Gamma (k / 2) := by positivity
  refine ⟨fun h3 => ?_, fun h2 => ?_⟩
  · have h3R : (3:ℝ) ≤ k := by exact_mod_cast h3
    have hm : (⟨k⟩ : ChiSquared).mode = k - 2 := by
      unfold ChiSquared.mode; exact max_eq_right (by simp only; linarith)
    refine ⟨hm, ?_⟩
    rw [hm]
    have hdom : ChiSquared.inDomain ⟨k⟩ ((k:ℝ) - 2) := by
      unfold ChiSquared.inDomain; split_ifs <;> linarith
    refine ⟨_, by unfold ChiSquared.pdf; rw [if_pos hdom], ?_⟩
    intro x v hv
    unfold ChiSquared.pdf at hv
    split_ifs at hv with hx
    simp only [Option.some.injEq] at hv
    subst hv
    have hx0 : 0 ≤ x := by
      unfold ChiSquared.inDomain at hx; split_ifs at hx
      · exact hx.le
      · exact hx
    refine div_le_div_of_nonneg_right ?_ hden.le
    rcases eq_or_lt_of_le hx0 with hx0 | hx0
    · rw [← hx0, zero_rpow (by linarith)]
      have : (0:ℝ) < k - 2 := by linarith
      rw [zero_mul]; positivity
    · have := GammaDist.shape_le (a := k / 2) (b := 1 / 2) (by linarith) hb hx0
      rw [show ((k:ℝ) / 2 - 1) / (1 / 2) = k - 2 by ring] at this
      rw [show -x / 2 = -(1 / 2) * x by ring, show -((k:ℝ) - 2) / 2 = -(1 / 2) * (k - 2) by ring]
      exact this
  · have h2R : (k:ℝ) ≤ 2 := by exact_mod_cast h2
    refine ⟨by unfold ChiSquared.mode; exact max_eq_left (by simp only; linarith), ?_⟩
    intro x y v w hx0 hxy hv hw
    unfold ChiSquared.pdf at hv hw
    split_ifs at hv with hx
    split_ifs at hw with hy
    simp only [Option.some.injEq] at hv hw
    subst hv hw
    refine div_le_div_of_nonneg_right ?_ hden.le
    have := GammaDist.shape_anti (a := k / 2) (b := 1 / 2) (by linarith) hb hx0 hxy
    rw [show -x / 2 = -(1 / 2) * x by ring, show -y / 2 = -(1 / 2) * y by ring]
    exact this

example := C64_mode 3 ⟨3⟩ (by simp [ChiSquared.new])

/-- Defect: `median` is an approximation; for two degrees of freedom it is not a median. -/
theorem C64_median_inexact : ∃ d, ChiSquared.new 2 = some d ∧
    ¬ Spec.IsMedian (Spec.chiLaw 2) d.median ∧ Spec.IsMedian (Spec.chiLaw 2) (2 * log 2) := by
  refine ⟨⟨2⟩, by simp [ChiSquared.new], ?_, ?_⟩
  · intro hmed
    have hn : ChiSquared.new 2 = some ⟨2⟩ := by simp [ChiSquared.new]
    obtain ⟨_, _, _, _, hmono⟩ := C64_law true 2 _ hn
    have hm : (⟨2⟩ : ChiSquared).median = 1024 / 729 := by
      unfold ChiSquared.median
      rw [show (3:ℝ) = ((3:ℕ) : ℝ) by norm_num, rpow_natCast]
      norm_num
    rw [hm] at hmed
    have hl : 2 * log 2 < 1.39 := by have := log_two_lt_d9; linarith
    have hl0 : 0 < log 2 := log_pos (by norm_num)
    have h1 := hmono (2 * log 2) 1.39 (by positivity) hl
    have h2 : Spec.cdf (Spec.chiLaw 2) (2 * log 2) = 1 / 2 := by
      rw [chiLaw_eq (by norm_num)]
      have h := gamma_cdf (a := 1) (r := 1 / 2) (x := 2 * log 2) one_pos (by norm_num)
        (by positivity)
      have he := cdf_expMeasure_eq (r := 1 / 2) (by norm_num) (2 * log 2)
      have := isProbabilityMeasure_expMeasure (r := 1 / 2) (by norm_num)
      rw [cdf_eq_real, if_pos (by positivity), show -(1 / 2 * (2 * log 2)) = -log 2 by ring, exp_neg,
        exp_log (by norm_num)] at he
      rw [show ((2:ℕ):ℝ) / 2 = 1 by norm_num]
      change (expMeasure (1 / 2)).real (Set.Iic (2 * log 2)) = 1 / 2
      rw [he]; norm_num
    have h3 : (Spec.chiLaw 2).real (Set.Ici (1024 / 729 : ℝ)) ≤
        (Spec.chiLaw 2).real (Set.Iic (1.39 : ℝ))ᶜ := by
      refine measureReal_mono fun x hx => ?_
      simp only [Set.mem_compl_iff, Set.mem_Iic, not_le]
      have : (1024 / 729 : ℝ) ≤ x := hx
      norm_num at *; linarith
    rw [probReal_compl_eq_one_sub measurableSet_Iic] at h3
    have h4 := hmed.2
    unfold Spec.cdf at h1 h2
    linarith
  · have hn : Exponential.new (1 / 2) = some ⟨1 / 2⟩ := by
      unfold Exponential.new; rw [if_pos (by norm_num)]
    have := (C62_centre (1 / 2) _ hn).1
    rw [chiLaw_eq (by norm_num), show ((2:ℕ):ℝ) / 2 = 1 by norm_num]
    have e : (⟨1 / 2⟩ : Exponential).median = 2 * log 2 := by unfold Exponential.median; ring
    rw [e] at this
    exact this

namespace ChiSquared

/-- From a state that keeps the argument positive, the loop halves the distance to the level
point. -/
theorem invLoop_spec {z : Bool} {k : ℕ} {d : ChiSquared} (h : ChiSquared.new k = some d) {p q : ℝ}
    (hq : 0 ≤ q) (hF : Spec.cdf (Spec.chiLaw k) q = p) (n : ℕ) :
    ∀ x delta, 2 * delta ≤ x → |x - q| ≤ 2 * delta → delta ≤ 1e-10 * 2 ^ n →
      ∀ fuel, n + 1 ≤ fuel → ∃ y, d.invLoop z p fuel x delta = .value y ∧ |y - q| ≤ 2e-10 := by
  obtain ⟨_, h2, _, _, hmono⟩ := C64_law z k d h
  induction n with
  | zero =>
    intro x delta _ hd hs fuel hf
    obtain ⟨f, rfl⟩ : ∃ f, fuel = f + 1 := ⟨fuel - 1, by omega⟩
    refine ⟨x, ?_, by norm_num at hs; linarith⟩
    unfold ChiSquared.invLoop
    rw [if_neg (by norm_num at hs ⊢; linarith)]
  | succ n ih =>
    intro x delta hx hd hs fuel hf
    obtain ⟨f, rfl⟩ : ∃ f, fuel = f + 1 := ⟨fuel - 1, by omega⟩
    by_cases hdel : 1e-10 < delta
    · have hdpos : (0:ℝ) < delta := lt_trans (by norm_num) hdel
      have hx0 : 0 < x := by linarith
      have hs' : delta * 0.5 ≤ 1e-10 * 2 ^ n := by
        rw [pow_succ] at hs; linarith
      rw [abs_le] at hd
      unfold ChiSquared.invLoop
      rw [if_pos hdel, (h2 x hx0).2]
      simp only
      split_ifs with hc
      · have hlt : x < q := by
          by_contra hn
          push Not at hn
          rcases eq_or_lt_of_le hn with he | he
          · rw [← he, hF] at hc; exact lt_irrefl _ hc
          · have := hmono q x hq he; linarith
        refine ih _ _ (by linarith) ?_ hs' f (by omega)
        rw [abs_le]; constructor <;> linarith
      · have hle : q ≤ x := by
          by_contra hn
          push Not at hn
          have := hmono x q hx0.le hn; linarith
        refine ih _ _ (by linarith) ?_ hs' f (by omega)
        rw [abs_le]; constructor <;> linarith
    · refine ⟨x, ?_, by norm_num at hdel ⊢; linarith⟩
      unfold ChiSquared.invLoop
      rw [if_neg hdel]

theorem exists_pow (k : ℝ) : ∃ n : ℕ, k ≤ 1e-10 * 2 ^ n := by
  obtain ⟨n, hn⟩ := pow_unbounded_of_one_lt (k * 1e10) (by norm_num : (1:ℝ) < 2)
  exact ⟨n, by norm_num at hn ⊢; linarith⟩

/-- When every point below `top` is under the level, the loop runs up to `top`. -/
theorem invLoop_up {z : Bool} {k : ℕ} {d : ChiSquared} (h : ChiSquared.new k = some d) {p top : ℝ}
    (hF : ∀ x, 0 < x → x < top → Spec.cdf (Spec.chiLaw k) x < p) (n : ℕ) :
    ∀ x delta, 0 < x → 0 < delta → x + 2 * delta = top → delta ≤ 1e-10 * 2 ^ n →
      ∀ fuel, n + 1 ≤ fuel → ∃ y, d.invLoop z p fuel x delta = .value y ∧ top - 2e-10 ≤ y ∧
        y < top := by
  obtain ⟨_, h2, _, _, hmono⟩ := C64_law z k d h
  induction n with
  | zero =>
    intro x delta _ hd0 hd hs fuel hf
    obtain ⟨f, rfl⟩ : ∃ f, fuel = f + 1 := ⟨fuel - 1, by omega⟩
    refine ⟨x, ?_, by norm_num at hs ⊢; linarith, by linarith⟩
    unfold ChiSquared.invLoop
    rw [if_neg (by norm_num at hs ⊢; linarith)]
  | succ n ih =>
    intro x delta hx0 hd0 hd hs fuel hf
    obtain ⟨f, rfl⟩ : ∃ f, fuel = f + 1 := ⟨fuel - 1, by omega⟩
    by_cases hdel : 1e-10 < delta
    · have hs' : delta * 0.5 ≤ 1e-10 * 2 ^ n := by
        rw [pow_succ] at hs; linarith
      unfold ChiSquared.invLoop
      rw [if_pos hdel, (h2 x hx0).2]
      simp only
      rw [if_pos (hF x hx0 (by linarith))]
      exact ih _ _ (by linarith) (by linarith) (by linarith) hs' f (by omega)
    · refine ⟨x, ?_, by norm_num at hdel ⊢; linarith, by linarith⟩
      unfold ChiSquared.invLoop
      rw [if_neg hdel]

end ChiSquared

/-- `inv_cdf` approaches the level point `q` to within `2e-10` when `q` is at most one and a half
times the degrees of freedom and, below half the degrees of freedom, when `cdf` accepts zero
(at least two degrees of freedom, and a library that accepts it). -/
theorem C64_quantile (z : Bool) (k : ℕ) (d : ChiSquared) (h : ChiSquared.new k = some d)
    (p q : ℝ) (hq : 0 < q) (hF : Spec.cdf (Spec.chiLaw k) q = p) (htop : q ≤ 3 / 2 * k)
    (hlow : (k : ℝ) / 2 < q ∨ (2 ≤ k ∧ z = true)) :
    ∃ n, ∀ fuel, n ≤ fuel → ∃ y, d.invCdf z p fuel = .value y ∧ |y - q| ≤ 2e-10 := by
  obtain ⟨_, h2, h3, h4, hmono⟩ := C64_law z k d h
  obtain ⟨n, hn⟩ := ChiSquared.exists_pow (0.5 * k)
  refine ⟨n + 3, fun fuel hf => ?_⟩
  obtain ⟨hk, rfl⟩ := ChiSquared.new_some h
  have hk1 : (1:ℝ) ≤ k := by exact_mod_cast hk
  have hp0 : 0 ≤ p := by rw [← hF]; exact measureReal_nonneg
  have hp1 : p ≤ 1 := by rw [← hF]; exact measureReal_le_one
  obtain ⟨f, rfl⟩ : ∃ f, fuel = f + 1 := ⟨fuel - 1, by omega⟩
  unfold ChiSquared.invCdf
  rw [if_pos ⟨hp0, hp1⟩]
  unfold ChiSquared.invLoop
  have hx0 : (0:ℝ) < 0.5 * k := by linarith
  rw [if_pos (by norm_num; linarith), (h2 _ hx0).2]
  simp only
  split_ifs with hc
  · have hlt : 0.5 * k < q := by
      by_contra hn'
      push Not at hn'
      rcases eq_or_lt_of_le hn' with he | he
      · rw [← he, hF] at hc; exact lt_irrefl _ hc
      · have := hmono q _ hq.le he; linarith
    refine ChiSquared.invLoop_spec h hq.le hF n _ _ (by linarith) ?_ (by linarith) f (by omega)
    rw [abs_le]; constructor <;> linarith
  · have hle : q ≤ 0.5 * k := by
      by_contra hn'
      push Not at hn'
      have := hmono _ q hx0.le hn'; linarith
    have hcase : 2 ≤ k ∧ z = true := by
      rcases hlow with h' | h'
      · exfalso; linarith
      · exact h'
    obtain ⟨g, rfl⟩ : ∃ g, f = g + 1 := ⟨f - 1, by omega⟩
    have hc0 : ChiSquared.cdf z ⟨k⟩ 0 = some 0 := by
      unfold ChiSquared.cdf ChiSquared.inDomain
      rw [if_pos ⟨by rw [if_neg (by simp only; omega)], fun _ => hcase.2⟩]
      simp [gammaLi_zero]
    have hp : 0 < p := by
      rw [← hF]
      have := hmono 0 q le_rfl hq
      exact lt_of_le_of_lt measureReal_nonneg this
    unfold ChiSquared.invLoop
    rw [sub_self, if_pos (by norm_num; linarith), hc0]
    simp only
    rw [if_pos hp]
    refine ChiSquared.invLoop_spec h hq.le hF n _ _ (by linarith) ?_ (by linarith) g (by omega)
    rw [abs_le]; constructor <;> linarith

/-- Defect: no level leads `inv_cdf` beyond one and a half times the degrees of freedom.  From the
probability of that point on, up to and including `1`, it answers with a number just below it, whose
distribution function is still under the level asked for. -/
theorem C64_quantile_capped (z : Bool) (k : ℕ) (d : ChiSquared) (h : ChiSquared.new k = some d)
    (p : ℝ) (hp1 : p ≤ 1) (hp : Spec.cdf (Spec.chiLaw k) (3 / 2 * k) ≤ p) :
    Spec.cdf (Spec.chiLaw k) (3 / 2 * k) < 1 ∧
    ∃ n, ∀ fuel, n ≤ fuel → ∃ y, d.invCdf z p fuel = .value y ∧ 3 / 2 * k - 2e-10 ≤ y ∧
      y < 3 / 2 * k ∧ Spec.cdf (Spec.chiLaw k) y < p := by
  obtain ⟨_, h2, h3, h4, hmono⟩ := C64_law z k d h
  obtain ⟨n, hn⟩ := ChiSquared.exists_pow (0.5 * k)
  obtain ⟨hk, rfl⟩ := ChiSquared.new_some h
  have hk1 : (1:ℝ) ≤ k := by exact_mod_cast hk
  refine ⟨lt_of_lt_of_le (hmono (3 / 2 * k) (3 / 2 * k + 1) (by linarith) (by linarith))
    measureReal_le_one, n + 3, fun fuel hf => ?_⟩
  have hF : ∀ x, 0 < x → x < 3 / 2 * (k : ℝ) → Spec.cdf (Spec.chiLaw k) x < p :=
    fun x hx hx' => lt_of_lt_of_le (hmono x _ hx.le hx') hp
  have hp0 : 0 ≤ p := le_trans measureReal_nonneg hp
  have hx0 : (0:ℝ) < 0.5 * k := by linarith
  unfold ChiSquared.invCdf
  rw [if_pos ⟨hp0, hp1⟩]
  obtain ⟨y, e1, e2, e3⟩ := ChiSquared.invLoop_up (z := z) h hF n (0.5 * k) (0.5 * k) hx0 hx0
    (by ring) hn fuel (by omega)
  refine ⟨y, e1, e2, e3, hF y ?_ e3⟩
  norm_num at e2 ⊢
  linarith

/-- Defect: `inv_cdf` panics for level zero, and for every level up to the probability of half the
degrees of freedom when `cdf` does not accept zero - always so for one degree of freedom. -/
theorem C64_quantile_panics (z : Bool) (k : ℕ) (d : ChiSquared) (h : ChiSquared.new k = some d)
    (p : ℝ) (hp0 : 0 ≤ p) (hp : p ≤ Spec.cdf (Spec.chiLaw k) (k / 2))
    (hcase : p = 0 ∨ k = 1 ∨ z = false) (fuel : ℕ) (hf : 3 ≤ fuel) :
    d.invCdf z p fuel = .panic := by
  obtain ⟨_, h2, h3, h4, hmono⟩ := C64_law z k d h
  obtain ⟨hk, rfl⟩ := ChiSquared.new_some h
  have hk1 : (1:ℝ) ≤ k := by exact_mod_cast hk
  have hp1 : p ≤ 1 := hp.trans measureReal_le_one
  obtain ⟨f, rfl⟩ : ∃ f, fuel = f + 3 := ⟨fuel - 3, by omega⟩
  have hx0 : (0:ℝ) < 0.5 * k := by linarith
  unfold ChiSquared.invCdf
  rw [if_pos ⟨hp0, hp1⟩]
  unfold ChiSquared.invLoop
  rw [if_pos (by norm_num; linarith), (h2 _ hx0).2]
  simp only
  rw [if_neg (by rw [not_lt, show (0.5 * k : ℝ) = k / 2 by ring]; exact hp), sub_self]
  unfold ChiSquared.invLoop
  rw [if_pos (by norm_num; linarith)]
  cases hc : ChiSquared.cdf z ⟨k⟩ 0 with
  | none => rfl
  | some c =>
    have := h4 c hc
    subst this
    simp only
    rcases hcase with h' | h' | h'
    · subst h'
      rw [if_neg (lt_irrefl _)]
      unfold ChiSquared.invLoop
      rw [if_pos (by norm_num; linarith), (h3 _ (by linarith)).2.1]
    · exfalso
      unfold ChiSquared.cdf ChiSquared.inDomain at hc
      simp [h'] at hc
    · exfalso
      unfold ChiSquared.cdf at hc
      simp [h'] at hc

/-- Defect: `sample` cuts every draw down to its integer part: the expectation of what a draw
becomes is strictly below `mean()`. -/
theorem C64_sample_truncated (k : ℕ) (d : ChiSquared) (h : ChiSquared.new k = some d) :
    (∀ draws x, x ∈ d.sample draws → ∃ n : ℕ, x = n) ∧
    (∀ x, d.sample [x] = [asUsize x]) ∧
    ∫ x, asUsize x ∂Spec.chiLaw k < d.mean := by
  obtain ⟨hk, rfl⟩ := ChiSquared.new_some h
  have ha : (0:ℝ) < k / 2 := by positivity
  have hb : (0:ℝ) < 1 / 2 := by norm_num
  have hn : GammaDist.new (k / 2) (1 / 2) = some ⟨k / 2, 1 / 2⟩ := by
    unfold GammaDist.new; rw [if_pos ⟨ha, hb⟩]
  obtain ⟨e1, e2, e3⟩ := C63_sample_truncated _ _ _ hn
  refine ⟨e1, e2, ?_⟩
  rw [chiLaw_eq hk]
  refine lt_of_lt_of_eq e3 ?_
  unfold GammaDist.mean ChiSquared.mean
  ring

/-- A concrete instance: three degrees of freedom; the level of the point 3 meets the hypotheses of
`C64_quantile`, the level 1 those of `C64_quantile_capped`; one degree of freedom and the level of
the point 1/4 meet those of `C64_quantile_panics`. -/
example : ∃ d, ChiSquared.new 3 = some d ∧ d.mean = 3 ∧ d.mode = 1 ∧
    (∃ n, ∀ fuel, n ≤ fuel → ∃ y, d.invCdf false (Spec.cdf (Spec.chiLaw 3) 3) fuel = .value y ∧
      |y - 3| ≤ 2e-10) ∧
    (∃ n, ∀ fuel, n ≤ fuel → ∃ y, d.invCdf false 1 fuel = .value y ∧ y < 4.5) ∧
    ∃ e, ChiSquared.new 1 = some e ∧
      e.invCdf true (Spec.cdf (Spec.chiLaw 1) (1 / 4)) 5 = .panic := by
  have hn : ChiSquared.new 3 = some ⟨3⟩ := by simp [ChiSquared.new]
  have hn1 : ChiSquared.new 1 = some ⟨1⟩ := by simp [ChiSquared.new]
  refine ⟨⟨3⟩, hn, by simp [ChiSquared.mean], by norm_num [ChiSquared.mode],
    C64_quantile false 3 _ hn _ 3 (by norm_num) rfl (by norm_num) (Or.inl (by norm_num)), ?_,
    ⟨1⟩, hn1, ?_⟩
  · obtain ⟨_, n, hh⟩ := C64_quantile_capped false 3 _ hn 1 le_rfl measureReal_le_one
    refine ⟨n, fun fuel hf => ?_⟩
    obtain ⟨y, e1, _, e2, _⟩ := hh fuel hf
    exact ⟨y, e1, by norm_num at e2 ⊢; linarith⟩
  · refine C64_quantile_panics true 1 _ hn1 _ measureReal_nonneg ?_ (Or.inr (Or.inl rfl)) 5
      (by norm_num)
    exact measureReal_mono fun x hx => by
      have : x ≤ 1 / 4 := hx
      simp only [Set.mem_Iic]; norm_num; linarith

end Verif.Distributions
