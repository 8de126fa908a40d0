import Verif.Options.Sabr
import Mathlib.Analysis.SpecialFunctions.Arsinh
import Mathlib.Analysis.SpecialFunctions.Pow.Continuity
import Mathlib.Analysis.Convex.Deriv
import Mathlib.Analysis.Convex.Slope

/-!
# C60: the SABR volatility

The specification is Hagan's formula (Hagan, Kumar, Lesniewski, Woodward 2002, equation 2.17), which the code documents as
its model.
-/

namespace Verif.Options.Sabr02

open Real Filter Topology Verif.Options.Sabr

/-! ## Specification -/

/-- Hagan's expansion in the time to expiry, with `p = (f k)^((1 - β)/2)`. -/
noncomputable def timeFactor (p t alpha beta rho nu : ℝ) : ℝ :=
  1 + ((1 - beta) ^ 2 / 24 * alpha ^ 2 / p ^ 2 + 1 / 4 * (rho * beta * nu * alpha) / p
    + (2 - 3 * rho ^ 2) / 24 * nu ^ 2) * t

/-- Hagan's formula away from the money. -/
noncomputable def hagan (f k t alpha beta rho nu : ℝ) : ℝ :=
  let p := (f * k) ^ ((1 - beta) / 2)
  let zeta := nu / alpha * p * log (f / k)
  let x := log ((√(1 - 2 * rho * zeta + zeta ^ 2) + zeta - rho) / (1 - rho))
  alpha / (p * (1 + (1 - beta) ^ 2 / 24 * log (f / k) ^ 2 + (1 - beta) ^ 4 / 1920 * log (f / k) ^ 4))
    * (zeta / x) * timeFactor p t alpha beta rho nu

/-- Hagan's formula at the money. -/
noncomputable def haganAtm (f t alpha beta rho nu : ℝ) : ℝ :=
  alpha / f ^ (1 - beta) * timeFactor (f ^ (1 - beta)) t alpha beta rho nu

/-- The scaled log-moneyness the code computes. -/
noncomputable def moneyness (m : Sabr02) (k : ℝ) : ℝ := log (m.f / k) * (m.f * k) ^ ((1 - m.beta) / 2)

/-- The models and strikes the formula is for. -/
structure Admissible (m : Sabr02) : Prop where
  f_pos : 0 < m.f
  alpha_pos : 0 < m.alpha
  rho_gt : -1 < m.rho
  rho_lt : m.rho < 1

/-! ## Helpers -/

theorem fkPower_pos {f k beta : ℝ} (hf : 0 < f) (hk : 0 < k) : 0 < fkPower f k beta :=
  rpow_pos_of_pos (mul_pos hf hk) _

theorem denominator_pos {f k beta : ℝ} (hf : 0 < f) (hk : 0 < k) : 0 < denominator f k beta := by
  have := fkPower_pos (beta := beta) hf hk
  have h4 : (1 - beta) ^ 4 * log (f / k) ^ 4 = ((1 - beta) ^ 2 * log (f / k) ^ 2) ^ 2 := by ring
  unfold denominator
  rw [h4]
  positivity

theorem numerator_eq (f k t alpha beta rho nu : ℝ) :
    numerator f k t alpha beta rho nu = alpha * timeFactor (fkPower f k beta) t alpha beta rho nu := by
  unfold numerator timeFactor
  simp only [div_eq_mul_inv, mul_inv]
  ring

theorem root_pos {rho : ℝ} (h1 : -1 < rho) (h2 : rho < 1) (z : ℝ) :
    0 < √(1 - 2 * rho * z + z ^ 2) + z - rho := by
  have : |z - rho| < √(1 - 2 * rho * z + z ^ 2) := by
    apply Real.lt_sqrt_of_sq_lt
    rw [sq_abs]
    nlinarith
  have := neg_abs_le (z - rho)
  linarith

theorem one_lt_root_iff {rho : ℝ} (h1 : -1 < rho) (h2 : rho < 1) (z : ℝ) :
    1 < √(1 - 2 * rho * z + z ^ 2) + z - rho ↔ rho + rho ^ 2 / 2 < z := by
  constructor
  · intro h
    by_contra hz
    push Not at hz
    have : √(1 - 2 * rho * z + z ^ 2) ≤ 1 + rho - z := by
      apply Real.sqrt_le_iff.2
      constructor <;> nlinarith
    linarith
  · intro h
    have : 1 + rho - z < √(1 - 2 * rho * z + z ^ 2) := by
      apply Real.lt_sqrt_of_sq_lt
      nlinarith
    linarith

theorem root_lt_one_iff {rho : ℝ} (h1 : -1 < rho) (h2 : rho < 1) (z : ℝ) :
    √(1 - 2 * rho * z + z ^ 2) + z - rho < 1 ↔ z < rho + rho ^ 2 / 2 := by
  constructor
  · intro h
    by_contra hz
    push Not at hz
    have : 1 + rho - z ≤ √(1 - 2 * rho * z + z ^ 2) := by
      apply Real.le_sqrt_of_sq_le
      nlinarith
    linarith
  · intro h
    have : √(1 - 2 * rho * z + z ^ 2) < 1 + rho - z := by
      rw [Real.sqrt_lt' (by nlinarith)]
      nlinarith
    linarith

theorem chi_pos_iff {f k beta rho : ℝ} (h1 : -1 < rho) (h2 : rho < 1) :
    0 < chi f k beta rho ↔ rho + rho ^ 2 / 2 < z f k beta := by
  unfold chi
  rw [← one_lt_root_iff h1 h2, div_pos_iff_of_pos_right (by linarith), Real.log_pos_iff (root_pos h1 h2 _).le]

theorem chi_neg_iff {f k beta rho : ℝ} (h1 : -1 < rho) (h2 : rho < 1) :
    chi f k beta rho < 0 ↔ z f k beta < rho + rho ^ 2 / 2 := by
  unfold chi
  rw [← root_lt_one_iff h1 h2, div_neg_iff]
  have hr := root_pos h1 h2 (z f k beta)
  constructor
  · rintro (⟨-, h⟩ | ⟨h, -⟩)
    · linarith
    · rwa [Real.log_neg_iff hr] at h
  · intro h
    exact .inr ⟨(Real.log_neg_iff hr).2 h, by linarith⟩

theorem chi_zero_iff {f k beta rho : ℝ} (h1 : -1 < rho) (h2 : rho < 1) :
    chi f k beta rho = 0 ↔ z f k beta = rho + rho ^ 2 / 2 := by
  constructor
  · intro h
    have a := (chi_pos_iff (f := f) (k := k) (beta := beta) h1 h2).not.1 (by rw [h]; exact lt_irrefl _)
    have b := (chi_neg_iff (f := f) (k := k) (beta := beta) h1 h2).not.1 (by rw [h]; exact lt_irrefl _)
    push Not at a b
    exact le_antisymm a b
  · intro h
    have a := (chi_pos_iff (f := f) (k := k) (beta := beta) h1 h2).not.2 (by rw [h]; exact lt_irrefl _)
    have b := (chi_neg_iff (f := f) (k := k) (beta := beta) h1 h2).not.2 (by rw [h]; exact lt_irrefl _)
    push Not at a b
    exact le_antisymm a b

theorem chi_rho_zero (f k beta : ℝ) : chi f k beta 0 = arsinh (z f k beta) := by
  simp [chi, arsinh, add_comm]

theorem vol_eq (f k t alpha beta rho nu : ℝ) (h : chi f k beta rho ≠ 0) :
    sabrVolatility f k t alpha beta rho nu =
      some (z f k beta / chi f k beta rho * numerator f k t alpha beta rho nu / denominator f k beta) := by
  simp [sabrVolatility, coefficient, h]

theorem log_div_ne_zero {f k : ℝ} (hf : 0 < f) (hk : 0 < k) (h : k ≠ f) : log (f / k) ≠ 0 := by
  rw [log_div hf.ne' hk.ne', sub_ne_zero]
  exact fun e => h (log_injOn_pos hf hk e).symm

theorem z_ne_zero {f k beta : ℝ} (hf : 0 < f) (hk : 0 < k) (h : k ≠ f) : z f k beta ≠ 0 :=
  mul_ne_zero (log_div_ne_zero hf hk h) (fkPower_pos hf hk).ne'

theorem fkPower_self {f : ℝ} (hf : 0 < f) (beta : ℝ) : fkPower f f beta = f ^ (1 - beta) := by
  unfold fkPower
  rw [mul_rpow hf.le hf.le, ← rpow_add hf]
  congr 1; ring

theorem continuousAt_fkPower {f : ℝ} (hf : 0 < f) (beta : ℝ) : ContinuousAt (fun k => fkPower f k beta) f := by
  unfold fkPower
  exact (continuousAt_const.mul continuousAt_id).rpow_const (.inl (mul_pos hf hf).ne')

theorem continuousAt_log {f : ℝ} (hf : 0 < f) : ContinuousAt (fun k => log (f / k)) f :=
  (continuousAt_const.div continuousAt_id hf.ne').log (by simp [hf.ne'])

theorem continuousAt_z {f : ℝ} (hf : 0 < f) (beta : ℝ) : ContinuousAt (fun k => z f k beta) f :=
  (continuousAt_log hf).mul (continuousAt_fkPower hf beta)

theorem z_self {f : ℝ} (hf : 0 < f) (beta : ℝ) : z f f beta = 0 := by simp [z, hf.ne']

theorem continuousAt_numerator {f : ℝ} (hf : 0 < f) (t alpha beta rho nu : ℝ) :
    ContinuousAt (fun k => numerator f k t alpha beta rho nu) f := by
  have hp := continuousAt_fkPower hf beta
  have h0 := (fkPower_pos (beta := beta) hf hf).ne'
  simp only [numerator_eq, timeFactor]
  have h2 : fkPower f f beta ^ 2 ≠ 0 := pow_ne_zero 2 h0
  fun_prop (disch := assumption)

theorem continuousAt_denominator {f : ℝ} (hf : 0 < f) (beta : ℝ) :
    ContinuousAt (fun k => denominator f k beta) f := by
  have hp := continuousAt_fkPower hf beta
  have hl := continuousAt_log hf
  unfold denominator
  exact hp.mul ((continuousAt_const.add (((hl.pow 2).const_mul _).div_const _)).add
    (((hl.pow 4).const_mul _).div_const _))

theorem denominator_self {f : ℝ} (hf : 0 < f) (beta : ℝ) : denominator f f beta = f ^ (1 - beta) := by
  simp [denominator, hf.ne', fkPower_self hf]

theorem continuousAt_chi {f rho : ℝ} (hf : 0 < f) (h1 : -1 < rho) (h2 : rho < 1) (beta : ℝ) :
    ContinuousAt (fun k => chi f k beta rho) f := by
  have hz := continuousAt_z hf beta
  have hs : ContinuousAt (fun k => 1 - 2 * rho * z f k beta + z f k beta ^ 2) f :=
    (continuousAt_const.sub (hz.const_mul (2 * rho))).add (hz.pow 2)
  have h : ContinuousAt (fun k => √(1 - 2 * rho * z f k beta + z f k beta ^ 2) + z f k beta - rho) f :=
    (hs.sqrt.add hz).sub continuousAt_const
  have h0 : √(1 - 2 * rho * z f f beta + z f f beta ^ 2) + z f f beta - rho ≠ 0 :=
    (root_pos h1 h2 (z f f beta)).ne'
  exact (ContinuousAt.log h h0).div_const (1 - rho)

theorem z_pos_iff {f k beta : ℝ} (hf : 0 < f) (hk : 0 < k) : 0 < z f k beta ↔ k < f := by
  unfold z
  rw [mul_pos_iff_of_pos_right (fkPower_pos hf hk), log_pos_iff (div_pos hf hk).le, one_lt_div hk]

theorem mul_neg_iff_right {a b : ℝ} (hb : 0 < b) : a * b < 0 ↔ a < 0 := by
  constructor
  · intro h; by_contra ha; push Not at ha; nlinarith
  · intro h; nlinarith

theorem z_neg_iff {f k beta : ℝ} (hf : 0 < f) (hk : 0 < k) : z f k beta < 0 ↔ f < k := by
  unfold z
  rw [mul_neg_iff_right (fkPower_pos hf hk), log_neg_iff (div_pos hf hk), div_lt_one hk]

theorem arsinh_ratio_tendsto : Tendsto (fun x => x / arsinh x) (𝓝[≠] 0) (𝓝 1) := by
  have h := (hasDerivAt_arsinh 0).tendsto_slope
  simp only [slope_fun_def_field, arsinh_zero, sub_zero] at h
  have h' := h.inv₀ (by simp)
  simpa using h'

theorem arsinh_ratio_strictMono : StrictMonoOn (fun x => x / arsinh x) (Set.Ioi 0) := by
  have hc : StrictConcaveOn ℝ (Set.Ici 0) arsinh := by
    refine StrictAntiOn.strictConcaveOn_of_deriv (convex_Ici 0) continuous_arsinh.continuousOn ?_
    intro a ha b hb hab
    rw [interior_Ici] at ha hb
    have ha' : (0:ℝ) < a := ha
    rw [(hasDerivAt_arsinh a).deriv, (hasDerivAt_arsinh b).deriv]
    apply inv_strictAnti₀ (by positivity)
    apply Real.sqrt_lt_sqrt (by positivity)
    nlinarith
  intro a ha b hb hab
  have ha' : (0:ℝ) < a := ha
  have hb' : (0:ℝ) < b := hb
  have := hc.neg.secant_strict_mono (a := 0) (x := a) (y := b) (by simp) ha'.le hb'.le ha'.ne' hb'.ne' hab
  simp only [Pi.neg_apply, arsinh_zero, sub_zero, neg_zero] at this
  have hA := arsinh_pos_iff.2 ha'
  have hB := arsinh_pos_iff.2 hb'
  rw [div_lt_div_iff₀ ha' hb'] at this
  show a / arsinh a < b / arsinh b
  rw [div_lt_div_iff₀ hA hB]
  nlinarith

/-! ## Theorems -/

/-- **C60.** With zero correlation and the volatility of volatility equal to `α`, the volatility away from the money is
Hagan's formula. -/
theorem C60_hagan (m : Sabr02) (hm : m.Admissible) (h0 : m.rho = 0) (hnu : m.nu = m.alpha) (k t : ℝ) (hk : 0 < k)
    (hkf : k ≠ m.f) :
    m.volatility k t = some (hagan m.f k t m.alpha m.beta m.rho m.nu) := by
  have hp := fkPower_pos (beta := m.beta) hm.f_pos hk
  have hz := z_ne_zero (beta := m.beta) hm.f_pos hk hkf
  have hc : chi m.f k m.beta m.rho ≠ 0 := by
    rw [h0, chi_rho_zero, Ne, arsinh_eq_zero_iff]; exact hz
  rw [volatility, vol_eq _ _ _ _ _ _ _ hc]
  have ha := hm.alpha_pos.ne'
  have e : m.nu / m.alpha * (m.f * k) ^ ((1 - m.beta) / 2) * log (m.f / k) = z m.f k m.beta := by
    rw [hnu, div_self ha, one_mul]; exact mul_comm _ _
  simp only [hagan, e, numerator_eq]
  rw [h0, chi_rho_zero]
  congr 1
  have e2 : log ((√(1 - 2 * 0 * z m.f k m.beta + z m.f k m.beta ^ 2) + z m.f k m.beta - 0) / (1 - 0)) =
      arsinh (z m.f k m.beta) := by simp [arsinh, add_comm]
  rw [e2]
  have e3 : denominator m.f k m.beta = (m.f * k) ^ ((1 - m.beta) / 2) *
      (1 + (1 - m.beta) ^ 2 / 24 * log (m.f / k) ^ 2 + (1 - m.beta) ^ 4 / 1920 * log (m.f / k) ^ 4) := by
    unfold denominator fkPower; ring
  rw [e3]
  unfold fkPower
  ring

/-- **C60, defect.** In general the formula replaces Hagan's `ζ = (ν/α) (fk)^{(1-β)/2} ln(f/k)` by the same without `ν/α`
and divides outside the logarithm: at expiry the volatility does not depend on the volatility of volatility, whereas
(with zero correlation) Hagan's strictly increases with it. -/
theorem C60_no_smile (m : Sabr02) (hm : m.Admissible) (k : ℝ) (hk : 0 < k) (hkf : k < m.f) (nu : ℝ) (hn : 0 < m.nu)
    (hlt : m.nu < nu) :
    ({ m with nu := nu } : Sabr02).volatility k 0 = m.volatility k 0 ∧
    hagan m.f k 0 m.alpha m.beta 0 m.nu < hagan m.f k 0 m.alpha m.beta 0 nu := by
  constructor
  · simp only [volatility, sabrVolatility, numerator_eq, timeFactor, mul_zero]
  · have hp := fkPower_pos (beta := m.beta) hm.f_pos hk
    have hl : 0 < log (m.f / k) := log_pos ((one_lt_div hk).2 hkf)
    have ha := hm.alpha_pos
    have hd := denominator_pos (beta := m.beta) hm.f_pos hk
    have e2 : ∀ x : ℝ, log ((√(1 - 2 * 0 * x + x ^ 2) + x - 0) / (1 - 0)) = arsinh x := by
      intro x; simp [arsinh, add_comm]
    simp only [hagan, e2]
    simp only [timeFactor, mul_zero, add_zero, mul_one]
    have e3 : (m.f * k) ^ ((1 - m.beta) / 2) *
        (1 + (1 - m.beta) ^ 2 / 24 * log (m.f / k) ^ 2 + (1 - m.beta) ^ 4 / 1920 * log (m.f / k) ^ 4) =
        denominator m.f k m.beta := by
      unfold denominator fkPower; ring
    rw [e3]
    apply mul_lt_mul_of_pos_left _ (by positivity)
    have hp' : 0 < (m.f * k) ^ ((1 - m.beta) / 2) := hp
    apply arsinh_ratio_strictMono
    · exact Set.mem_Ioi.2 (by positivity)
    · have : 0 < nu := hn.trans hlt
      exact Set.mem_Ioi.2 (by positivity)
    · gcongr

/-- **C60, defect.** At the money the volatility is zero, or NaN if the correlation is zero; Hagan's value is positive at
expiry. -/
theorem C60_at_the_money (m : Sabr02) (hm : m.Admissible) (t : ℝ) :
    m.volatility m.f t = (if m.rho = 0 then none else some 0) ∧
    0 < haganAtm m.f 0 m.alpha m.beta m.rho m.nu := by
  constructor
  · have hz := z_self hm.f_pos m.beta
    by_cases h : m.rho = 0
    · have : chi m.f m.f m.beta m.rho = 0 := by rw [h, chi_rho_zero, hz, arsinh_zero]
      rw [if_pos h]
      simp [volatility, sabrVolatility, coefficient, this]
    · have : chi m.f m.f m.beta m.rho ≠ 0 := by
        rw [Ne, chi_zero_iff hm.rho_gt hm.rho_lt, hz]
        intro e
        have : m.rho * (1 + m.rho / 2) = 0 := by linarith
        rcases mul_eq_zero.1 this with h' | h'
        · exact h h'
        · have := hm.rho_gt; linarith
      simp [volatility, vol_eq _ _ _ _ _ _ _ this, hz, h]
  · have := hm.alpha_pos
    have := rpow_pos_of_pos hm.f_pos (1 - m.beta)
    simp only [haganAtm, timeFactor, mul_zero, add_zero, mul_one]
    positivity

/-- **C60.** With zero correlation the volatility tends to Hagan's at-the-money value as the strike approaches the forward;
with any other correlation it tends to zero (defect). -/
theorem C60_near_the_money (m : Sabr02) (hm : m.Admissible) (t : ℝ) :
    ∃ v : ℝ → ℝ, (∀ᶠ k in 𝓝[≠] m.f, m.volatility k t = some (v k)) ∧
      Tendsto v (𝓝[≠] m.f) (𝓝 (if m.rho = 0 then haganAtm m.f t m.alpha m.beta m.rho m.nu else 0)) := by
  have hf := hm.f_pos
  have hkpos : ∀ᶠ k in 𝓝[≠] m.f, 0 < k := nhdsWithin_le_nhds (lt_mem_nhds hf)
  have hd := continuousAt_denominator hf m.beta
  have hn := continuousAt_numerator hf t m.alpha m.beta m.rho m.nu
  have hd0 := (denominator_pos (beta := m.beta) hf hf).ne'
  refine ⟨fun k => z m.f k m.beta / chi m.f k m.beta m.rho * numerator m.f k t m.alpha m.beta m.rho m.nu /
    denominator m.f k m.beta, ?_, ?_⟩
  · by_cases h : m.rho = 0
    · filter_upwards [hkpos, self_mem_nhdsWithin] with k hk hne
      refine vol_eq _ _ _ _ _ _ _ ?_
      rw [h, chi_rho_zero, Ne, arsinh_eq_zero_iff]
      exact z_ne_zero hf hk hne
    · have hc := continuousAt_chi hf hm.rho_gt hm.rho_lt m.beta
      have : chi m.f m.f m.beta m.rho ≠ 0 := by
        rw [Ne, chi_zero_iff hm.rho_gt hm.rho_lt, z_self hf]
        intro e
        have : m.rho * (1 + m.rho / 2) = 0 := by linarith
        rcases mul_eq_zero.1 this with h' | h'
        · exact h h'
        · have := hm.rho_gt; linarith
      filter_upwards [nhdsWithin_le_nhds (hc.eventually_ne this)] with k hk
      exact vol_eq _ _ _ _ _ _ _ hk
  · by_cases h : m.rho = 0
    · rw [if_pos h]
      have hz : Tendsto (fun k => z m.f k m.beta) (𝓝[≠] m.f) (𝓝[≠] 0) := by
        apply tendsto_nhdsWithin_of_tendsto_nhds_of_eventually_within
        · have := (continuousAt_z hf m.beta).tendsto
          rw [z_self hf] at this
          exact this.mono_left nhdsWithin_le_nhds
        · filter_upwards [hkpos, self_mem_nhdsWithin] with k hk hne
          exact z_ne_zero hf hk hne
      have h1 := arsinh_ratio_tendsto.comp hz
      have h2 := ((h1.mul (hn.tendsto.mono_left nhdsWithin_le_nhds)).div
        (hd.tendsto.mono_left nhdsWithin_le_nhds) hd0)
      have e : 1 * numerator m.f m.f t m.alpha m.beta m.rho m.nu / denominator m.f m.f m.beta =
          haganAtm m.f t m.alpha m.beta m.rho m.nu := by
        rw [numerator_eq, denominator_self hf, fkPower_self hf, haganAtm]; ring
      rw [e] at h2
      refine h2.congr' ?_
      filter_upwards with k
      simp [h, chi_rho_zero]
    · rw [if_neg h]
      have hc := continuousAt_chi hf hm.rho_gt hm.rho_lt m.beta
      have h0 : chi m.f m.f m.beta m.rho ≠ 0 := by
        rw [Ne, chi_zero_iff hm.rho_gt hm.rho_lt, z_self hf]
        intro e
        have : m.rho * (1 + m.rho / 2) = 0 := by linarith
        rcases mul_eq_zero.1 this with h' | h'
        · exact h h'
        · have := hm.rho_gt; linarith
      have h1 := ((((continuousAt_z hf m.beta).div hc h0).mul hn).div hd hd0).tendsto
      simp only [Pi.div_apply, Pi.mul_apply, z_self hf, zero_div, zero_mul] at h1
      exact h1.mono_left nhdsWithin_le_nhds

/-- **C60, defect.** The volatility is not a finite number exactly at the strikes whose moneyness is `ρ + ρ²/2`. For `β = 1`
this is the strike `f e^{-(ρ + ρ²/2)}`. -/
theorem C60_pole (m : Sabr02) (hm : m.Admissible) (k t : ℝ) :
    (m.volatility k t = none ↔ m.moneyness k = m.rho + m.rho ^ 2 / 2) ∧
    (m.beta = 1 → m.volatility (m.f * exp (-(m.rho + m.rho ^ 2 / 2))) t = none) := by
  have key : ∀ k, m.volatility k t = none ↔ m.moneyness k = m.rho + m.rho ^ 2 / 2 := by
    intro k
    simp only [volatility, sabrVolatility, coefficient, Option.map_eq_none_iff]
    rw [show m.moneyness k = z m.f k m.beta from rfl, ← chi_zero_iff hm.rho_gt hm.rho_lt]
    split <;> simp [*]
  refine ⟨key k, fun hb => ?_⟩
  rw [key]
  have hf := hm.f_pos.ne'
  simp only [moneyness, hb, sub_self, zero_div, rpow_zero, mul_one]
  rw [show m.f / (m.f * exp (-(m.rho + m.rho ^ 2 / 2))) = exp (m.rho + m.rho ^ 2 / 2) by
    rw [exp_neg]; field_simp, log_exp]

/-- **C60, defect.** Whenever Hagan's time factor is positive, the volatility is negative exactly between the money and the
pole, and positive elsewhere. -/
theorem C60_sign (m : Sabr02) (hm : m.Admissible) (k t v : ℝ) (hk : 0 < k) (hkf : k ≠ m.f)
    (ht : 0 < timeFactor ((m.f * k) ^ ((1 - m.beta) / 2)) t m.alpha m.beta m.rho m.nu)
    (hv : m.volatility k t = some v) :
    (v < 0 ↔ (0 < m.moneyness k ∧ m.moneyness k < m.rho + m.rho ^ 2 / 2) ∨
      (m.rho + m.rho ^ 2 / 2 < m.moneyness k ∧ m.moneyness k < 0)) ∧ v ≠ 0 := by
  have hc : chi m.f k m.beta m.rho ≠ 0 := by
    intro e
    simp [volatility, sabrVolatility, coefficient, e] at hv
  rw [volatility, vol_eq _ _ _ _ _ _ _ hc, Option.some_inj] at hv
  have hn : 0 < numerator m.f k t m.alpha m.beta m.rho m.nu := by
    rw [numerator_eq]; exact mul_pos hm.alpha_pos ht
  have hd := denominator_pos (beta := m.beta) hm.f_pos hk
  have hz := z_ne_zero (beta := m.beta) hm.f_pos hk hkf
  have hp := chi_pos_iff (f := m.f) (k := k) (beta := m.beta) hm.rho_gt hm.rho_lt
  have hq := chi_neg_iff (f := m.f) (k := k) (beta := m.beta) hm.rho_gt hm.rho_lt
  have hz' : m.moneyness k = z m.f k m.beta := rfl
  rw [hz', ← hp, ← hq, ← hv]
  constructor
  · rw [mul_div_assoc, mul_neg_iff_right (div_pos hn hd), div_neg_iff, and_comm (a := 0 < chi _ _ _ _)]
  · exact div_ne_zero (mul_ne_zero (div_ne_zero hz hc) hn.ne') hd.ne'

/-- **C60, defect.** With a non-zero correlation, at strikes close enough to the forward (below it for a positive
correlation, above it for a negative one) the volatility at expiry is negative, and so it is for any later time for which
Hagan's at-the-money volatility is positive. -/
theorem C60_negative (m : Sabr02) (hm : m.Admissible) (h0 : m.rho ≠ 0) (t : ℝ)
    (ht : 0 < haganAtm m.f t m.alpha m.beta m.rho m.nu) :
    ∀ᶠ k in (if 0 < m.rho then 𝓝[<] m.f else 𝓝[>] m.f), ∃ v, m.volatility k t = some v ∧ v < 0 := by
  have hf := hm.f_pos
  have hrho : (0 < m.rho → 0 < m.rho + m.rho ^ 2 / 2) ∧ (¬ 0 < m.rho → m.rho + m.rho ^ 2 / 2 < 0) := by
    have := hm.rho_gt
    constructor
    · intro h; positivity
    · intro h
      have : m.rho < 0 := lt_of_le_of_ne (not_lt.1 h) h0
      nlinarith
  have hn : 0 < numerator m.f m.f t m.alpha m.beta m.rho m.nu := by
    rw [haganAtm, div_mul_eq_mul_div] at ht
    have := (div_pos_iff_of_pos_right (rpow_pos_of_pos hf (1 - m.beta))).1 ht
    rw [numerator_eq, fkPower_self hf]
    exact this
  have en : ∀ᶠ k in 𝓝 m.f, 0 < numerator m.f k t m.alpha m.beta m.rho m.nu :=
    (continuousAt_numerator hf t m.alpha m.beta m.rho m.nu).eventually (lt_mem_nhds hn)
  have ek : ∀ᶠ k in 𝓝 m.f, 0 < k := lt_mem_nhds hf
  have hz := (continuousAt_z hf m.beta)
  have fin : ∀ k, 0 < k → 0 < numerator m.f k t m.alpha m.beta m.rho m.nu →
      ((0 < z m.f k m.beta ∧ z m.f k m.beta < m.rho + m.rho ^ 2 / 2) ∨
      (m.rho + m.rho ^ 2 / 2 < z m.f k m.beta ∧ z m.f k m.beta < 0)) →
      ∃ v, m.volatility k t = some v ∧ v < 0 := by
    intro k hk hn h
    have hd := denominator_pos (beta := m.beta) hf hk
    have hc : chi m.f k m.beta m.rho ≠ 0 := by
      rw [Ne, chi_zero_iff hm.rho_gt hm.rho_lt]
      rcases h with h | h
      · exact h.2.ne
      · exact h.1.ne'
    refine ⟨_, vol_eq _ _ _ _ _ _ _ hc, ?_⟩
    rw [mul_div_assoc, mul_neg_iff_right (div_pos hn hd), div_neg_iff]
    rcases h with h | h
    · exact .inl ⟨h.1, (chi_neg_iff hm.rho_gt hm.rho_lt).2 h.2⟩
    · exact .inr ⟨h.2, (chi_pos_iff hm.rho_gt hm.rho_lt).2 h.1⟩
  split_ifs with hr
  · have e1 : ∀ᶠ k in 𝓝 m.f, z m.f k m.beta < m.rho + m.rho ^ 2 / 2 :=
      hz.eventually (gt_mem_nhds (by simpa [z_self hf] using hrho.1 hr))
    filter_upwards [nhdsWithin_le_nhds en, nhdsWithin_le_nhds ek, nhdsWithin_le_nhds e1, self_mem_nhdsWithin]
      with k a b c d
    exact fin k b a (.inl ⟨(z_pos_iff hf b).2 d, c⟩)
  · have e1 : ∀ᶠ k in 𝓝 m.f, m.rho + m.rho ^ 2 / 2 < z m.f k m.beta :=
      hz.eventually (lt_mem_nhds (by simpa [z_self hf] using hrho.2 hr))
    filter_upwards [nhdsWithin_le_nhds en, nhdsWithin_le_nhds ek, nhdsWithin_le_nhds e1, self_mem_nhdsWithin]
      with k a b c d
    exact fin k b a (.inr ⟨c, (z_neg_iff hf b).2 d⟩)

/-- **C60.** With zero correlation the volatility away from the money is positive for every non-negative time, and exchanging
forward and strike does not change it. -/
theorem C60_zero_correlation (m : Sabr02) (hm : m.Admissible) (h0 : m.rho = 0) (k t : ℝ) (hk : 0 < k) (hkf : k ≠ m.f)
    (ht : 0 ≤ t) :
    (∃ v, m.volatility k t = some v ∧ 0 < v) ∧
    ({ m with f := k } : Sabr02).volatility m.f t = m.volatility k t := by
  have hf := hm.f_pos
  have hz := z_ne_zero (beta := m.beta) hf hk hkf
  have hd := denominator_pos (beta := m.beta) hf hk
  have hp := fkPower_pos (beta := m.beta) hf hk
  have ha := hm.alpha_pos
  have hc : chi m.f k m.beta m.rho ≠ 0 := by rw [h0, chi_rho_zero, Ne, arsinh_eq_zero_iff]; exact hz
  constructor
  · refine ⟨_, vol_eq _ _ _ _ _ _ _ hc, ?_⟩
    have hn : 0 < numerator m.f k t m.alpha m.beta m.rho m.nu := by
      rw [numerator_eq, h0]
      unfold timeFactor
      norm_num
      positivity
    rw [mul_div_assoc, h0, chi_rho_zero]
    refine mul_pos ?_ (by rw [h0] at hn; positivity)
    rcases lt_or_gt_of_ne hz with h | h
    · exact div_pos_of_neg_of_neg h (arsinh_neg_iff.2 h)
    · exact div_pos h (arsinh_pos_iff.2 h)
  · have epow : fkPower k m.f m.beta = fkPower m.f k m.beta := by unfold fkPower; rw [mul_comm]
    have elog : log (k / m.f) = -log (m.f / k) := by rw [← log_inv, inv_div]
    have ez : z k m.f m.beta = -z m.f k m.beta := by unfold z; rw [epow, elog]; ring
    have hc' : chi k m.f m.beta m.rho ≠ 0 := by
      rw [h0, chi_rho_zero, ez, Ne, arsinh_eq_zero_iff, neg_eq_zero]; exact hz
    have hd' : denominator k m.f m.beta = denominator m.f k m.beta := by
      simp only [denominator, epow, elog]; ring
    simp only [volatility]
    rw [vol_eq _ _ _ _ _ _ _ hc, vol_eq _ _ _ _ _ _ _ hc', h0, chi_rho_zero, chi_rho_zero, ez, arsinh_neg,
      numerator_eq, numerator_eq, epow, neg_div_neg_eq, hd']

theorem costLoop_spec (m : Sabr02) (t : ℝ) (data : List (ℝ × ℝ)) (c : ℝ) :
    (m.costLoop t data c = none ↔ ∃ d ∈ data, m.volatility d.1 t = none) ∧
    ∀ r, m.costLoop t data c = some r → c ≤ r ∧ (r = c ↔ ∀ d ∈ data, m.volatility d.1 t = some d.2) := by
  induction data generalizing c with
  | nil => simp [costLoop]
  | cons d data ih =>
    obtain ⟨k, vol⟩ := d
    rcases hv : m.volatility k t with _ | v
    · simp [costLoop, hv]
    · obtain ⟨h1, h2⟩ := ih (c + (v - vol) ^ 2)
      constructor
      · simp [costLoop, hv, h1]
      · intro r hr
        simp only [costLoop, hv, Option.bind_some] at hr
        obtain ⟨a, b⟩ := h2 r hr
        have hs := sq_nonneg (v - vol)
        refine ⟨by linarith, ?_⟩
        simp only [List.mem_cons, forall_eq_or_imp, hv, Option.some_inj]
        constructor
        · intro e
          have hs0 : (v - vol) ^ 2 = 0 := by linarith
          refine ⟨by have := pow_eq_zero_iff (two_ne_zero) |>.1 hs0; linarith, b.1 (by linarith)⟩
        · rintro ⟨e, e'⟩
          have := b.2 e'
          rw [this, e]; ring

/-- **C60.** The calibration cost is a non-negative number unless some strike is at a pole; it is zero exactly when the model
reproduces every quoted volatility. Only as many strikes as there are volatilities are looked at, and vice versa. -/
theorem C60_cost (m : Sabr02) (hm : m.Admissible) (t : ℝ) (strikes vols : List ℝ) :
    (m.cost t strikes vols = none ↔
      ∃ d ∈ strikes.zip vols, m.moneyness d.1 = m.rho + m.rho ^ 2 / 2) ∧
    (∀ r, m.cost t strikes vols = some r → 0 ≤ r ∧
      (r = 0 ↔ ∀ (i : ℕ) (k v : ℝ), strikes[i]? = some k → vols[i]? = some v → m.volatility k t = some v)) ∧
    (∀ extra, strikes.length = vols.length → m.cost t (strikes ++ extra) vols = m.cost t strikes vols ∧
      m.cost t strikes (vols ++ extra) = m.cost t strikes vols) := by
  obtain ⟨h1, h2⟩ := costLoop_spec m t (strikes.zip vols) 0
  refine ⟨?_, ?_, ?_⟩
  · simp only [cost, Option.map_eq_none_iff, h1, (C60_pole m hm _ t).1]
  · intro r hr
    simp only [cost, Option.map_eq_some_iff] at hr
    obtain ⟨s, hs, rfl⟩ := hr
    obtain ⟨a, b⟩ := h2 s hs
    refine ⟨sqrt_nonneg _, ?_⟩
    rw [Real.sqrt_eq_zero a, b]
    constructor
    · intro h i k v hk hv
      refine h (k, v) (List.mem_iff_getElem?.2 ⟨i, ?_⟩)
      rw [List.getElem?_zip_eq_some]
      exact ⟨hk, hv⟩
    · intro h d hd
      obtain ⟨i, hi⟩ := List.mem_iff_getElem?.1 hd
      rw [List.getElem?_zip_eq_some] at hi
      exact h i _ _ hi.1 hi.2
  · intro extra hl
    constructor
    · have := List.zip_append (r₁ := extra) (r₂ := ([] : List ℝ)) hl
      rw [List.append_nil] at this
      rw [cost, cost, this, List.zip_nil_right, List.append_nil]
    · have := List.zip_append (r₁ := ([] : List ℝ)) (r₂ := extra) hl
      rw [List.append_nil] at this
      rw [cost, cost, this, List.zip_nil_left, List.append_nil]

/-! ## The hypotheses can be met -/

/-- A model with zero correlation. -/
noncomputable def exampleModel : Sabr02 := ⟨100, 0.2, 1, 0, 0.2⟩

theorem exampleModel_admissible : exampleModel.Admissible := ⟨by norm_num [exampleModel], by norm_num [exampleModel],
  by norm_num [exampleModel], by norm_num [exampleModel]⟩

/-- A model with negative correlation. -/
noncomputable def skewModel : Sabr02 := ⟨100, 0.2, 1, -0.5, 0.4⟩

theorem skewModel_admissible : skewModel.Admissible := ⟨by norm_num [skewModel], by norm_num [skewModel],
  by norm_num [skewModel], by norm_num [skewModel]⟩

example : exampleModel.volatility 90 1 = some (hagan 100 90 1 0.2 1 0 0.2) :=
  C60_hagan exampleModel exampleModel_admissible rfl rfl 90 1 (by norm_num) (by norm_num [exampleModel])

example : ({ exampleModel with nu := 1 } : Sabr02).volatility 90 0 = exampleModel.volatility 90 0 :=
  (C60_no_smile exampleModel exampleModel_admissible 90 (by norm_num) (by norm_num [exampleModel]) 1
    (by norm_num [exampleModel]) (by norm_num [exampleModel])).1

example : skewModel.volatility 100 1 = some 0 := by
  have := (C60_at_the_money skewModel skewModel_admissible 1).1
  rw [if_neg (by norm_num [skewModel])] at this
  exact this

example : exampleModel.volatility 100 1 = none := by
  have := (C60_at_the_money exampleModel exampleModel_admissible 1).1
  rw [if_pos (show exampleModel.rho = 0 from rfl)] at this
  exact this

example : ∃ v : ℝ → ℝ, (∀ᶠ k in 𝓝[≠] (100 : ℝ), skewModel.volatility k 1 = some (v k)) ∧
    Tendsto v (𝓝[≠] 100) (𝓝 0) := by
  have := C60_near_the_money skewModel skewModel_admissible 1
  rw [if_neg (by norm_num [skewModel])] at this
  exact this

example : skewModel.volatility (100 * exp (-(-0.5 + (-0.5) ^ 2 / 2))) 1 = none :=
  (C60_pole skewModel skewModel_admissible 0 1).2 rfl

/-- A strike above the forward, where the formula gives a negative volatility. -/
example : ∀ᶠ k in 𝓝[>] (100 : ℝ), ∃ v, skewModel.volatility k 1 = some v ∧ v < 0 := by
  have := C60_negative skewModel skewModel_admissible (by norm_num [skewModel]) 1
    (by norm_num [skewModel, haganAtm, timeFactor])
  rw [if_neg (by norm_num [skewModel])] at this
  exact this

example : (∃ v, exampleModel.volatility 90 1 = some v ∧ 0 < v) :=
  (C60_zero_correlation exampleModel exampleModel_admissible rfl 90 1 (by norm_num) (by norm_num [exampleModel])
    (by norm_num)).1

example (v : ℝ) (h : skewModel.volatility 90 1 = some v) : v ≠ 0 :=
  (C60_sign skewModel skewModel_admissible 90 1 v (by norm_num) (by norm_num [skewModel])
    (by norm_num [skewModel, timeFactor]) h).2

example : ∃ r, exampleModel.cost 1 [90, 110] [0.2] = some r := by
  rcases h : exampleModel.cost 1 [90, 110] [0.2] with _ | r
  · rw [(C60_cost exampleModel exampleModel_admissible 1 [90, 110] [0.2]).1] at h
    obtain ⟨d, hd, e⟩ := h
    simp only [List.zip_cons_cons, List.zip_nil_right, List.mem_singleton] at hd
    subst hd
    have : log ((100:ℝ) / 90) = 0 := by simpa [moneyness, exampleModel] using e
    exact absurd this (log_pos (by norm_num)).ne'
  · exact ⟨r, rfl⟩

end Verif.Options.Sabr02
