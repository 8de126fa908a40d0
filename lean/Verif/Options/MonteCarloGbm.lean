import Verif.Options.MonteCarloLaw
import Verif.Options.BsmProps

/-!
# C76: the Monte-Carlo price of a geometric Brownian motion converges to the Black-Scholes price

The Euler-Maruyama path is compared with the exact path driven by the same normals.
-/

namespace Verif.Options

open Real Classical Stochastics MeasureTheory ProbabilityTheory

variable {Ω : Type} [MeasurableSpace Ω]

/-! ### Products of functions of independent normals -/

theorem integrable_comp {ρ : Measure Ω} {Z : ℕ → Ω → ℝ} (h : StdNormals ρ Z) {g : ℝ → ℝ}
    (hi : Integrable g (gaussianReal 0 1)) (k : ℕ) : Integrable (fun ω => g (Z k ω)) ρ := by
  rw [← h.law k] at hi
  exact hi.comp_measurable (h.measurable k)

theorem integral_comp' {ρ : Measure Ω} {Z : ℕ → Ω → ℝ} (h : StdNormals ρ Z) {g : ℝ → ℝ} (hg : Measurable g) (k : ℕ) :
    ∫ ω, g (Z k ω) ∂ρ = ∫ z, g z ∂gaussianReal 0 1 := by
  rw [← h.law k, integral_map (h.measurable k).aemeasurable hg.aestronglyMeasurable]

theorem prod_integrable {ρ : Measure Ω} [IsProbabilityMeasure ρ] {Z : ℕ → Ω → ℝ} (h : StdNormals ρ Z) {g : ℝ → ℝ}
    (hg : Measurable g) (hi : Integrable g (gaussianReal 0 1)) (n : ℕ) :
    Integrable (fun ω => ∏ k ∈ Finset.range n, g (Z k ω)) ρ := by
  have hm : ∀ k, Measurable fun ω => g (Z k ω) := fun k => hg.comp (h.measurable k)
  have hi' : iIndepFun (fun k ω => g (Z k ω)) ρ := h.indep.comp (fun _ => g) fun _ => hg
  induction n with
  | zero => simp
  | succ n ih =>
    have h1 := hi'.indepFun_prod_range_succ hm n
    have e : (∏ k ∈ Finset.range n, fun ω => g (Z k ω)) = fun ω => ∏ k ∈ Finset.range n, g (Z k ω) := by
      funext ω; simp
    rw [e] at h1
    have := h1.integrable_mul ih (integrable_comp h hi n)
    simp only [Finset.prod_range_succ]
    exact this

theorem prod_integral {ρ : Measure Ω} [IsProbabilityMeasure ρ] {Z : ℕ → Ω → ℝ} (h : StdNormals ρ Z) {g : ℝ → ℝ}
    (hg : Measurable g) (n : ℕ) :
    ∫ ω, ∏ k ∈ Finset.range n, g (Z k ω) ∂ρ = (∫ z, g z ∂gaussianReal 0 1) ^ n := by
  have hind : iIndepFun (fun (k : Fin n) ω => Z k ω) ρ := h.indep.precomp Fin.val_injective
  have e : (fun ω => ∏ k ∈ Finset.range n, g (Z k ω)) = fun ω => ∏ k : Fin n, g (Z k ω) :=
    funext fun ω => (Fin.prod_univ_eq_prod_range (fun k => g (Z k ω)) n).symm
  rw [e, hind.integral_fun_prod_comp (f := fun _ => g) (fun k => (h.measurable k).aemeasurable)
    (fun k => hg.aestronglyMeasurable)]
  rw [Finset.prod_congr rfl fun (k : Fin n) _ => integral_comp' h hg k, Finset.prod_const, Finset.card_univ, Fintype.card_fin]

/-! ### The two factors of one step -/

/-- One Euler-Maruyama step of a geometric Brownian motion multiplies by this. -/
noncomputable def eulerFactor (mu sigma h z : ℝ) : ℝ := 1 + mu * h + sigma * √h * z

/-- The exact solution is multiplied by this. -/
noncomputable def exactFactor (mu sigma h z : ℝ) : ℝ := exp ((mu - sigma ^ 2 / 2) * h + sigma * √h * z)

theorem eulerFactor_measurable (mu sigma h : ℝ) : Measurable (eulerFactor mu sigma h) := by unfold eulerFactor; fun_prop

theorem exactFactor_measurable (mu sigma h : ℝ) : Measurable (exactFactor mu sigma h) := by unfold exactFactor; fun_prop

theorem gauss_memLp_id : MemLp (fun z : ℝ => z) 2 (gaussianReal 0 1) := memLp_id_gaussianReal' 2 (by simp)

theorem euler_memLp (mu sigma h : ℝ) : MemLp (eulerFactor mu sigma h) 2 (gaussianReal 0 1) := by
  have h1 : MemLp (fun z : ℝ => sigma * √h * z) 2 (gaussianReal 0 1) := gauss_memLp_id.const_mul (sigma * √h)
  have h2 : MemLp (fun _ : ℝ => 1 + mu * h) 2 (gaussianReal 0 1) := memLp_const _
  exact h2.add h1

theorem exact_memLp (mu sigma h : ℝ) : MemLp (exactFactor mu sigma h) 2 (gaussianReal 0 1) := by
  rw [memLp_two_iff_integrable_sq (exactFactor_measurable mu sigma h).aestronglyMeasurable]
  have := Bsm.lognormal_integrable 1 (2 * ((mu - sigma ^ 2 / 2) * h)) (2 * (sigma * √h))
  refine this.congr (ae_of_all _ fun z => ?_)
  simp only [exactFactor]
  rw [← exp_nat_mul, one_mul]
  congr 1
  push_cast; ring

theorem gauss_sq : ∫ z : ℝ, z ^ 2 ∂gaussianReal 0 1 = 1 := by
  have h := variance_eq_sub (μ := gaussianReal 0 1) (X := fun z : ℝ => z) gauss_memLp_id
  have h1 : Var[fun z : ℝ => z; gaussianReal 0 1] = 1 := by
    have := variance_id_gaussianReal (μ := 0) (v := 1)
    simpa [id_def] using this
  have h2 : ∫ z : ℝ, z ∂gaussianReal 0 1 = 0 := integral_id_gaussianReal
  rw [h1, h2] at h
  simp only [Pi.pow_apply] at h
  linarith

theorem gauss_mean : ∫ z : ℝ, z ∂gaussianReal 0 1 = 0 := integral_id_gaussianReal

theorem gauss_id_integrable : Integrable (fun z : ℝ => z) (gaussianReal 0 1) := gauss_memLp_id.integrable (by norm_num)

theorem euler_mean (mu sigma h : ℝ) : ∫ z, eulerFactor mu sigma h z ∂gaussianReal 0 1 = 1 + mu * h := by
  unfold eulerFactor
  rw [integral_add (integrable_const _) (gauss_id_integrable.const_mul _), integral_const_mul, gauss_mean]
  simp

theorem euler_sq (mu sigma h : ℝ) (hh : 0 ≤ h) :
    ∫ z, eulerFactor mu sigma h z ^ 2 ∂gaussianReal 0 1 = (1 + mu * h) ^ 2 + sigma ^ 2 * h := by
  have e : ∀ z, eulerFactor mu sigma h z ^ 2 = (1 + mu * h) ^ 2 + ((2 * (1 + mu * h) * (sigma * √h)) * z + (sigma ^ 2 * h) * z ^ 2) := by
    intro z
    unfold eulerFactor
    have := mul_self_sqrt hh
    linear_combination sigma ^ 2 * z ^ 2 * this
  simp only [e]
  rw [integral_add (integrable_const _), integral_add (gauss_id_integrable.const_mul _) (gauss_memLp_id.integrable_sq.const_mul _),
    integral_const_mul, integral_const_mul, gauss_mean, gauss_sq]
  · simp
  · exact (gauss_id_integrable.const_mul _).add (gauss_memLp_id.integrable_sq.const_mul _)

theorem exact_sq (mu sigma h : ℝ) (hh : 0 ≤ h) :
    ∫ z, exactFactor mu sigma h z ^ 2 ∂gaussianReal 0 1 = exp ((2 * mu + sigma ^ 2) * h) := by
  have e : ∀ z, exactFactor mu sigma h z ^ 2 = 1 * exp (2 * ((mu - sigma ^ 2 / 2) * h) + 2 * (sigma * √h) * z) := by
    intro z
    unfold exactFactor
    rw [← exp_nat_mul, one_mul]
    congr 1
    push_cast; ring
  simp only [e]
  rw [Bsm.lognormal_mean, one_mul]
  congr 1
  have := mul_self_sqrt hh
  linear_combination 2 * sigma ^ 2 * this

theorem mul_exp_integral (w : ℝ) : ∫ z, z * exp (w * z) ∂gaussianReal 0 1 = w * exp (w ^ 2 / 2) := by
  rw [Bsm.gaussian_integral]
  have e : ∀ z, Bsm.n z * (z * exp (w * z)) = exp (w ^ 2 / 2) * ((fun y => (y + w) * Bsm.n y) (z - w)) := by
    intro z
    have := Bsm.exp_mul_n w z
    simp only [sub_add_cancel]
    linear_combination z * this
  simp only [e]
  rw [integral_const_mul, integral_sub_right_eq_self (fun y => (y + w) * Bsm.n y) w]
  have h1 : ∫ y, (y + w) * Bsm.n y = ∫ z, (z + w) ∂gaussianReal 0 1 := by
    rw [Bsm.gaussian_integral]; congr 1; funext z; ring
  rw [h1, integral_add gauss_id_integrable (integrable_const _), gauss_mean]
  simp [mul_comm]

theorem cross_mean (mu sigma h : ℝ) (hh : 0 ≤ h) :
    ∫ z, eulerFactor mu sigma h z * exactFactor mu sigma h z ∂gaussianReal 0 1 = exp (mu * h) * (1 + mu * h + sigma ^ 2 * h) := by
  have hs := mul_self_sqrt hh
  have e : ∀ z, eulerFactor mu sigma h z * exactFactor mu sigma h z =
      ((1 + mu * h) * exp ((mu - sigma ^ 2 / 2) * h)) * exp (0 + sigma * √h * z) +
        (sigma * √h * exp ((mu - sigma ^ 2 / 2) * h)) * (z * exp (sigma * √h * z)) := by
    intro z
    unfold eulerFactor exactFactor
    rw [exp_add, zero_add]
    ring
  have hi1 := Bsm.lognormal_integrable ((1 + mu * h) * exp ((mu - sigma ^ 2 / 2) * h)) 0 (sigma * √h)
  have hi2 : Integrable (fun z => (sigma * √h * exp ((mu - sigma ^ 2 / 2) * h)) * (z * exp (sigma * √h * z))) (gaussianReal 0 1) := by
    have := ((euler_memLp mu sigma h).integrable_mul (exact_memLp mu sigma h)).sub hi1
    refine this.congr (ae_of_all _ fun z => ?_)
    have := e z
    simp only [Pi.sub_apply, Pi.mul_apply] at this ⊢
    rw [this]; ring
  simp only [e]
  rw [integral_add hi1 hi2, Bsm.lognormal_mean, integral_const_mul, mul_exp_integral, zero_add]
  have e2 : exp (mu * h) = exp ((mu - sigma ^ 2 / 2) * h) * exp ((sigma * √h) ^ 2 / 2) := by
    rw [← exp_add]; congr 1; linear_combination (-(sigma ^ 2 / 2)) * hs
  rw [e2]
  linear_combination (sigma ^ 2 * exp ((mu - sigma ^ 2 / 2) * h) * exp ((sigma * √h) ^ 2 / 2)) * hs

/-! ### The distance of the two end points -/

/-- The mean square distance of the Euler end point from the exact one, for initial value 1, drift `mu`, volatility `sigma`,
horizon `T` and `n` steps. -/
noncomputable def gbmGap (mu sigma T : ℝ) (n : ℕ) : ℝ :=
  ((1 + mu * (T / n)) ^ 2 + sigma ^ 2 * (T / n)) ^ n - 2 * (exp (mu * (T / n)) * (1 + mu * (T / n) + sigma ^ 2 * (T / n))) ^ n +
    exp ((2 * mu + sigma ^ 2) * (T / n)) ^ n

theorem prod_memLp {ρ : Measure Ω} [IsProbabilityMeasure ρ] {Z : ℕ → Ω → ℝ} (h : StdNormals ρ Z) {g : ℝ → ℝ}
    (hg : Measurable g) (hi : MemLp g 2 (gaussianReal 0 1)) (n : ℕ) :
    MemLp (fun ω => ∏ k ∈ Finset.range n, g (Z k ω)) 2 ρ := by
  have hm : Measurable fun ω => ∏ k ∈ Finset.range n, g (Z k ω) :=
    Finset.measurable_fun_prod _ fun k _ => hg.comp (h.measurable k)
  rw [memLp_two_iff_integrable_sq hm.aestronglyMeasurable]
  simp only [← Finset.prod_pow]
  exact prod_integrable h (hg.pow_const 2) hi.integrable_sq n

theorem gap_eq {ρ : Measure Ω} [IsProbabilityMeasure ρ] {Z : ℕ → Ω → ℝ} (h : StdNormals ρ Z) (mu sigma T : ℝ) (hT : 0 ≤ T) (n : ℕ) :
    ∫ ω, ((∏ k ∈ Finset.range n, eulerFactor mu sigma (T / n) (Z k ω)) -
      ∏ k ∈ Finset.range n, exactFactor mu sigma (T / n) (Z k ω)) ^ 2 ∂ρ = gbmGap mu sigma T n := by
  have hh : 0 ≤ T / n := by positivity
  have me := eulerFactor_measurable mu sigma (T / n)
  have mx := exactFactor_measurable mu sigma (T / n)
  have le := euler_memLp mu sigma (T / n)
  have lx := exact_memLp mu sigma (T / n)
  have e : ∀ ω, ((∏ k ∈ Finset.range n, eulerFactor mu sigma (T / n) (Z k ω)) -
      ∏ k ∈ Finset.range n, exactFactor mu sigma (T / n) (Z k ω)) ^ 2 =
      (∏ k ∈ Finset.range n, eulerFactor mu sigma (T / n) (Z k ω) ^ 2) -
      2 * (∏ k ∈ Finset.range n, eulerFactor mu sigma (T / n) (Z k ω) * exactFactor mu sigma (T / n) (Z k ω)) +
      ∏ k ∈ Finset.range n, exactFactor mu sigma (T / n) (Z k ω) ^ 2 := by
    intro ω
    rw [Finset.prod_pow, Finset.prod_pow, Finset.prod_mul_distrib]
    ring
  simp only [e]
  have i1 := prod_integrable h (me.pow_const 2) le.integrable_sq n
  have i2 := prod_integrable h (me.mul mx) (le.integrable_mul lx) n
  have i3 := prod_integrable h (mx.pow_const 2) lx.integrable_sq n
  simp only [Pi.mul_apply] at i2
  have q2 := prod_integral h (me.mul mx) n
  simp only [Pi.mul_apply] at q2
  have i12 := i1.sub (i2.const_mul 2)
  simp only [Pi.sub_def] at i12
  rw [integral_add i12 i3, integral_sub i1 (i2.const_mul 2), integral_const_mul,
    prod_integral h (me.pow_const 2) n, q2, prod_integral h (mx.pow_const 2) n, euler_sq _ _ _ hh, cross_mean _ _ _ hh,
    exact_sq _ _ _ hh]
  rfl

theorem abs_mean_le {ρ : Measure Ω} [IsProbabilityMeasure ρ] {X : Ω → ℝ} (h : MemLp X 2 ρ) :
    ∫ ω, |X ω| ∂ρ ≤ √(∫ ω, X ω ^ 2 ∂ρ) := by
  apply Real.le_sqrt_of_sq_le
  have := variance_nonneg (fun ω => |X ω|) ρ
  have h2 : MemLp (fun ω => |X ω|) 2 ρ := h.abs
  rw [variance_eq_sub h2] at this
  simp only [Pi.pow_apply, sq_abs] at this
  linarith

theorem gain_lipschitz (f : TypeFlag) (x y k : ℝ) : |Spec.gain f x k - Spec.gain f y k| ≤ |x - y| := by
  cases f <;> simp only [Spec.gain, if_true, reduceCtorEq, if_false]
  · refine (abs_max_sub_max_le_abs _ _ _).trans_eq ?_; congr 1; ring
  · refine (abs_max_sub_max_le_abs _ _ _).trans_eq ?_; rw [abs_sub_comm x y]; congr 1; ring

/-- The exact end point is the underlying of the Black-Scholes formula. -/
theorem exact_law {ρ : Measure Ω} [IsProbabilityMeasure ρ] {Z : ℕ → Ω → ℝ} (h : StdNormals ρ Z) (x0 mu sigma T : ℝ) (hT : 0 ≤ T)
    (n : ℕ) (hn : 0 < n) (f : TypeFlag) (k : ℝ) :
    ∫ ω, Spec.gain f (x0 * ∏ j ∈ Finset.range n, exactFactor mu sigma (T / n) (Z j ω)) k ∂ρ =
      ∫ z, Spec.gain f (spotAt x0 T mu sigma z) k ∂gaussianReal 0 1 := by
  have hn' : (n : ℝ) ≠ 0 := by exact_mod_cast hn.ne'
  have hh : 0 ≤ T / n := by positivity
  have e : ∀ ω, ∏ j ∈ Finset.range n, exactFactor mu sigma (T / n) (Z j ω) =
      exp ((mu - sigma ^ 2 / 2) * T + ∑ j ∈ Finset.range n, (fun _ => sigma * √(T / n)) j * Z j ω) := by
    intro ω
    unfold exactFactor
    rw [← exp_sum, Finset.sum_add_distrib, Finset.sum_const, Finset.card_range, nsmul_eq_mul]
    congr 2
    field_simp
  simp only [e]
  have hlaw := law_affine h ((mu - sigma ^ 2 / 2) * T) (fun _ => sigma * √(T / n)) n
  rw [gaussian_shift _ (sigma * √T) _ (by
    rw [Finset.sum_const, Finset.card_range, nsmul_eq_mul, mul_pow, mul_pow, sq_sqrt hh, sq_sqrt hT]; field_simp)] at hlaw
  have hmz : Measurable fun ω => (mu - sigma ^ 2 / 2) * T + ∑ j ∈ Finset.range n, (fun _ => sigma * √(T / n)) j * Z j ω :=
    (Finset.measurable_fun_sum _ fun j _ => (h.measurable j).const_mul _).const_add _
  have hmg : Measurable fun y => Spec.gain f (x0 * exp y) k := (measurable_gain f k).comp (by fun_prop)
  rw [← integral_map (f := fun y => Spec.gain f (x0 * exp y) k) hmz.aemeasurable hmg.aestronglyMeasurable, hlaw,
    integral_map (by fun_prop) hmg.aestronglyMeasurable]
  rfl

theorem payoff_gap {ρ : Measure Ω} [IsProbabilityMeasure ρ] {Z : ℕ → Ω → ℝ} (h : StdNormals ρ Z) (x0 mu sigma T : ℝ) (hT : 0 ≤ T)
    (n : ℕ) (hn : 0 < n) (f : TypeFlag) (k : ℝ) :
    |∫ ω, Spec.gain f (x0 * ∏ j ∈ Finset.range n, eulerFactor mu sigma (T / n) (Z j ω)) k ∂ρ -
      ∫ z, Spec.gain f (spotAt x0 T mu sigma z) k ∂gaussianReal 0 1| ≤ |x0| * √(gbmGap mu sigma T n) := by
  have l1 := prod_memLp h (eulerFactor_measurable mu sigma (T / n)) (euler_memLp mu sigma (T / n)) n
  have l2 := prod_memLp h (exactFactor_measurable mu sigma (T / n)) (exact_memLp mu sigma (T / n)) n
  have g1 := (gain_memLp (l1.const_mul x0) f k).integrable (by norm_num)
  have g2 := (gain_memLp (l2.const_mul x0) f k).integrable (by norm_num)
  rw [← exact_law h x0 mu sigma T hT n hn f k, ← integral_sub g1 g2]
  refine (abs_integral_le_integral_abs).trans ?_
  have hd := l1.sub l2
  refine le_trans (integral_mono (g1.sub g2).abs ((hd.integrable (by norm_num)).abs.const_mul |x0|) fun ω => ?_) ?_
  · simp only [Pi.sub_apply]
    refine (gain_lipschitz f _ _ k).trans_eq ?_
    rw [← mul_sub, abs_mul]
  · rw [integral_const_mul, ← gap_eq h mu sigma T hT n]
    exact mul_le_mul_of_nonneg_left (abs_mean_le hd) (abs_nonneg _)

theorem gbmGap_tendsto (mu sigma T : ℝ) : Filter.Tendsto (gbmGap mu sigma T) Filter.atTop (nhds 0) := by
  have h0 : Filter.Tendsto (fun n : ℕ => T / (n : ℝ)) Filter.atTop (nhds 0) := tendsto_const_div_atTop_nhds_zero_nat T
  have h1 : Filter.Tendsto (fun n : ℕ => ((1 + mu * (T / n)) ^ 2 + sigma ^ 2 * (T / n)) ^ n) Filter.atTop
      (nhds (exp ((2 * mu + sigma ^ 2) * T))) := by
    have : Filter.Tendsto (fun n : ℕ => (1 + ((2 * mu + sigma ^ 2) * (T / n) + mu ^ 2 * (T / n) ^ 2)) ^ n) Filter.atTop
        (nhds (exp ((2 * mu + sigma ^ 2) * T))) := by
      apply Real.tendsto_one_add_pow_exp_of_tendsto
      have h2 : Filter.Tendsto (fun n : ℕ => (2 * mu + sigma ^ 2) * T + mu ^ 2 * T * (T / n)) Filter.atTop
          (nhds ((2 * mu + sigma ^ 2) * T + mu ^ 2 * T * 0)) := (h0.const_mul _).const_add _
      rw [mul_zero, add_zero] at h2
      refine h2.congr' ((Filter.eventually_gt_atTop 0).mono fun n hn => ?_)
      have : (n : ℝ) ≠ 0 := by exact_mod_cast hn.ne'
      field_simp
    refine this.congr fun n => ?_
    congr 1; ring
  have h2 : Filter.Tendsto (fun n : ℕ => (exp (mu * (T / n)) * (1 + mu * (T / n) + sigma ^ 2 * (T / n))) ^ n) Filter.atTop
      (nhds (exp ((2 * mu + sigma ^ 2) * T))) := by
    have a : Filter.Tendsto (fun n : ℕ => (1 + (mu + sigma ^ 2) * T / n) ^ n) Filter.atTop (nhds (exp ((mu + sigma ^ 2) * T))) :=
      Real.tendsto_one_add_div_pow_exp _
    have b := a.const_mul (exp (mu * T))
    rw [← exp_add, show mu * T + (mu + sigma ^ 2) * T = (2 * mu + sigma ^ 2) * T by ring] at b
    refine b.congr' ((Filter.eventually_gt_atTop 0).mono fun n hn => ?_)
    have : (n : ℝ) ≠ 0 := by exact_mod_cast hn.ne'
    simp only
    rw [mul_pow, ← exp_nat_mul]
    congr 2
    · field_simp
    · ring
  have h3 : Filter.Tendsto (fun n : ℕ => exp ((2 * mu + sigma ^ 2) * (T / n)) ^ n) Filter.atTop
      (nhds (exp ((2 * mu + sigma ^ 2) * T))) := by
    refine tendsto_const_nhds.congr' ((Filter.eventually_gt_atTop 0).mono fun n hn => ?_)
    have : (n : ℝ) ≠ 0 := by exact_mod_cast hn.ne'
    simp only
    rw [← exp_nat_mul]
    congr 1
    field_simp
  have := (h1.sub (h2.const_mul 2)).add h3
  rw [show exp ((2 * mu + sigma ^ 2) * T) - 2 * exp ((2 * mu + sigma ^ 2) * T) + exp ((2 * mu + sigma ^ 2) * T) = 0 by ring] at this
  exact this

end Verif.Options
