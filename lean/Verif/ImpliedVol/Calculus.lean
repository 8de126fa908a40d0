import Verif.ImpliedVol.Accuracy
import Mathlib.Analysis.Calculus.MeanValue

/-! Helper lemmas: derivatives of the normalised Black function and the order of Householder's iteration. -/

namespace Verif.ImpliedVol

open Real Set Filter Topology Asymptotics
open Verif.Options.Bsm

theorem arg_deriv (x s c : ℝ) (hs : s ≠ 0) : HasDerivAt (fun s => x / s + c * s) (-x / s ^ 2 + c) s := by
  have h := ((hasDerivAt_const s x).fun_div (hasDerivAt_id s) hs).fun_add ((hasDerivAt_id s).const_mul c)
  refine h.congr_deriv ?_
  simp only [id]; ring

theorem n_key (x s : ℝ) (hs : s ≠ 0) : n (x / s + s / 2) * exp (x / 2) = blackVega x s ∧
    n (x / s - s / 2) * exp (-x / 2) = blackVega x s := by
  constructor <;>
  · rw [n_eq, blackVega, mul_assoc, ← exp_add, ← div_eq_inv_mul]
    congr 2; field_simp; ring

theorem black_deriv (x s : ℝ) (hs : s ≠ 0) : HasDerivAt (black x) (blackVega x s) s := by
  have a1 := arg_deriv x s (1 / 2) hs
  have a2 := arg_deriv x s (-(1 / 2)) hs
  have e1 : x / s + 1 / 2 * s = x / s + s / 2 := by ring
  have e2 : x / s + -(1 / 2) * s = x / s - s / 2 := by ring
  have h := (((N_deriv _).comp s a1).mul_const (exp (x / 2))).fun_sub (((N_deriv _).comp s a2).mul_const (exp (-x / 2)))
  have hb : black x = fun s => (N ∘ fun s => x / s + 1 / 2 * s) s * exp (x / 2) -
      (N ∘ fun s => x / s + -(1 / 2) * s) s * exp (-x / 2) := by
    funext s; simp only [Function.comp, black]; congr 3 <;> ring_nf
  rw [hb]
  refine h.congr_deriv ?_
  obtain ⟨k1, k2⟩ := n_key x s hs
  rw [e1, e2]
  linear_combination (-x / s ^ 2 + 1 / 2) * k1 - (-x / s ^ 2 + -(1 / 2)) * k2

/-- `b''/b'`. -/
noncomputable def ratio2 (x s : ℝ) : ℝ := x ^ 2 / s ^ 3 - s / 4

/-- `b'''/b'`. -/
noncomputable def ratio3 (x s : ℝ) : ℝ := ratio2 x s ^ 2 - 3 * x ^ 2 / s ^ 4 - 1 / 4

theorem vega_deriv (x s : ℝ) (hs : s ≠ 0) : HasDerivAt (blackVega x) (blackVega x s * ratio2 x s) s := by
  have a : HasDerivAt (fun s => x / s) (-x / s ^ 2) s := by
    refine ((hasDerivAt_const s x).fun_div (hasDerivAt_id s) hs).congr_deriv ?_
    simp only [id]; ring
  have h := ((((a.fun_pow 2).fun_add (((hasDerivAt_id s).div_const 2).fun_pow 2)).fun_neg.div_const 2).exp).div_const
    (√(2 * π))
  refine h.congr_deriv ?_
  simp only [blackVega, ratio2, id]
  have := sqrt_two_pi_pos.ne'
  push_cast
  field_simp
  ring

theorem ratio2_deriv (x s : ℝ) (hs : s ≠ 0) : HasDerivAt (ratio2 x) (-3 * x ^ 2 / s ^ 4 - 1 / 4) s := by
  have h := ((hasDerivAt_const s (x ^ 2)).fun_div ((hasDerivAt_id s).fun_pow 3) (by simpa using hs)).fun_sub
    ((hasDerivAt_id s).div_const 4)
  refine h.congr_deriv ?_
  simp only [id]
  push_cast
  field_simp
  ring

theorem vega_deriv2 (x s : ℝ) (hs : s ≠ 0) :
    HasDerivAt (fun s => blackVega x s * ratio2 x s) (blackVega x s * ratio3 x s) s := by
  refine ((vega_deriv x s hs).fun_mul (ratio2_deriv x s hs)).congr_deriv ?_
  rw [ratio3]; ring

theorem ratio3_diff (x s : ℝ) (hs : s ≠ 0) : DifferentiableAt ℝ (ratio3 x) s := by
  have := (ratio2_deriv x s hs).differentiableAt
  have h4 : s ^ 4 ≠ 0 := pow_ne_zero _ hs
  unfold ratio3
  fun_prop (disch := assumption)

/-! ### Householder's iteration -/

/-- The next point of the iteration. -/
noncomputable def next (n L K : ℝ → ℝ) (s : ℝ) : ℝ :=
  s + n s * ((1 + 0.5 * L s * n s) / householderDen (n s) (L s) (K s))

/-- A remainder whose derivative is of third order is of fourth order. -/
theorem bigO_integrate {Q Q' : ℝ → ℝ} {σ : ℝ} (k : ℕ) (hQ : ∀ᶠ s in 𝓝 σ, HasDerivAt Q (Q' s) s) (h0 : Q σ = 0)
    (hb : Q' =O[𝓝 σ] fun s => (s - σ) ^ k) : Q =O[𝓝 σ] fun s => (s - σ) ^ (k + 1) := by
  obtain ⟨C, hC⟩ := hb.bound
  obtain ⟨ε, hε, hball⟩ := Metric.eventually_nhds_iff_ball.1 (hQ.and hC)
  refine IsBigO.of_bound C (Metric.eventually_nhds_iff_ball.2 ⟨ε, hε, fun s hs => ?_⟩)
  have hseg : ∀ y ∈ segment ℝ σ s, y ∈ Metric.ball σ ε ∧ |y - σ| ≤ |s - σ| := fun y hy => by
    have h1 : |y - σ| ≤ |s - σ| := by
      obtain ⟨a, b, ha, hb, hab, rfl⟩ := hy
      have : a • σ + b • s - σ = b * (s - σ) := by simp only [smul_eq_mul]; rw [show a = 1 - b by linarith]; ring
      rw [this, abs_mul, abs_of_nonneg hb]
      nlinarith [abs_nonneg (s - σ)]
    refine ⟨?_, h1⟩
    rw [Metric.mem_ball, dist_eq] at hs ⊢
    linarith
  have hbound : ∀ y ∈ segment ℝ σ s, ‖Q' y‖ ≤ |C| * |s - σ| ^ k := fun y hy => by
    obtain ⟨h1, h2⟩ := hseg y hy
    refine ((hball y h1).2).trans ?_
    rw [norm_pow, norm_eq_abs]
    have := le_abs_self C
    gcongr
  have h := (convex_segment σ s).norm_image_sub_le_of_norm_hasDerivWithin_le
    (fun y hy => (hball y (hseg y hy).1).1.hasDerivWithinAt) hbound (left_mem_segment ℝ σ s) (right_mem_segment ℝ σ s)
  rw [h0, sub_zero] at h
  have hC0 : |s - σ| ^ k = 0 ∨ 0 ≤ C := by
    by_cases hz : |s - σ| ^ k = 0
    · exact Or.inl hz
    · right
      have := ((norm_nonneg _).trans (hball s hs).2)
      rw [norm_pow, norm_eq_abs] at this
      exact nonneg_of_mul_nonneg_left this (lt_of_le_of_ne (by positivity) (Ne.symm hz))
  rw [norm_pow, pow_succ]
  simp only [norm_eq_abs] at h ⊢
  rcases hC0 with hz | hz
  · rw [hz] at h ⊢; simpa using h
  · rw [abs_of_nonneg hz] at h
    linarith

variable {g g1 g2 g3 : ℝ → ℝ} {σ : ℝ}

/-- The expansion of the Newton step. -/
theorem newton_expansion (hg : ∀ᶠ s in 𝓝 σ, HasDerivAt g (g1 s) s) (hg1 : ∀ᶠ s in 𝓝 σ, HasDerivAt g1 (g2 s) s)
    (hg2 : ∀ᶠ s in 𝓝 σ, HasDerivAt g2 (g3 s) s) (hg3 : DifferentiableAt ℝ g3 σ) (h0 : g σ = 0) (h1 : g1 σ ≠ 0) :
    (fun s => -g s / g1 s - (-(s - σ) + (g2 s / g1 s) * (s - σ) ^ 2 / 2 - (g3 s / g1 s) * (s - σ) ^ 3 / 6))
      =O[𝓝 σ] fun s => (s - σ) ^ 4 := by
  have hdiff : (fun s => g3 s - g3 σ) =O[𝓝 σ] fun s => s - σ := hg3.isBigO_sub
  set Q : ℝ → ℝ := fun s => g s - g1 s * (s - σ) + g2 s * (s - σ) ^ 2 / 2 - g3 σ * (s - σ) ^ 3 / 6 with hQdef
  have hQ : ∀ᶠ s in 𝓝 σ, HasDerivAt Q ((g3 s - g3 σ) * (s - σ) ^ 2 / 2) s := by
    filter_upwards [hg, hg1, hg2] with s a b c
    have hs : HasDerivAt (fun s => s - σ) 1 s := (hasDerivAt_id s).sub_const σ
    refine (((a.fun_sub (b.fun_mul hs)).fun_add ((c.fun_mul (hs.fun_pow 2)).div_const 2)).fun_sub
      (((hs.fun_pow 3).const_mul (g3 σ)).div_const 6)).congr_deriv ?_
    push_cast; ring
  have hQ' : (fun s => (g3 s - g3 σ) * (s - σ) ^ 2 / 2) =O[𝓝 σ] fun s => (s - σ) ^ 3 := by
    have := (hdiff.mul (isBigO_refl (fun s : ℝ => (s - σ) ^ 2) (𝓝 σ))).const_mul_left (1 / 2)
    refine (this.congr_left fun s => by ring).congr_right fun s => by ring
  have hQ4 := bigO_integrate 3 hQ (by simp [hQdef, h0]) hQ'
  have hR : (fun s => Q s - (g3 s - g3 σ) * (s - σ) ^ 3 / 6) =O[𝓝 σ] fun s => (s - σ) ^ 4 := by
    refine hQ4.sub ?_
    have := (hdiff.mul (isBigO_refl (fun s : ℝ => (s - σ) ^ 3) (𝓝 σ))).const_mul_left (1 / 6)
    refine (this.congr_left fun s => by ring).congr_right fun s => by ring
  have hc1 : ContinuousAt g1 σ := hg1.self_of_nhds.continuousAt
  have hinv : (fun s => -(g1 s)⁻¹) =O[𝓝 σ] fun _ => (1:ℝ) := ((hc1.inv₀ h1).neg).isBigO_one ℝ
  have := hR.mul hinv
  refine (this.congr' ?_ (by simp))
  filter_upwards [hc1.eventually_ne h1] with s hs
  simp only [hQdef]
  field_simp
  ring

/-- The iteration with exact ratios has order four. -/
theorem householder_order (hg : ∀ᶠ s in 𝓝 σ, HasDerivAt g (g1 s) s) (hg1 : ∀ᶠ s in 𝓝 σ, HasDerivAt g1 (g2 s) s)
    (hg2 : ∀ᶠ s in 𝓝 σ, HasDerivAt g2 (g3 s) s) (hg3 : DifferentiableAt ℝ g3 σ) (h0 : g σ = 0) (h1 : g1 σ ≠ 0) :
    (∀ᶠ s in 𝓝 σ, householderDen (-g s / g1 s) (g2 s / g1 s) (g3 s / g1 s) ≠ 0) ∧
    (fun s => next (fun s => -g s / g1 s) (fun s => g2 s / g1 s) (fun s => g3 s / g1 s) s - σ)
      =O[𝓝 σ] fun s => (s - σ) ^ 4 := by
  have hc : ContinuousAt g σ := hg.self_of_nhds.continuousAt
  have hc1 : ContinuousAt g1 σ := hg1.self_of_nhds.continuousAt
  have hc2 : ContinuousAt g2 σ := hg2.self_of_nhds.continuousAt
  have hc3 : ContinuousAt g3 σ := hg3.continuousAt
  have hcn : ContinuousAt (fun s => -g s / g1 s) σ := hc.neg.div hc1 h1
  have hcL : ContinuousAt (fun s => g2 s / g1 s) σ := hc2.div hc1 h1
  have hcK : ContinuousAt (fun s => g3 s / g1 s) σ := hc3.div hc1 h1
  have hρ := newton_expansion hg hg1 hg2 hg3 h0 h1
  set n : ℝ → ℝ := fun s => -g s / g1 s with hn
  set L : ℝ → ℝ := fun s => g2 s / g1 s with hL
  set K : ℝ → ℝ := fun s => g3 s / g1 s with hK
  set ρ : ℝ → ℝ := fun s => n s - (-(s - σ) + L s * (s - σ) ^ 2 / 2 - K s * (s - σ) ^ 3 / 6) with hρd
  have hn0 : n σ = 0 := by simp [hn, h0]
  have hden : ContinuousAt (fun s => householderDen (n s) (L s) (K s)) σ := by
    unfold householderDen; fun_prop
  have hden0 : householderDen (n σ) (L σ) (K σ) ≠ 0 := by simp [householderDen, hn0]
  refine ⟨hden.eventually_ne hden0, ?_⟩
  have o1 : ∀ f : ℝ → ℝ, ContinuousAt f σ → f =O[𝓝 σ] fun _ => (1:ℝ) := fun f hf => hf.isBigO_one ℝ
  have hid : ContinuousAt (fun s : ℝ => s - σ) σ := by fun_prop
  have e2 : (fun s : ℝ => (s - σ) ^ 4) =O[𝓝 σ] fun s => (s - σ) ^ 2 := by
    have := (isBigO_refl (fun s : ℝ => (s - σ) ^ 2) (𝓝 σ)).mul (o1 _ (hid.pow 2))
    refine (this.congr_left fun s => ?_).congr_right fun s => by simp
    simp only [Pi.pow_apply]; ring
  set B : ℝ → ℝ := fun s => (L s / 2 - K s * (s - σ) / 6) * (s - σ) ^ 2 + ρ s with hB
  have hBO : B =O[𝓝 σ] fun s => (s - σ) ^ 2 := by
    have hcoef : ContinuousAt (fun s => L s / 2 - K s * (s - σ) / 6) σ := by fun_prop
    have := (o1 _ hcoef).mul (isBigO_refl (fun s : ℝ => (s - σ) ^ 2) (𝓝 σ))
    refine IsBigO.add (this.congr_right fun s => by simp) (hρ.trans e2)
  have t1 : (fun s => L s / 2 * (B s * B s)) =O[𝓝 σ] fun s => (s - σ) ^ 4 :=
    ((o1 _ (hcL.div_const 2)).mul (hBO.mul hBO)).congr_right fun s => by ring
  have t2 : (fun s => K s / 3 * ((s - σ) ^ 2 * B s)) =O[𝓝 σ] fun s => (s - σ) ^ 4 :=
    ((o1 _ (hcK.div_const 3)).mul ((isBigO_refl (fun s : ℝ => (s - σ) ^ 2) (𝓝 σ)).mul hBO)).congr_right fun s => by ring
  have t3 : (fun s => K s * (s - σ) / 6 * (B s * B s)) =O[𝓝 σ] fun s => (s - σ) ^ 4 := by
    have hcoef : ContinuousAt (fun s => K s * (s - σ) / 6) σ := by fun_prop
    exact ((o1 _ hcoef).mul (hBO.mul hBO)).congr_right fun s => by ring
  have num := ((hρ.add t1).sub t2).add t3
  have hinv : (fun s => (householderDen (n s) (L s) (K s))⁻¹) =O[𝓝 σ] fun _ => (1:ℝ) := o1 _ (hden.inv₀ hden0)
  refine ((num.mul hinv).congr' ?_ (by simp))
  filter_upwards [hden.eventually_ne hden0] with s hs
  have hns : n s = -(s - σ) + B s := by simp only [hB, hρd]; ring
  have hρs : ρ s = B s - (L s / 2 - K s * (s - σ) / 6) * (s - σ) ^ 2 := by simp only [hB]; ring
  simp only [next]
  rw [hρs]
  rw [eq_comm, ← sub_eq_zero]
  have : s + n s * ((1 + 0.5 * L s * n s) / householderDen (n s) (L s) (K s)) - σ =
      ((s - σ) * householderDen (n s) (L s) (K s) + n s * (1 + 0.5 * L s * n s)) *
        (householderDen (n s) (L s) (K s))⁻¹ := by
    field_simp; ring
  rw [this, ← sub_mul]
  refine mul_eq_zero_of_left ?_ _
  rw [householderDen, hns]
  norm_num
  ring

/-- The iteration with a wrong second ratio has order two, and its leading term. -/
theorem householder_wrong (hg : ∀ᶠ s in 𝓝 σ, HasDerivAt g (g1 s) s) (hg1 : ∀ᶠ s in 𝓝 σ, HasDerivAt g1 (g2 s) s)
    (hg2 : ∀ᶠ s in 𝓝 σ, HasDerivAt g2 (g3 s) s) (hg3 : DifferentiableAt ℝ g3 σ) (h0 : g σ = 0) (h1 : g1 σ ≠ 0)
    {L' K' : ℝ → ℝ} (hL' : ContinuousAt L' σ) (hK' : ContinuousAt K' σ) :
    (∀ᶠ s in 𝓝 σ, householderDen (-g s / g1 s) (L' s) (K' s) ≠ 0) ∧
    Tendsto (fun s => (next (fun s => -g s / g1 s) L' K' s - σ) / (s - σ) ^ 2) (𝓝[≠] σ)
      (𝓝 ((g2 σ / g1 σ - L' σ) / 2)) := by
  have hc : ContinuousAt g σ := hg.self_of_nhds.continuousAt
  have hc1 : ContinuousAt g1 σ := hg1.self_of_nhds.continuousAt
  have hc2 : ContinuousAt g2 σ := hg2.self_of_nhds.continuousAt
  have hc3 : ContinuousAt g3 σ := hg3.continuousAt
  have hcn : ContinuousAt (fun s => -g s / g1 s) σ := hc.neg.div hc1 h1
  have hcL : ContinuousAt (fun s => g2 s / g1 s) σ := hc2.div hc1 h1
  have hcK : ContinuousAt (fun s => g3 s / g1 s) σ := hc3.div hc1 h1
  have hρ := newton_expansion hg hg1 hg2 hg3 h0 h1
  set n : ℝ → ℝ := fun s => -g s / g1 s with hn
  set L : ℝ → ℝ := fun s => g2 s / g1 s with hL
  set K : ℝ → ℝ := fun s => g3 s / g1 s with hK
  set ρ : ℝ → ℝ := fun s => n s - (-(s - σ) + L s * (s - σ) ^ 2 / 2 - K s * (s - σ) ^ 3 / 6) with hρd
  have hn0 : n σ = 0 := by simp [hn, h0]
  have hden : ContinuousAt (fun s => householderDen (n s) (L' s) (K' s)) σ := by
    unfold householderDen; fun_prop
  have hden0 : householderDen (n σ) (L' σ) (K' σ) ≠ 0 := by simp [householderDen, hn0]
  refine ⟨hden.eventually_ne hden0, ?_⟩
  -- `ρ / (s - σ)² → 0`
  have hρ2 : Tendsto (fun s => ρ s / (s - σ) ^ 2) (𝓝[≠] σ) (𝓝 0) := by
    have ho : ρ =o[𝓝 σ] fun s => (s - σ) ^ 2 := by
      refine hρ.trans_isLittleO ?_
      have h2 : (fun s : ℝ => (s - σ) ^ 2) =o[𝓝 σ] fun _ => (1:ℝ) := by
        rw [isLittleO_one_iff]
        have : ContinuousAt (fun s : ℝ => (s - σ) ^ 2) σ := by fun_prop
        simpa [ContinuousAt] using this
      refine ((isBigO_refl (fun s : ℝ => (s - σ) ^ 2) (𝓝 σ)).mul_isLittleO h2).congr (fun s => by ring) fun s => by simp
    exact (ho.mono nhdsWithin_le_nhds).tendsto_div_nhds_zero
  set q : ℝ → ℝ := fun s => L s / 2 - K s * (s - σ) / 6 + ρ s / (s - σ) ^ 2 with hq
  have hqt : Tendsto q (𝓝[≠] σ) (𝓝 (L σ / 2)) := by
    have hcoef : ContinuousAt (fun s => L s / 2 - K s * (s - σ) / 6) σ := by fun_prop
    have := (hcoef.tendsto.mono_left (nhdsWithin_le_nhds (s := {σ}ᶜ))).add hρ2
    simpa using this
  have ht : Tendsto (fun s : ℝ => s - σ) (𝓝[≠] σ) (𝓝 0) := by
    have : ContinuousAt (fun s : ℝ => s - σ) σ := by fun_prop
    simpa using this.tendsto.mono_left (nhdsWithin_le_nhds (s := {σ}ᶜ))
  have hL't : Tendsto L' (𝓝[≠] σ) (𝓝 (L' σ)) := hL'.tendsto.mono_left nhdsWithin_le_nhds
  have hK't : Tendsto K' (𝓝[≠] σ) (𝓝 (K' σ)) := hK'.tendsto.mono_left nhdsWithin_le_nhds
  have hdt : Tendsto (fun s => (householderDen (n s) (L' s) (K' s))⁻¹) (𝓝[≠] σ) (𝓝 1) := by
    have : Tendsto (fun s => (householderDen (n s) (L' s) (K' s))⁻¹) (𝓝[≠] σ) (𝓝 (householderDen (n σ) (L' σ) (K' σ))⁻¹) :=
      (hden.inv₀ hden0).tendsto.mono_left nhdsWithin_le_nhds
    simpa [householderDen, hn0] using this
  have main : Tendsto (fun s => (q s - L' s / 2 * (1 - (s - σ) ^ 2 * q s ^ 2)
      + K' s / 6 * (s - σ) * (1 - (s - σ) * q s) ^ 2) * (householderDen (n s) (L' s) (K' s))⁻¹) (𝓝[≠] σ)
      (𝓝 ((L σ / 2 - L' σ / 2 * (1 - 0 ^ 2 * (L σ / 2) ^ 2) + K' σ / 6 * 0 * (1 - 0 * (L σ / 2)) ^ 2) * 1)) :=
    ((hqt.sub ((hL't.div_const 2).mul (tendsto_const_nhds.sub ((ht.pow 2).mul (hqt.pow 2))))).add
      (((hK't.div_const 6).mul ht).mul ((tendsto_const_nhds.sub (ht.mul hqt)).pow 2))).mul hdt
  have hval : (L σ / 2 - L' σ / 2 * (1 - 0 ^ 2 * (L σ / 2) ^ 2) + K' σ / 6 * 0 * (1 - 0 * (L σ / 2)) ^ 2) * 1 =
      (g2 σ / g1 σ - L' σ) / 2 := by simp only [hL]; ring
  rw [← hval]
  refine main.congr' ?_
  filter_upwards [(hden.eventually_ne hden0).filter_mono nhdsWithin_le_nhds, self_mem_nhdsWithin] with s hs hne
  have hne' : s - σ ≠ 0 := sub_ne_zero.2 hne
  have hns : n s = -(s - σ) + (s - σ) ^ 2 * q s := by
    simp only [hq, hρd]; field_simp; ring
  simp only [next]
  have : s + n s * ((1 + 0.5 * L' s * n s) / householderDen (n s) (L' s) (K' s)) - σ =
      ((s - σ) * householderDen (n s) (L' s) (K' s) + n s * (1 + 0.5 * L' s * n s)) *
        (householderDen (n s) (L' s) (K' s))⁻¹ := by
    field_simp; ring
  rw [this, mul_div_right_comm]
  congr 1
  rw [eq_div_iff (pow_ne_zero 2 hne'), householderDen, hns]
  norm_num
  ring

end Verif.ImpliedVol
