import Mathlib.Analysis.InnerProductSpace.PiL2

/-!
# Real inequalities behind the accuracy of correlations
-/

namespace Verif.Float.Corr

/-! ## Lists as vectors -/

/-- The values of a function along a list, as a vector. -/
noncomputable def vec {α : Type} (L : List α) (f : α → ℝ) : EuclideanSpace ℝ (Fin L.length) := WithLp.toLp 2 fun i => f L[i]

theorem vec_inner {α : Type} (L : List α) (f g : α → ℝ) : inner ℝ (vec L f) (vec L g) = (L.map fun p => f p * g p).sum := by
  have := Fin.sum_univ_fun_getElem L (fun p => f p * g p)
  rw [← this]
  simp [vec, PiLp.inner_apply, mul_comm]

theorem vec_norm {α : Type} (L : List α) (f : α → ℝ) : ‖vec L f‖ = √(L.map fun p => f p ^ 2).sum := by
  rw [@norm_eq_sqrt_real_inner, vec_inner]
  simp only [pow_two]

theorem vec_sub {α : Type} (L : List α) (f g : α → ℝ) : vec L f - vec L g = vec L fun p => f p - g p := by
  ext i; simp [vec]

/-- The Cauchy-Schwarz inequality, with absolute values. -/
theorem cs_abs {α : Type} (L : List α) (f g : α → ℝ) : (L.map fun p => |f p * g p|).sum ≤ ‖vec L f‖ * ‖vec L g‖ := by
  have h := real_inner_le_norm (vec L fun p => |f p|) (vec L fun p => |g p|)
  rw [vec_inner, vec_norm, vec_norm] at h
  simp only [sq_abs, ← abs_mul] at h
  rwa [vec_norm, vec_norm]

theorem unit_near {E : Type} [NormedAddCommGroup E] [InnerProductSpace ℝ E] (a d : E) (ha : a ≠ 0) (hd : d ≠ 0) :
    ‖(‖a‖⁻¹ : ℝ) • a - (‖d‖⁻¹ : ℝ) • d‖ ≤ 2 * (‖a - d‖ / ‖d‖) := by
  have ha' := norm_pos_iff.2 ha
  have hd' := norm_pos_iff.2 hd
  have e : (‖a‖⁻¹ : ℝ) • a - (‖d‖⁻¹ : ℝ) • d = (‖d‖⁻¹ : ℝ) • (a - d) + (‖a‖⁻¹ - ‖d‖⁻¹ : ℝ) • a := by
    rw [smul_sub, sub_smul]; abel
  rw [e]
  refine (norm_add_le _ _).trans ?_
  rw [norm_smul, norm_smul, Real.norm_eq_abs, Real.norm_eq_abs, abs_of_pos (inv_pos.2 hd')]
  have h1 : |‖a‖⁻¹ - ‖d‖⁻¹| * ‖a‖ = |‖d‖ - ‖a‖| / ‖d‖ := by
    rw [inv_sub_inv ha'.ne' hd'.ne', abs_div, abs_of_pos (mul_pos ha' hd')]
    field_simp
  rw [h1]
  have h2 : |‖d‖ - ‖a‖| ≤ ‖a - d‖ := by rw [abs_sub_comm]; exact abs_norm_sub_norm_le a d
  have h3 := div_le_div_of_nonneg_right h2 hd'.le
  rw [inv_mul_eq_div]
  linarith

/-- How much the cosine of the angle between two vectors changes with the vectors. -/
theorem cos_near {E : Type} [NormedAddCommGroup E] [InnerProductSpace ℝ E] (a b d e : E) (ha : a ≠ 0) (hb : b ≠ 0)
    (hd : d ≠ 0) (he : e ≠ 0) :
    |inner ℝ a b / (‖a‖ * ‖b‖) - inner ℝ d e / (‖d‖ * ‖e‖)| ≤ 2 * (‖a - d‖ / ‖d‖) + 2 * (‖b - e‖ / ‖e‖) := by
  have e1 : ∀ x y : E, inner ℝ x y / (‖x‖ * ‖y‖) = inner ℝ ((‖x‖⁻¹ : ℝ) • x) ((‖y‖⁻¹ : ℝ) • y) := by
    intro x y
    rw [real_inner_smul_left, real_inner_smul_right, div_eq_mul_inv, mul_inv]; ring
  have n1 : ∀ x : E, x ≠ 0 → ‖(‖x‖⁻¹ : ℝ) • x‖ = 1 := by
    intro x hx
    rw [norm_smul, norm_inv, norm_norm, inv_mul_cancel₀ (norm_pos_iff.2 hx).ne']
  rw [e1, e1]
  have h1 := unit_near a d ha hd
  have h2 := unit_near b e hb he
  have nb := n1 b hb
  have nd := n1 d hd
  generalize (‖a‖⁻¹ : ℝ) • a = a' at *
  generalize (‖b‖⁻¹ : ℝ) • b = b' at *
  generalize (‖d‖⁻¹ : ℝ) • d = d' at *
  generalize (‖e‖⁻¹ : ℝ) • e = e' at *
  have e2 : (inner ℝ a' b' : ℝ) - inner ℝ d' e' = inner ℝ (a' - d') b' + inner ℝ d' (b' - e') := by
    rw [inner_sub_left, inner_sub_right]; ring
  rw [e2]
  refine (abs_add_le _ _).trans ?_
  have h3 := abs_real_inner_le_norm (a' - d') b'
  have h4 := abs_real_inner_le_norm d' (b' - e')
  rw [nb, mul_one] at h3
  rw [nd, one_mul] at h4
  linarith

/-! ## Chains of roundings -/

theorem mul_near {x y X Y a b : ℝ} (hX : 0 ≤ X) (hY : 0 ≤ Y) (ha : 0 ≤ a) (h1 : |x - X| ≤ a * X) (h2 : |y - Y| ≤ b * Y) :
    |x * y - X * Y| ≤ (a + b + a * b) * (X * Y) := by
  have e : x * y - X * Y = (x - X) * (y - Y) + (x - X) * Y + X * (y - Y) := by ring
  rw [e]
  refine (abs_add_three _ _ _).trans ?_
  rw [abs_mul, abs_mul, abs_mul, abs_of_nonneg hX, abs_of_nonneg hY]
  have h3 : |x - X| * |y - Y| ≤ (a * X) * (b * Y) := mul_le_mul h1 h2 (abs_nonneg _) (mul_nonneg ha hX)
  have h4 := mul_le_mul_of_nonneg_right h1 hY
  have h5 := mul_le_mul_of_nonneg_left h2 hX
  nlinarith

theorem sqrt_near {x X a : ℝ} (hX : 0 < X) (ha : a ≤ 1) (h : |x - X| ≤ a * X) : |√x - √X| ≤ a * √X := by
  have hs := Real.sqrt_pos.2 hX
  have hx : 0 ≤ x := by have := (abs_le.1 h).1; nlinarith
  have h1 : |√x - √X| * √X ≤ a * √X * √X := by
    calc |√x - √X| * √X ≤ |√x - √X| * (√x + √X) := by
          refine mul_le_mul_of_nonneg_left ?_ (abs_nonneg _)
          linarith [Real.sqrt_nonneg x]
      _ = |x - X| := by
          rw [← abs_of_pos (show 0 < √x + √X by linarith [Real.sqrt_nonneg x]), ← abs_mul]
          congr 1
          nlinarith [Real.mul_self_sqrt hx, Real.mul_self_sqrt hX.le]
      _ ≤ a * X := h
      _ = a * √X * √X := by rw [mul_assoc, Real.mul_self_sqrt hX.le]
  exact le_of_mul_le_mul_right h1 hs

/-- A rounded quotient by `N` of a sum known up to `g`. -/
theorem quot_near {c D N g u μ S v : ℝ} (hN : 1 ≤ N) (hg1 : g ≤ 1) (hu : 0 < u) (hD : 0 < D) (hc : |c| ≤ D)
    (hμ : μ * N ≤ u * D) (h1 : |S - c| ≤ g * D) (h2 : |v - S / N| ≤ u * |S / N| + μ) :
    |v - c / N| ≤ (g + 3 * u) * (D / N) := by
  have hN0 : 0 < N := by linarith
  have h3 : |S / N - c / N| ≤ g * (D / N) := by
    rw [← sub_div, abs_div, abs_of_pos hN0, ← mul_div_assoc]
    exact div_le_div_of_nonneg_right h1 hN0.le
  have h4 : |c / N| ≤ D / N := by rw [abs_div, abs_of_pos hN0]; exact div_le_div_of_nonneg_right hc hN0.le
  have h5 : |S / N| ≤ (1 + g) * (D / N) := by
    calc |S / N| = |(S / N - c / N) + c / N| := by rw [sub_add_cancel]
      _ ≤ _ := (abs_add_le _ _).trans (by linarith)
  have h6 : μ ≤ u * (D / N) := by rw [← mul_div_assoc, le_div_iff₀ hN0]; exact hμ
  have hDN : 0 < D / N := div_pos hD hN0
  generalize D / N = q at *
  rw [show v - c / N = (v - S / N) + (S / N - c / N) by ring]
  refine (abs_add_le _ _).trans ?_
  have h7 : u * |S / N| ≤ u * ((1 + g) * q) := mul_le_mul_of_nonneg_left h5 hu.le
  have h8 : u * q * g ≤ u * q * 1 := mul_le_mul_of_nonneg_left hg1 (by positivity)
  nlinarith

/-- A rounded standard deviation. -/
theorem sd_near {α N g u μ S v s : ℝ} (hN : 1 ≤ N) (hg : 0 ≤ g) (hg1 : g ≤ 1 / 1000) (hu : 0 < u) (hu1 : u ≤ 1 / 1000000)
    (hα : 0 < α) (hμ : μ * N ≤ u * α ^ 2) (h1 : |S - α ^ 2| ≤ g * α ^ 2) (h2 : |v - S / N| ≤ u * |S / N| + μ)
    (h3 : |s - √v| ≤ 2 * u * √v) : |s - α / √N| ≤ (g + 6 * u) * (α / √N) := by
  have hN0 : 0 < N := by linarith
  have h4 := quot_near (c := α ^ 2) hN (by linarith) hu (by positivity) (by rw [abs_of_nonneg (by positivity)]) hμ h1 h2
  have h5 := sqrt_near (by positivity) (by linarith) h4
  have e : √(α ^ 2 / N) = α / √N := by rw [Real.sqrt_div' _ hN0.le, Real.sqrt_sq hα.le]
  rw [e] at h5
  have hq : 0 < α / √N := div_pos hα (Real.sqrt_pos.2 hN0)
  generalize α / √N = q at *
  have h6 : √v ≤ (1 + (g + 3 * u)) * q := by linarith [(abs_le.1 h5).2]
  have h7 : 2 * u * √v ≤ 3 * u * q := by
    have : 2 * u * √v ≤ 2 * u * ((1 + (g + 3 * u)) * q) := mul_le_mul_of_nonneg_left h6 (by linarith)
    have h8 : u * q * (g + 3 * u) ≤ u * q * (1 / 4) := mul_le_mul_of_nonneg_left (by linarith) (by positivity)
    nlinarith
  rw [show s - q = (s - √v) + (√v - q) by ring]
  refine (abs_add_le _ _).trans ?_
  linarith

/-- The computed product of the standard deviations. -/
theorem prod_near {α β N g u μ sx sy p : ℝ} (hN : 1 ≤ N) (hg : 0 ≤ g) (hg1 : g ≤ 1 / 1000) (hu : 0 < u) (hu1 : u ≤ 1 / 1000000)
    (hα : 0 < α) (hβ : 0 < β) (hμ : μ * N ≤ u * (α * β)) (h1 : |sx - α / √N| ≤ (g + 6 * u) * (α / √N))
    (h2 : |sy - β / √N| ≤ (g + 6 * u) * (β / √N)) (h3 : |p - sx * sy| ≤ u * |sx * sy| + μ) :
    |sx * sy| ≤ 2 * (α * β / N) ∧ |p - α * β / N| ≤ (202 / 100 * g + 16 * u) * (α * β / N) := by
  have hN0 : 0 < N := by linarith
  have hs := Real.sqrt_pos.2 hN0
  have h4 := mul_near (by positivity) (by positivity) (by linarith) h1 h2
  have e : α / √N * (β / √N) = α * β / N := by rw [div_mul_div_comm, Real.mul_self_sqrt hN0.le]
  rw [e] at h4
  have h6 : μ ≤ u * (α * β / N) := by rw [← mul_div_assoc, le_div_iff₀ hN0]; exact hμ
  have hq : 0 < α * β / N := by positivity
  generalize α * β / N = q at *
  have hk : g + 6 * u + (g + 6 * u) + (g + 6 * u) * (g + 6 * u) ≤ 2003 / 1000 * (g + 6 * u) := by nlinarith
  have h4' := h4.trans (mul_le_mul_of_nonneg_right hk hq.le)
  have h7 : |sx * sy| ≤ (1 + 2003 / 1000 * (g + 6 * u)) * q := by
    calc |sx * sy| = |(sx * sy - q) + q| := by rw [sub_add_cancel]
      _ ≤ _ := (abs_add_le _ _).trans (by rw [abs_of_pos hq]; linarith)
  refine ⟨by nlinarith, ?_⟩
  rw [show p - q = (p - sx * sy) + (sx * sy - q) by ring]
  refine (abs_add_le _ _).trans ?_
  have h8 : u * |sx * sy| ≤ u * (3 / 2 * q) := mul_le_mul_of_nonneg_left (h7.trans (mul_le_mul_of_nonneg_right (by linarith) hq.le)) hu.le
  nlinarith [mul_nonneg hg hq.le, mul_nonneg hu.le hq.le]

/-- The computed quotient. -/
theorem corr_near {c D N g u μ cov p r : ℝ} (hN : 1 ≤ N) (hg : 0 ≤ g) (hg1 : g ≤ 1 / 1000) (hu : 0 < u) (hu1 : u ≤ 1 / 1000000)
    (hD : 0 < D) (hc : |c| ≤ D) (hμ : μ ≤ u) (h1 : |cov - c / N| ≤ (g + 3 * u) * (D / N))
    (h2 : |p - D / N| ≤ (202 / 100 * g + 16 * u) * (D / N)) (h3 : |r - cov / p| ≤ u * |cov / p| + μ) :
    0 < p ∧ |cov / p| ≤ 2 ∧ |r - c / D| ≤ 4 * g + 32 * u := by
  have hN0 : 0 < N := by linarith
  have hq : 0 < D / N := by positivity
  have ec : c / N = (c / D) * (D / N) := by field_simp
  have hcD : |c / D| ≤ 1 := by rw [abs_div, abs_of_pos hD, div_le_one hD]; exact hc
  rw [ec] at h1
  generalize D / N = q at *
  generalize c / D = t at *
  have hk : 202 / 100 * g + 16 * u ≤ 1 / 400 := by linarith
  have hp : (1 - 1 / 400) * q ≤ p := by
    have := (abs_le.1 h2).1
    have := mul_le_mul_of_nonneg_right hk hq.le
    linarith
  have hp0 : 0 < p := lt_of_lt_of_le (by linarith) hp
  have h4 : |cov / p - t| ≤ 102 / 100 * (302 / 100 * g + 19 * u) := by
    have e : cov / p - t = (cov - t * p) / p := by field_simp
    rw [e, abs_div, abs_of_pos hp0, div_le_iff₀ hp0]
    have e2 : cov - t * p = (cov - t * q) - t * (p - q) := by ring
    rw [e2]
    refine (abs_sub _ _).trans ?_
    have h5 : |t * (p - q)| ≤ 1 * ((202 / 100 * g + 16 * u) * q) := by
      rw [abs_mul]; exact mul_le_mul hcD h2 (abs_nonneg _) (by norm_num)
    have h6 : 102 / 100 * (302 / 100 * g + 19 * u) * ((1 - 1 / 400) * q) ≤ 102 / 100 * (302 / 100 * g + 19 * u) * p :=
      mul_le_mul_of_nonneg_left hp (by linarith)
    nlinarith [mul_nonneg hg hq.le, mul_nonneg hu.le hq.le]
  have h5 : |cov / p| ≤ 102 / 100 := by
    calc |cov / p| = |(cov / p - t) + t| := by rw [sub_add_cancel]
      _ ≤ _ := (abs_add_le _ _).trans (by linarith)
  refine ⟨hp0, by linarith, ?_⟩
  rw [show r - t = (r - cov / p) + (cov / p - t) by ring]
  refine (abs_add_le _ _).trans ?_
  have := mul_le_mul_of_nonneg_left h5 hu.le
  linarith

end Verif.Float.Corr
