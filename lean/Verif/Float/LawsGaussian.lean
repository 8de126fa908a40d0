import Verif.Float.LawsExpProps
import Verif.Float.BlackScholesTerms
import Verif.Float.BlackScholesProps

/-!
# C106: the accuracy of Gaussian distribution functions in double precision
-/

namespace Verif.Float.Laws

open X64 Nan Verif.Float.Sim Verif.Float.Bsm
open Verif.Float.Fft (ur mu top ur_pos mu_pos)

/-- Moving the argument of the normal distribution function by a part of itself. -/
theorem Phi_move {y z ε η : ℝ} (hε : 0 ≤ ε) (hε1 : ε ≤ 1 / 4) (hη : 0 ≤ η) (h : |z - y| ≤ ε * |y| + η) :
    |Phi z - Phi y| ≤ 2 / 5 * ε + 2 / 5 * η := by
  have hy := abs_nonneg y
  -- a point between, at a part of `y`
  obtain ⟨w, w1, w2⟩ : ∃ w, |w - y| ≤ ε * |y| ∧ |z - w| ≤ η := by
    have he : 0 ≤ ε * |y| := mul_nonneg hε hy
    rcases le_total |z - y| (ε * |y|) with g | g
    · exact ⟨z, g, by rw [sub_self, abs_zero]; exact hη⟩
    · rcases le_total y z with k | k
      · have e : |z - y| = z - y := abs_of_nonneg (by linarith)
        rw [e] at h g
        exact ⟨y + ε * |y|, by rw [add_sub_cancel_left, abs_of_nonneg he], by rw [abs_of_nonneg (by linarith)]; linarith⟩
      · have e : |z - y| = -(z - y) := abs_of_nonpos (by linarith)
        rw [e] at h g
        refine ⟨y - ε * |y|, ?_, ?_⟩
        · rw [show y - ε * |y| - y = -(ε * |y|) by ring, abs_neg, abs_of_nonneg he]
        · rw [abs_of_nonpos (by linarith)]; linarith
  have h1 := Phi_lip z w
  have h2 : |Phi w - Phi y| ≤ 2 / 5 * ε := by
    have hb : ∀ t ∈ segment ℝ y w, ‖Distributions.Gaussian.std.pdf t‖ ≤ 2 / 5 * Real.exp (-(9 / 32 * y ^ 2)) := by
      intro t ht
      have h3 : |t - y| ≤ |w - y| := by
        rw [segment_eq_image'] at ht
        obtain ⟨θ, ⟨θ0, θ1⟩, rfl⟩ := ht
        simp only [smul_eq_mul, add_sub_cancel_left]
        rw [abs_mul, abs_of_nonneg θ0]
        exact mul_le_of_le_one_left (abs_nonneg _) θ1
      have h4 : 3 / 4 * |y| ≤ |t| := by
        have : |y| ≤ |t| + |t - y| := by
          calc |y| = |t - (t - y)| := by congr 1; ring
            _ ≤ _ := abs_sub _ _
        have : ε * |y| ≤ 1 / 4 * |y| := mul_le_mul_of_nonneg_right hε1 hy
        linarith
      have h5 : 9 / 16 * y ^ 2 ≤ t ^ 2 := by
        rw [← sq_abs y, ← sq_abs t]
        nlinarith [abs_nonneg t]
      rw [Real.norm_of_nonneg (Distributions.Gaussian.std_pdf_pos t).le, Distributions.Gaussian.std_pdf]
      have h6 : (5 / 2 : ℝ) ≤ √(2 * Real.pi) := by
        apply Real.le_sqrt_of_sq_le
        nlinarith [Real.pi_gt_d2]
      have h7 : (√(2 * Real.pi))⁻¹ ≤ 2 / 5 := by
        rw [inv_le_comm₀ (by positivity) (by norm_num)]; norm_num at h6 ⊢; exact h6
      refine mul_le_mul h7 (Real.exp_le_exp.2 (by linarith)) (Real.exp_pos _).le (by norm_num)
    have hd : ‖Distributions.Gaussian.std.cdf w - Distributions.Gaussian.std.cdf y‖ ≤ 2 / 5 * Real.exp (-(9 / 32 * y ^ 2)) * ‖w - y‖ :=
      (convex_segment y w).norm_image_sub_le_of_norm_hasDerivWithin_le (f := Distributions.Gaussian.std.cdf)
        (fun z _ => (Distributions.Gaussian.std_cdf_hasDerivAt z).hasDerivWithinAt) hb (left_mem_segment ℝ y w) (right_mem_segment ℝ y w)
    rw [Real.norm_eq_abs, Real.norm_eq_abs] at hd
    rw [Phi_eq, Phi_eq]
    refine hd.trans ?_
    have h8 : |y| * Real.exp (-(9 / 32 * y ^ 2)) ≤ 1 := by
      rw [Real.exp_neg, ← div_eq_mul_inv, div_le_one (Real.exp_pos _)]
      have := Real.add_one_le_exp (9 / 32 * y ^ 2)
      rw [← sq_abs y] at this ⊢
      nlinarith [sq_nonneg (|y| - 16 / 9)]
    have h9 := Real.exp_pos (-(9 / 32 * y ^ 2))
    calc 2 / 5 * Real.exp (-(9 / 32 * y ^ 2)) * |w - y| ≤ 2 / 5 * Real.exp (-(9 / 32 * y ^ 2)) * (ε * |y|) := by gcongr
      _ = 2 / 5 * ε * (|y| * Real.exp (-(9 / 32 * y ^ 2))) := by ring
      _ ≤ 2 / 5 * ε * 1 := by gcongr
      _ = _ := by ring
  have h3 := abs_sub_le (Phi z) (Phi w) (Phi y)
  linarith

theorem real_val_pos {a : F64} (h : 0 < a.val) : 0 < F64.real a := by unfold F64.real; exact_mod_cast h

/-- Positive doubles lie between `2^-1080` and `2^1080`. -/
theorem box_double (v : F64) (hv : 0 < v.val) : Box (540 + 540) (F64.real v) := by
  have h1 : (2 : ℚ) ^ (-1080 : ℤ) ≤ v.val := by
    obtain ⟨n, hn⟩ := rep_grid v.rep
    have hn1 : 1 ≤ n := by
      by_contra hc
      have : (n : ℚ) ≤ 0 := by exact_mod_cast (by omega : n ≤ 0)
      have := mul_nonpos_of_nonpos_of_nonneg this (zpos (-1074)).le
      rw [← hn] at this
      linarith
    have h2 : (1 : ℚ) ≤ n := by exact_mod_cast hn1
    have h3 : (2 : ℚ) ^ (-1080 : ℤ) ≤ 2 ^ (-1074 : ℤ) := (zpow_le_iff _ _).2 (by norm_num)
    have h4 := mul_le_mul_of_nonneg_right h2 (zpos (-1074)).le
    rw [one_mul] at h4
    rw [hn]
    exact h3.trans h4
  have h2 : v.val ≤ 2 ^ 1080 := (lt_of_abs_lt v.fin).le.trans (pow_le_pow_right₀ (by norm_num) (by norm_num))
  apply Box.of
  constructor
  · have := (Rat.cast_le (K := ℝ)).2 h1
    rw [Rat.cast_zpow] at this
    exact this
  · have := (Rat.cast_le (K := ℝ)).2 h2
    rw [Rat.cast_pow] at this
    exact this

/-- C106: the distribution function of a Gaussian distribution is right to `4 δ`, if the platform's square root has relative error and its
`erfc` absolute error at most `δ`: for every finite mean and positive finite variance, and arguments up to `2^200` standard deviations away. -/
theorem C106_gaussian_cdf_error (l : Lib) (δ : ℝ) (hδ : 2 ^ (-52 : ℤ) ≤ δ) (hδ' : δ ≤ 2 ^ (-20 : ℤ))
    (hsqrt : ∀ a : F64, 0 < a.val → ∃ s : F64, l.sqrt (fin a) = fin s ∧ |F64.real s - √(F64.real a)| ≤ δ * √(F64.real a))
    (herfc : ∀ a : F64, ∃ c : F64, l.erfc (fin a) = fin c ∧ |F64.real c - Distributions.erfc (F64.real a)| ≤ δ)
    (m v x : F64) (hv : 0 < v.val) (hx : |F64.real x - F64.real m| ≤ 2 ^ 200 * √(F64.real v)) :
    ∃ c : F64, Gaussian.cdf l ⟨fin m, fin v⟩ (fin x) = some (fin c) ∧
      |F64.real c - ProbabilityTheory.cdf (ProbabilityTheory.gaussianReal (F64.real m) (F64.real v).toNNReal) (F64.real x)| ≤ 4 * δ := by
  have hf : Fine δ := ⟨hδ, hδ'⟩
  have hδ0 := hf.pos
  have hδ1 := hf.le
  have hδu := hf.ur
  have hu := ur_pos
  have hmu := mu_pos
  have hmu4 := mu_ur
  have hv' := real_val_pos hv
  have hbox := (box_double v hv).sqrt
  have hr0 := hbox.pos
  rw [← Distributions.Gaussian.cdf_law _ _ hv', Distributions.Gaussian.cdf_std, ← Phi_eq]
  set R := √(F64.real v) with hR
  set y := (F64.real x - F64.real m) / R with hy
  have hys : |y| ≤ 2 ^ 200 := by rw [hy, abs_div, abs_of_pos hr0, div_le_iff₀ hr0]; exact hx
  obtain ⟨s, s1, s2⟩ := hsqrt v hv
  obtain ⟨half, h2, r2⟩ := half_some
  obtain ⟨q, h3, r3⟩ := sqrt2_some hf
  have hs2 : (7 / 5 : ℝ) ≤ √2 := Real.le_sqrt_of_sq_le (by norm_num)
  have hs2' : √2 ≤ 3 / 2 := Real.sqrt_le_iff.2 ⟨by norm_num, by norm_num⟩
  -- the denominator
  obtain ⟨den, h5, r5⟩ := mulN (a := q) (b := s) (A := √2) (B := R) (α := δ) (β := δ)
    (by rw [abs_of_nonneg (Real.sqrt_nonneg 2)]; exact r3) (by rw [abs_of_pos hr0]; exact s2) hδ0.le (by linarith) hδ0.le (by linarith)
    (by
      rw [abs_of_nonneg (by positivity)]
      exact Box.mono (Box.mul (i := 1) ⟨by rw [pow_one]; linarith, by rw [pow_one]; linarith⟩ hbox) (by norm_num))
  have hpos : 0 < √2 * R := by positivity
  rw [abs_of_pos hpos] at r5
  have r5' : |F64.real den / R - √2| ≤ 4 * δ * √2 := by
    rw [show F64.real den / R - √2 = (F64.real den - √2 * R) / R by field_simp, abs_div, abs_of_pos hr0, div_le_iff₀ hr0]
    refine r5.trans ?_
    rw [mul_assoc (4 * δ)]
    refine mul_le_mul_of_nonneg_right ?_ hpos.le
    nlinarith
  have hden : R ≤ F64.real den := by
    have h1 := (abs_le.1 r5').1
    have h2 : 1 ≤ F64.real den / R := by nlinarith
    rwa [le_div_iff₀ hr0, one_mul] at h2
  -- the difference
  have hRbig : R ≤ 2 ^ 540 := hbox.2
  obtain ⟨n, n1, n2⟩ := subR (a := x) (b := m) (by
    refine hx.trans (top_of 740 (by norm_num) ?_)
    calc (2 : ℝ) ^ 200 * R ≤ 2 ^ 200 * 2 ^ 540 := by gcongr
      _ = 2 ^ 740 := by rw [← pow_add])
  have hxy : F64.real x - F64.real m = y * R := by rw [hy]; field_simp
  have hnX : |F64.real n / R - y| ≤ ur * |y| := by
    rw [hxy] at n2
    rw [show F64.real n / R - y = (F64.real n - y * R) / R by field_simp, abs_div, abs_of_pos hr0, div_le_iff₀ hr0]
    rw [abs_mul, abs_of_pos hr0] at n2
    linarith
  have hX : |F64.real n / R| ≤ 21 / 20 * |y| := by
    rw [show F64.real n / R = (F64.real n / R - y) + y by ring]
    refine (abs_add_le _ _).trans ?_
    have : ur * |y| ≤ 1 / 20 * |y| := mul_le_mul_of_nonneg_right (by linarith) (abs_nonneg y)
    linarith
  -- the quotient
  have hq : |F64.real (neg n) / F64.real den| ≤ 2 ^ 201 := by
    rw [real_neg, abs_div, abs_neg, abs_of_pos (by linarith : 0 < F64.real den)]
    rw [abs_div, abs_of_pos hr0] at hX
    calc |F64.real n| / F64.real den ≤ |F64.real n| / R := by gcongr
      _ ≤ 21 / 20 * |y| := hX
      _ ≤ 21 / 20 * 2 ^ 200 := by gcongr
      _ ≤ 2 ^ 201 := by norm_num
  obtain ⟨a, h6, r6⟩ := divR (a := neg n) (b := den) (by linarith) (top_of 201 (by norm_num) hq)
  rw [real_neg] at r6
  have hquot : -F64.real n / F64.real den = -(F64.real n / R) / (F64.real den / R) := by
    have : F64.real den ≠ 0 := by linarith
    field_simp
  rw [hquot] at r6
  have e1 := cdf_arg hδ0 hδ1 hδu hu hmu.le r5' r6
  have e2 : |-(√2 * F64.real a) - y| ≤ 6 * δ * |y| + 2 * mu := by
    have h1 := abs_sub_le (-(√2 * F64.real a)) (F64.real n / R) y
    have h2 := mul_le_mul_of_nonneg_left hX (by positivity : 0 ≤ 5 * δ)
    have h3 : ur * |y| ≤ δ / 2 * |y| := mul_le_mul_of_nonneg_right (by linarith) (abs_nonneg y)
    have h4 : 0 ≤ δ * |y| := by positivity
    linarith
  have e3 := Phi_move (by positivity) (by linarith) (by positivity) e2
  obtain ⟨f, h7, r7⟩ := herfc a
  rw [erfc_eq] at r7
  have hP := Phi_mem (-(√2 * F64.real a))
  have hf : |F64.real half * F64.real f| ≤ (11 / 10) := by
    rw [r2, abs_le]
    have := abs_le.1 r7
    constructor <;> linarith
  obtain ⟨c, h8, r8⟩ := mulR (a := half) (b := f) (top_of 1 (by norm_num) (hf.trans (by norm_num)))
  refine ⟨c, ?_, ?_⟩
  · have hvt : zero.lt (fin v) = true := (zero_lt_fin _).2 hv
    have hd0 : den.val ≠ 0 := by
      intro h0
      have : F64.real den = 0 := by unfold F64.real; rw [h0]; norm_num
      linarith
    have k1 : ofQ 1.41421356237309504880168872420969808 = fin q := Nan.fin_of h3
    have k2 : (fin q).mul (fin s) = fin den := Nan.fin_of h5
    have k3 : (fin x).sub (fin m) = fin n := Nan.sub_of n1
    have k4 : (fin n).neg = fin (neg n) := by
      change ofQ (-n.val) = _
      exact ofQ_val (neg n)
    have k5 : (fin (neg n)).div (fin den) = fin a := by
      change (if den.val = 0 then _ else ofQ ((neg n).val / den.val)) = _
      rw [if_neg hd0]
      unfold F64.div at h6
      rw [if_neg hd0] at h6
      exact Nan.fin_of h6
    have k6 : ofQ (1 / 2) = fin half := Nan.fin_of h2
    have k7 : (fin half).mul (fin f) = fin c := Nan.fin_of h8
    unfold Gaussian.cdf
    simp only [hvt, if_true]
    rw [s1, k1, k2, k3, k4, k5, h7, k6, k7]
  · rw [show F64.real c - Phi y = (F64.real c - F64.real half * F64.real f) +
      (F64.real half * F64.real f - Phi (-(√2 * F64.real a))) + (Phi (-(√2 * F64.real a)) - Phi y) by ring]
    refine (abs_add_le _ _).trans (_root_.add_le_add (abs_add_le _ _) le_rfl |>.trans ?_)
    have e4 : |F64.real half * F64.real f - Phi (-(√2 * F64.real a))| ≤ δ / 2 := by
      rw [r2, abs_le]
      have := abs_le.1 r7
      constructor <;> linarith
    have e5 : ur * |F64.real half * F64.real f| ≤ ur * (11 / 10) := mul_le_mul_of_nonneg_left hf hu.le
    linarith


/-- A platform function on finite numbers, as one on all values. -/
noncomputable def lift (f : F64 → Option F64) : X64 → X64
  | fin a => match f a with
    | some r => fin r
    | none => nan
  | _ => nan

/-- A library whose square root and `erfc` give the next double. -/
noncomputable def nearLib : Lib :=
  ⟨fun _ => nan, fun _ => nan, lift someLibm.sqrt, fun _ _ => nan, lift someLibm.erfc, fun _ => nan, fun _ => nan, fun _ _ => none⟩

/-- Mean 1 and variance 4, at 3. -/
example : ∃ m v x c : F64, m.val = 1 ∧ v.val = 4 ∧ x.val = 3 ∧ Gaussian.cdf nearLib ⟨fin m, fin v⟩ (fin x) = some (fin c) ∧
    |F64.real c - ProbabilityTheory.cdf (ProbabilityTheory.gaussianReal (F64.real m) (F64.real v).toNNReal) (F64.real x)| ≤ 4 * 2 ^ (-50 : ℤ) := by
  have e4 : (toF64 4).map F64.val = some 4 := by decide +kernel
  have e3 : (toF64 3).map F64.val = some 3 := by decide +kernel
  obtain ⟨v, -, v2⟩ := Option.map_eq_some_iff.1 e4
  obtain ⟨x, -, x2⟩ := Option.map_eq_some_iff.1 e3
  obtain ⟨m, -, m2⟩ := one_fin
  have hv : 0 < v.val := by rw [v2]; norm_num
  obtain ⟨c, c1, c2⟩ := C106_gaussian_cdf_error nearLib (2 ^ (-50 : ℤ)) (by norm_num) (by norm_num)
    (fun a ha => by
      obtain ⟨s, s1, s2⟩ := someLibm_accurate.sqrt a (real_val_pos ha)
      exact ⟨s, by change (match someLibm.sqrt a with | some r => fin r | none => nan) = _; rw [s1], s2⟩)
    (fun a => by
      obtain ⟨s, s1, s2⟩ := someLibm_accurate.erfc a
      exact ⟨s, by change (match someLibm.erfc a with | some r => fin r | none => nan) = _; rw [s1], s2⟩)
    m v x hv (by
      unfold F64.real
      rw [x2, m2, v2]
      have : (1 : ℝ) ≤ √((4 : ℚ) : ℝ) := Real.le_sqrt_of_sq_le (by norm_num)
      push_cast at this ⊢
      rw [abs_of_pos (by norm_num)]
      nlinarith [show (2 : ℝ) ≤ 2 ^ 200 by norm_num])
  exact ⟨m, v, x, c, m2, v2, x2, c1, c2⟩

end Verif.Float.Laws
