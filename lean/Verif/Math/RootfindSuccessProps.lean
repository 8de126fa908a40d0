import Verif.Math.RootfindSuccess
import Mathlib.Analysis.Calculus.MeanValue
import Mathlib.Analysis.Calculus.Deriv.MeanValue

/-!
# C52, C53: when Brent and Newton-Raphson searches succeed, and how accurate Newton's answer is
-/

namespace Verif.Math.Rootfind

/-- The other end of the first bracket (bisection.rs 92-104 and the same lines of the other solvers): one step below the guess if
the value there is positive, one step above it otherwise, moved into the enforced interval. -/
noncomputable def firstStep (f : ℝ → ℝ) (c : Config) (guess : ℝ) : ℝ :=
  open Classical in if 0 < f guess then c.bound (guess - c.stepsize) else c.bound (guess + c.stepsize)

/-- With a sign change over the first step, `solve` stops at once or hands the back end that bracket. -/
theorem solve_first (f : ℝ → ℝ) (c : Config) (guess : ℝ) (ha : 0 < c.accuracy) (hsign : f guess * f (firstStep f c guess) ≤ 0)
    (impl : ℝ → Bracket → ℕ → Ret) :
    (∃ r, (r = guess ∨ r = firstStep f c guess) ∧ close (f r) 0 ∧ solve f c guess impl = some (.found r)) ∨
    ∃ b : Bracket, ((b.xMin = guess ∧ b.xMax = firstStep f c guess) ∨ (b.xMin = firstStep f c guess ∧ b.xMax = guess)) ∧
      b.yMin = f b.xMin ∧ b.yMax = f b.xMax ∧ ((b.yMin < 0 ∧ 0 < b.yMax) ∨ (0 < b.yMin ∧ b.yMax < 0)) ∧
      solve f c guess impl = some (impl (max c.accuracy eps) b 2) := by
  have hloop : ∀ b : Bracket, b.yMin = f b.xMin → b.yMax = f b.xMax → b.yMin * b.yMax ≤ 0 → ∀ im : Bracket → ℕ → Ret,
      (close (f b.xMin) 0 ∧ bracketLoop f c im 2 false b = .found b.xMin) ∨
      (close (f b.xMax) 0 ∧ bracketLoop f c im 2 false b = .found b.xMax) ∨
      (((b.yMin < 0 ∧ 0 < b.yMax) ∨ (0 < b.yMin ∧ b.yMax < 0)) ∧ bracketLoop f c im 2 false b = im b 2) := by
    intro b e1 e2 h1 im
    rw [bracketLoop, if_neg (by simp [maxIterations]), if_pos h1]
    split_ifs with g1 g2
    · exact Or.inl ⟨e1 ▸ g1, rfl⟩
    · exact Or.inr (Or.inl ⟨e2 ▸ g2, rfl⟩)
    · exact Or.inr (Or.inr ⟨signs h1 g1 g2, rfl⟩)
  unfold firstStep at hsign ⊢
  unfold solve
  rw [if_neg (not_le.2 ha)]
  simp only
  by_cases hc : close (f guess) 0
  · rw [if_pos hc]; exact Or.inl ⟨guess, Or.inl rfl, hc, rfl⟩
  rw [if_neg hc]
  by_cases h0 : 0 < f guess
  · simp only [if_pos h0, gt_iff_lt] at hsign ⊢
    rcases hloop ⟨c.bound (guess - c.stepsize), guess, f (c.bound (guess - c.stepsize)), f guess⟩ rfl rfl
      (by simp only; linarith [mul_comm (f guess) (f (c.bound (guess - c.stepsize)))]) (impl (max c.accuracy eps))
      with ⟨h1, h2⟩ | ⟨h1, h2⟩ | ⟨h1, h2⟩
    · exact Or.inl ⟨_, Or.inr rfl, h1, by rw [h2]⟩
    · exact Or.inl ⟨_, Or.inl rfl, h1, by rw [h2]⟩
    · exact Or.inr ⟨_, Or.inr ⟨rfl, rfl⟩, rfl, rfl, h1, by rw [h2]⟩
  · simp only [if_neg h0, gt_iff_lt] at hsign ⊢
    rcases hloop ⟨guess, c.bound (guess + c.stepsize), f guess, f (c.bound (guess + c.stepsize))⟩ rfl rfl hsign
      (impl (max c.accuracy eps)) with ⟨h1, h2⟩ | ⟨h1, h2⟩ | ⟨h1, h2⟩
    · exact Or.inl ⟨_, Or.inl rfl, h1, by rw [h2]⟩
    · exact Or.inl ⟨_, Or.inr rfl, h1, by rw [h2]⟩
    · exact Or.inr ⟨_, Or.inl ⟨rfl, rfl⟩, rfl, rfl, h1, by rw [h2]⟩

theorem max_eps_pos (c : Config) : 0 < max c.accuracy eps := lt_of_lt_of_le eps_pos (le_max_right _ _)

/-- C52: a Brent search succeeds whenever `f` changes sign between the guess and the first step and the two are at most `2^28` times
the effective accuracy apart. Its answer lies between them, and has `|f|` below the closeness threshold or is within
`accuracy + 4 EPSILON |r|` of a sign change. -/
theorem C52_brent_succeeds (f : ℝ → ℝ) (c : Config) (guess : ℝ) (ha : 0 < c.accuracy)
    (hsign : f guess * f (firstStep f c guess) ≤ 0) (hw : |firstStep f c guess - guess| ≤ max c.accuracy eps * 2 ^ 28) :
    ∃ r, brent f c guess = some (.found r) ∧ min guess (firstStep f c guess) ≤ r ∧ r ≤ max guess (firstStep f c guess) ∧
      (|f r| < closeTol ^ 2 ∨ ∃ x, f r * f x ≤ 0 ∧ |x - r| ≤ max c.accuracy eps + 4 * eps * |r|) := by
  have hacc := max_eps_pos c
  rcases solve_first f c guess ha hsign (brentImpl f) with ⟨r, h1, h2, h3⟩ | ⟨b, h1, h2, h3, h4, h5⟩
  · refine ⟨r, h3, ?_, ?_, Or.inl (close_zero h2)⟩
    · rcases h1 with h | h <;> rw [h]
      · exact min_le_left _ _
      · exact min_le_right _ _
    · rcases h1 with h | h <;> rw [h]
      · exact le_max_left _ _
      · exact le_max_right _ _
  · have hwid : |b.xMin - b.xMax| ≤ max c.accuracy eps * 2 ^ 28 := by
      rcases h1 with ⟨e1, e2⟩ | ⟨e1, e2⟩ <;> rw [e1, e2]
      · rw [abs_sub_comm]; exact hw
      · exact hw
    obtain ⟨r, hr⟩ : ∃ r, brentImpl f (max c.accuracy eps) b 2 = .found r := by
      unfold brentImpl
      refine brentLoop_found f _ hacc (maxIterations + 1 - 2) 28 0 0 _ ⟨?_, hwid⟩ ?_ ?_ ⟨le_rfl, by norm_num⟩
        (by simp [maxIterations]) (Or.inl ⟨30, ?_, by simp [maxIterations]⟩)
      · simp only; rw [sub_self, abs_zero]; positivity
      · simp only; rw [abs_zero]; positivity
      · simp only; rw [abs_zero]; positivity
      · simp only; refine hwid.trans_eq ?_; norm_num; ring
    have hbd : (min guess (firstStep f c guess) ≤ b.xMin ∧ b.xMin ≤ max guess (firstStep f c guess)) ∧
        (min guess (firstStep f c guess) ≤ b.xMax ∧ b.xMax ≤ max guess (firstStep f c guess)) := by
      rcases h1 with ⟨e1, e2⟩ | ⟨e1, e2⟩ <;> rw [e1, e2]
      · exact ⟨⟨min_le_left _ _, le_max_left _ _⟩, min_le_right _ _, le_max_right _ _⟩
      · exact ⟨⟨min_le_right _ _, le_max_right _ _⟩, min_le_left _ _, le_max_left _ _⟩
    have hinv : BrentInv f (min guess (firstStep f c guess)) (max guess (firstStep f c guess))
        ⟨b.xMin, b.yMin, b.xMax, b.yMax, b.xMax, b.yMax, 0, 0⟩ := by
      refine ⟨h2, h3, h3, hbd.1, hbd.2, hbd.2, fun _ => ?_⟩
      rcases h4 with ⟨q1, q2⟩ | ⟨q1, q2⟩
      · exact mul_nonpos_of_nonpos_of_nonneg q1.le q2.le
      · exact mul_nonpos_of_nonneg_of_nonpos q1.le q2.le
    obtain ⟨r1, r2, r3⟩ := brentLoop_spec f _ _ _ hacc _ _ hinv r hr
    refine ⟨r, by unfold brent; rw [h5, hr], r1, r2, ?_⟩
    rcases r3 with r3 | ⟨x, _, _, hx, hx'⟩
    · exact Or.inl r3
    · exact Or.inr ⟨x, hx, hx'⟩

/-- C53: a Newton-Raphson search succeeds whenever `f` changes sign between the guess and the first step, the two are at most `2^42`
times the effective accuracy apart, and no root between them has derivative zero. The derivative given need not be right otherwise.
The answer lies between the two points, and has `|f|` below the closeness threshold, is the middle of a sign change shorter than
twice the effective accuracy, or is the end of a Newton step shorter than it. -/
theorem C53_newton_succeeds (f f' : ℝ → ℝ) (c : Config) (guess : ℝ) (ha : 0 < c.accuracy)
    (hsign : f guess * f (firstStep f c guess) ≤ 0) (hw : |firstStep f c guess - guess| ≤ max c.accuracy eps * 2 ^ 42)
    (hz : ∀ z, min guess (firstStep f c guess) ≤ z → z ≤ max guess (firstStep f c guess) → f z = 0 → f' z ≠ 0) :
    ∃ r, newton f f' c guess = some (.found r) ∧ min guess (firstStep f c guess) ≤ r ∧ r ≤ max guess (firstStep f c guess) ∧
      (|f r| < closeTol ^ 2 ∨
       (∃ a b, f a < 0 ∧ 0 ≤ f b ∧ |a - r| < max c.accuracy eps ∧ |b - r| < max c.accuracy eps) ∨
       ∃ p, f' p ≠ 0 ∧ r = p - f p / f' p ∧ |r - p| < max c.accuracy eps) := by
  have hacc := max_eps_pos c
  rcases solve_first f c guess ha hsign (newtonImpl f f') with ⟨r, h1, h2, h3⟩ | ⟨b, h1, h2, h3, h4, h5⟩
  · refine ⟨r, h3, ?_, ?_, Or.inl (close_zero h2)⟩
    · rcases h1 with h | h <;> rw [h]
      · exact min_le_left _ _
      · exact min_le_right _ _
    · rcases h1 with h | h <;> rw [h]
      · exact le_max_left _ _
      · exact le_max_right _ _
  · have hwid : |b.xMax - b.xMin| ≤ max c.accuracy eps * 2 ^ 42 := by
      rcases h1 with ⟨e1, e2⟩ | ⟨e1, e2⟩ <;> rw [e1, e2]
      · exact hw
      · rw [abs_sub_comm]; exact hw
    have hbd : (min guess (firstStep f c guess) ≤ b.xMin ∧ b.xMin ≤ max guess (firstStep f c guess)) ∧
        (min guess (firstStep f c guess) ≤ b.xMax ∧ b.xMax ≤ max guess (firstStep f c guess)) := by
      rcases h1 with ⟨e1, e2⟩ | ⟨e1, e2⟩ <;> rw [e1, e2]
      · exact ⟨⟨min_le_left _ _, le_max_left _ _⟩, min_le_right _ _, le_max_right _ _⟩
      · exact ⟨⟨min_le_right _ _, le_max_right _ _⟩, min_le_left _ _, le_max_left _ _⟩
    have hmid : min guess (firstStep f c guess) ≤ 0.5 * (b.xMax + b.xMin) ∧
        0.5 * (b.xMax + b.xMin) ≤ max guess (firstStep f c guess) :=
      ⟨by linarith [hbd.1.1, hbd.2.1], by linarith [hbd.1.2, hbd.2.2]⟩
    unfold newton
    rw [h5]
    unfold newtonImpl
    simp only
    rcases h4 with ⟨q1, q2⟩ | ⟨q1, q2⟩
    · rw [if_pos q1]
      obtain ⟨r, hr⟩ := newtonLoop_found f f' _ _ _ hacc hz (maxIterations - 2) 42 42 42 (0.5 * (b.xMax + b.xMin)) b.xMin b.xMax
        (b.xMax - b.xMin) (b.xMax - b.xMin) hmid hbd.1 hbd.2 hwid hwid hwid (by simp [maxIterations])
      obtain ⟨r1, r2, r3⟩ := newtonLoop_spec f f' _ _ _ _ _ _ _ _ _ r (h2 ▸ q1) (h3 ▸ q2.le) hbd.1 hbd.2 hr
      exact ⟨r, by rw [hr], r1, r2, Or.inr r3⟩
    · rw [if_neg (not_lt.2 q1.le)]
      obtain ⟨r, hr⟩ := newtonLoop_found f f' _ _ _ hacc hz (maxIterations - 2) 42 42 42 (0.5 * (b.xMax + b.xMin)) b.xMax b.xMin
        (b.xMax - b.xMin) (b.xMax - b.xMin) hmid hbd.2 hbd.1 (by rw [abs_sub_comm]; exact hwid) hwid hwid (by simp [maxIterations])
      obtain ⟨r1, r2, r3⟩ := newtonLoop_spec f f' _ _ _ _ _ _ _ _ _ r (h3 ▸ q2) (h2 ▸ q1.le) hbd.2 hbd.1 hr
      exact ⟨r, by rw [hr], r1, r2, Or.inr r3⟩

/-- A function with slope at least `m > 0` has a root within `|f r| / m` of any `r`. -/
theorem root_of_slope {f f' : ℝ → ℝ} (hf : ∀ x, HasDerivAt f (f' x) x) {m : ℝ} (hm : 0 < m) (hs : ∀ x, m ≤ f' x) (r : ℝ) :
    ∃ z, f z = 0 ∧ |z - r| ≤ |f r| / m := by
  have hd : Differentiable ℝ f := fun x => (hf x).differentiableAt
  have hgrow : ∀ x y, x ≤ y → m * (y - x) ≤ f y - f x :=
    fun x y hxy => mul_sub_le_image_sub_of_le_deriv hd (fun x => by rw [(hf x).deriv]; exact hs x) hxy
  have e : m * (|f r| / m) = |f r| := mul_div_cancel₀ _ hm.ne'
  have hq : 0 ≤ |f r| / m := div_nonneg (abs_nonneg _) hm.le
  have h1 := hgrow (r - |f r| / m) r (by linarith)
  have h2 := hgrow r (r + |f r| / m) (by linarith)
  rw [sub_sub_cancel, e] at h1
  rw [add_sub_cancel_left, e] at h2
  have a1 := le_abs_self (f r)
  have a2 := neg_abs_le (f r)
  obtain ⟨z, hz, hz0⟩ := intermediate_value_Icc (show r - |f r| / m ≤ r + |f r| / m by linarith) hd.continuous.continuousOn
    (show (0 : ℝ) ∈ Set.Icc _ _ from ⟨by linarith, by linarith⟩)
  exact ⟨z, hz0, abs_le.2 ⟨by linarith [hz.1], by linarith [hz.2]⟩⟩

/-- C53: how near Newton's answer is to a root. If `f'` is the derivative of `f`, at least `m > 0` everywhere (or at most `-m`) and
changes by at most `K` per unit, then a successful search has a true root within the effective accuracy `a` of its answer, or within
`K a^2 / m`, or within the closeness threshold over `m`. -/
theorem C53_newton_accurate (f f' : ℝ → ℝ) (hf : ∀ x, HasDerivAt f (f' x) x) (m K : ℝ) (hm : 0 < m)
    (hslope : (∀ x, m ≤ f' x) ∨ (∀ x, f' x ≤ -m)) (hK : ∀ x y, |f' x - f' y| ≤ K * |x - y|) (c : Config) (guess r : ℝ)
    (hg : c.enforced = true → c.lower ≤ guess ∧ guess ≤ c.upper) (h : newton f f' c guess = some (.found r)) :
    ∃ z, f z = 0 ∧ (|z - r| < max c.accuracy eps ∨ |z - r| ≤ K * (max c.accuracy eps) ^ 2 / m ∨ |z - r| ≤ closeTol ^ 2 / m) := by
  have hacc := max_eps_pos c
  have hroot : ∃ z, f z = 0 ∧ |z - r| ≤ |f r| / m := by
    rcases hslope with hs | hs
    · exact root_of_slope hf hm hs r
    · obtain ⟨z, hz, hz'⟩ := root_of_slope (f := fun x => -f x) (f' := fun x => -f' x) (fun x => (hf x).neg) hm
        (fun x => by linarith [hs x]) r
      exact ⟨z, by linarith, by rwa [abs_neg] at hz'⟩
  have hspec := (C53_newton f f' c guess r hg h).2
  rcases hspec with h1 | ⟨a, b, h1, h2, h3, h4⟩ | ⟨p, h1, h2, h3⟩
  · obtain ⟨z, hz, hz'⟩ := hroot
    exact ⟨z, hz, Or.inr (Or.inr (hz'.trans (div_le_div_of_nonneg_right h1.le hm.le)))⟩
  · have hd : Differentiable ℝ f := fun x => (hf x).differentiableAt
    obtain ⟨z, hz, hz0⟩ := intermediate_value_uIcc (a := a) (b := b) (f := f) hd.continuous.continuousOn
      (show (0 : ℝ) ∈ Set.uIcc (f a) (f b) from Set.mem_uIcc.2 (Or.inl ⟨h1.le, h2⟩))
    refine ⟨z, hz0, Or.inl ?_⟩
    rw [abs_lt] at h3 h4 ⊢
    rcases Set.mem_uIcc.1 hz with ⟨q1, q2⟩ | ⟨q1, q2⟩
    · exact ⟨by linarith [h3.1], by linarith [h4.2]⟩
    · exact ⟨by linarith [h4.1], by linarith [h3.2]⟩
  · obtain ⟨z, hz, hz'⟩ := hroot
    refine ⟨z, hz, Or.inr (Or.inl (hz'.trans (div_le_div_of_nonneg_right ?_ hm.le)))⟩
    have hK0 : 0 ≤ K := by
      have := hK 1 0
      rw [sub_zero, abs_one, mul_one] at this
      exact (abs_nonneg _).trans this
    have hlin : f p + f' p * (r - p) = 0 := by rw [h2]; field_simp; ring
    have hmv := Convex.norm_image_sub_le_of_norm_hasDerivWithin_le (f := fun x => f x - f' p * x) (f' := fun x => f' x - f' p * 1)
      (s := Set.uIcc p r) (x := p) (y := r) (C := K * |r - p|)
      (fun x _ => ((hf x).sub ((hasDerivAt_id x).const_mul (f' p))).hasDerivWithinAt)
      (fun x hx => by
        rw [Real.norm_eq_abs, mul_one]
        refine (hK x p).trans (mul_le_mul_of_nonneg_left ?_ hK0)
        have := Set.abs_sub_left_of_mem_uIcc hx
        rwa [abs_sub_comm] at this ⊢)
      (convex_uIcc p r) Set.left_mem_uIcc Set.right_mem_uIcc
    simp only [Real.norm_eq_abs] at hmv
    rw [show f r - f' p * r - (f p - f' p * p) = f r - (f p + f' p * (r - p)) by ring, hlin, sub_zero] at hmv
    refine hmv.trans ?_
    rw [mul_assoc, ← pow_two]
    exact mul_le_mul_of_nonneg_left (pow_le_pow_left₀ (abs_nonneg _) h3.le 2) hK0

/-- `x - 1/3` from the guess 0 with step 1: the sign change is met and the bracket is short enough. -/
theorem third_hyp : (fun x : ℝ => x - 1 / 3) 0 * (fun x : ℝ => x - 1 / 3) (firstStep (fun x => x - 1 / 3) ⟨1e-6, 1, -10, 10, true⟩ 0) ≤ 0
    ∧ firstStep (fun x => x - 1 / 3) ⟨1e-6, 1, -10, 10, true⟩ 0 = 1 := by
  have e : firstStep (fun x => x - 1 / 3) ⟨1e-6, 1, -10, 10, true⟩ 0 = 1 := by
    unfold firstStep Config.bound
    norm_num
  rw [e]
  exact ⟨by norm_num, rfl⟩

theorem third_width : |(1 : ℝ) - 0| ≤ max (1e-6 : ℝ) eps * 2 ^ 28 := by
  have : (1e-6 : ℝ) ≤ max (1e-6 : ℝ) eps := le_max_left _ _
  rw [sub_zero, abs_one]
  nlinarith

example : ∃ r, brent (fun x => x - 1 / 3) ⟨1e-6, 1, -10, 10, true⟩ 0 = some (.found r) ∧ 0 ≤ r ∧ r ≤ 1 := by
  obtain ⟨r, h1, h2, h3, _⟩ := C52_brent_succeeds (fun x => x - 1 / 3) ⟨1e-6, 1, -10, 10, true⟩ 0 (by norm_num) third_hyp.1
    (by rw [third_hyp.2]; exact third_width)
  rw [third_hyp.2] at h2 h3
  exact ⟨r, h1, by simpa using h2, by simpa using h3⟩

/-- With the derivative 1 the search also meets the hypotheses of both Newton theorems. -/
example : ∃ r, newton (fun x => x - 1 / 3) (fun _ => 1) ⟨1e-6, 1, -10, 10, true⟩ 0 = some (.found r) ∧
    ∃ z, z - 1 / 3 = 0 ∧ (|z - r| < max 1e-6 eps ∨ |z - r| ≤ 0 * (max 1e-6 eps) ^ 2 / 1 ∨ |z - r| ≤ closeTol ^ 2 / 1) := by
  obtain ⟨r, h1, _⟩ := C53_newton_succeeds (fun x => x - 1 / 3) (fun _ => 1) ⟨1e-6, 1, -10, 10, true⟩ 0 (by norm_num) third_hyp.1
    (by rw [third_hyp.2]; exact third_width.trans (by
          have := max_eps_pos ⟨1e-6, 1, -10, 10, true⟩
          exact mul_le_mul_of_nonneg_left (by norm_num) this.le)) (fun _ _ _ _ => one_ne_zero)
  exact ⟨r, h1, C53_newton_accurate (fun x => x - 1 / 3) (fun _ => 1) (fun x => (hasDerivAt_id x).sub_const _) 1 0 one_pos
    (Or.inl fun _ => le_rfl) (fun x y => by simp) _ 0 r (fun _ => by norm_num) h1⟩

end Verif.Math.Rootfind
