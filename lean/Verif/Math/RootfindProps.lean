import Verif.Math.Rootfind
import Mathlib.Topology.Order.IntermediateValue
import Mathlib.Topology.Instances.Real.Lemmas
import Mathlib.Tactic.Linarith
import Mathlib.Tactic.Ring
import Mathlib.Tactic.FieldSimp
import Mathlib.Tactic.NormNum
import Mathlib.Tactic.Positivity

/-!
# C40 (bisection), C52 (Brent), C53 (Newton-Raphson), C54 (bracketing and failure)
-/

namespace Verif.Math.Rootfind

theorem eps_pos : 0 < eps := by unfold eps; positivity

theorem close_zero {x : ℝ} (h : close x 0) : |x| < closeTol ^ 2 := by
  have ht : 0 < closeTol := by unfold closeTol; have := eps_pos; positivity
  rcases h with h | ⟨_, h⟩ | ⟨h, _⟩
  · subst h; simp; positivity
  · simpa using h
  · simp at h

theorem not_close_zero {x : ℝ} (h : ¬ close x 0) : closeTol ^ 2 ≤ |x| := by
  by_contra hc
  push Not at hc
  exact h (Or.inr (Or.inl ⟨by simp, by simpa using hc⟩))

theorem ne_zero_of_not_close {x : ℝ} (h : ¬ close x 0) : x ≠ 0 := fun hx => h (Or.inl hx)

theorem bound_mem (c : Config) (hc : c.lower ≤ c.upper) (he : c.enforced = true) (x : ℝ) :
    c.lower ≤ c.bound x ∧ c.bound x ≤ c.upper := by
  unfold Config.bound
  split_ifs with h1 h2
  · exact ⟨le_rfl, hc⟩
  · exact ⟨hc, le_rfl⟩
  · constructor
    · by_contra h; exact h1 ⟨he, not_le.1 h⟩
    · by_contra h; exact h2 ⟨he, not_le.1 h⟩

/-- The bracket always holds true function values, inside the enforced interval. -/
structure Good (f : ℝ → ℝ) (c : Config) (b : Bracket) : Prop where
  lo : b.yMin = f b.xMin
  hi : b.yMax = f b.xMax
  bounds : c.enforced = true → (c.lower ≤ b.xMin ∧ b.xMin ≤ c.upper) ∧ (c.lower ≤ b.xMax ∧ b.xMax ≤ c.upper)

/-- How the bracketing loop can end. -/
theorem bracketLoop_cases (f : ℝ → ℝ) (c : Config) (hc : c.enforced = true → c.lower ≤ c.upper)
    (impl : Bracket → ℕ → Ret) (it : ℕ) (flip : Bool) (b : Bracket) (hb : Good f c b) :
    bracketLoop f c impl it flip b = .gaveUp ∨
    ∃ b' it', Good f c b' ∧ it' ≤ maxIterations ∧ b'.yMin * b'.yMax ≤ 0 ∧
      ((close b'.yMin 0 ∧ bracketLoop f c impl it flip b = .found b'.xMin) ∨
       (close b'.yMax 0 ∧ bracketLoop f c impl it flip b = .found b'.xMax) ∨
       (¬ close b'.yMin 0 ∧ ¬ close b'.yMax 0 ∧ bracketLoop f c impl it flip b = impl b' it')) := by
  have glo : ∀ b : Bracket, Good f c b → Good f c
      { b with xMin := c.bound (b.xMin + 1.6 * (b.xMin - b.xMax)), yMin := f (c.bound (b.xMin + 1.6 * (b.xMin - b.xMax))) } :=
    fun b h => ⟨rfl, h.hi, fun he => ⟨bound_mem c (hc he) he _, (h.bounds he).2⟩⟩
  have ghi : ∀ b : Bracket, Good f c b → Good f c
      { b with xMax := c.bound (b.xMax + 1.6 * (b.xMax - b.xMin)), yMax := f (c.bound (b.xMax + 1.6 * (b.xMax - b.xMin))) } :=
    fun b h => ⟨h.lo, rfl, fun he => ⟨(h.bounds he).1, bound_mem c (hc he) he _⟩⟩
  generalize hn : maxIterations + 1 - it = n
  induction n using Nat.strongRecOn generalizing it flip b with
  | _ n ih =>
    rw [bracketLoop]
    split_ifs with h1 h2 h3 h4 h5 h6 h7
    · exact Or.inl rfl
    · exact Or.inr ⟨b, it, hb, not_lt.1 h1, h2, Or.inl ⟨h3, rfl⟩⟩
    · exact Or.inr ⟨b, it, hb, not_lt.1 h1, h2, Or.inr (Or.inl ⟨h4, rfl⟩)⟩
    · exact Or.inr ⟨b, it, hb, not_lt.1 h1, h2, Or.inr (Or.inr ⟨h3, h4, rfl⟩)⟩
    · exact ih _ (by simp only [maxIterations] at *; omega) _ _ _ (glo b hb) rfl
    · exact ih _ (by simp only [maxIterations] at *; omega) _ _ _ (ghi b hb) rfl
    · exact ih _ (by simp only [maxIterations] at *; omega) _ _ _ (glo b hb) rfl
    · exact ih _ (by simp only [maxIterations] at *; omega) _ _ _ (ghi b hb) rfl

/-- How `solve` can end, for any back end. -/
theorem solve_cases (f : ℝ → ℝ) (c : Config) (guess : ℝ) (impl : ℝ → Bracket → ℕ → Ret)
    (hg : c.enforced = true → c.lower ≤ guess ∧ guess ≤ c.upper) (r : Ret) (h : solve f c guess impl = some r) :
    0 < c.accuracy ∧
    (r = .gaveUp ∨ (close (f guess) 0 ∧ r = .found guess) ∨
    ∃ b it, Good f c b ∧ it ≤ maxIterations ∧ b.yMin * b.yMax ≤ 0 ∧
      ((close b.yMin 0 ∧ r = .found b.xMin) ∨ (close b.yMax 0 ∧ r = .found b.xMax) ∨
       (¬ close b.yMin 0 ∧ ¬ close b.yMax 0 ∧ r = impl (max c.accuracy eps) b it))) := by
  unfold solve at h
  simp only at h
  split_ifs at h with h1 h2 h3
  · simp only [Option.some.injEq] at h
    exact ⟨not_le.1 h1, Or.inr (Or.inl ⟨h2, h.symm⟩)⟩
  all_goals
    refine ⟨not_le.1 h1, ?_⟩
    have hc : c.enforced = true → c.lower ≤ c.upper := fun he => le_trans (hg he).1 (hg he).2
    simp only [Option.some.injEq] at h
    subst h
  · have := bracketLoop_cases f c hc (impl (max c.accuracy eps)) 2 false
      ⟨c.bound (guess - c.stepsize), guess, f (c.bound (guess - c.stepsize)), f guess⟩
      ⟨rfl, rfl, fun he => ⟨bound_mem c (hc he) he _, hg he⟩⟩
    rcases this with h | h
    · exact Or.inl h
    · exact Or.inr (Or.inr h)
  · have := bracketLoop_cases f c hc (impl (max c.accuracy eps)) 2 false
      ⟨guess, c.bound (guess + c.stepsize), f guess, f (c.bound (guess + c.stepsize))⟩
      ⟨rfl, rfl, fun he => ⟨hg he, bound_mem c (hc he) he _⟩⟩
    rcases this with h | h
    · exact Or.inl h
    · exact Or.inr (Or.inr h)

/-- The signs at the ends of a bracket handed to the back end. -/
theorem signs {a b : ℝ} (h : a * b ≤ 0) (ha : ¬ close a 0) (hb : ¬ close b 0) :
    (a < 0 ∧ 0 < b) ∨ (0 < a ∧ b < 0) := by
  have ha' := ne_zero_of_not_close ha
  have hb' := ne_zero_of_not_close hb
  rcases lt_or_gt_of_ne ha' with h1 | h1
  · left
    refine ⟨h1, ?_⟩
    rcases lt_or_gt_of_ne hb' with h2 | h2
    · nlinarith
    · exact h2
  · right
    refine ⟨h1, ?_⟩
    rcases lt_or_gt_of_ne hb' with h2 | h2
    · exact h2
    · nlinarith

/-! ## C40: bisection -/

theorem bisectLoop_spec (f : ℝ → ℝ) (acc lo hi : ℝ) (n : ℕ) (root dx r : ℝ) (h1 : f root ≤ 0) (h2 : 0 < f (root + dx))
    (hl : lo ≤ root ∧ root ≤ hi) (hl' : lo ≤ root + dx ∧ root + dx ≤ hi)
    (h : bisectLoop f acc n root dx = .found r) :
    lo ≤ r ∧ r ≤ hi ∧ f r ≤ 0 ∧
      (|f r| < closeTol ^ 2 ∨ (∃ x, |x - r| < acc ∧ 0 < f x) ∨ ∃ x, lo ≤ x ∧ x ≤ hi ∧ 0 < f x ∧ f x < closeTol ^ 2) := by
  induction n generalizing root dx with
  | zero => simp [bisectLoop] at h
  | succ n ih =>
    rw [bisectLoop] at h
    have hm : lo ≤ root + dx / 2 ∧ root + dx / 2 ≤ hi := ⟨by linarith [hl.1, hl'.1], by linarith [hl.2, hl'.2]⟩
    by_cases hf : f (root + dx / 2) ≤ 0
    · rw [if_pos hf] at h
      split_ifs at h with hs
      · simp only [Ret.found.injEq] at h
        subst h
        refine ⟨hm.1, hm.2, hf, ?_⟩
        rcases hs with hs | hs
        · refine Or.inr (Or.inl ⟨root + dx, ?_, h2⟩)
          rw [show root + dx - (root + dx / 2) = dx / 2 by ring]; exact hs
        · exact Or.inl (close_zero hs)
      · exact ih _ _ hf (by rw [show root + dx / 2 + dx / 2 = root + dx by ring]; exact h2) hm
          (by rw [show root + dx / 2 + dx / 2 = root + dx by ring]; exact hl') h
    · rw [if_neg hf] at h
      rw [not_le] at hf
      split_ifs at h with hs
      · simp only [Ret.found.injEq] at h
        subst h
        refine ⟨hl.1, hl.2, h1, ?_⟩
        rcases hs with hs | hs
        · refine Or.inr (Or.inl ⟨root + dx / 2, ?_, hf⟩)
          rw [show root + dx / 2 - root = dx / 2 by ring]; exact hs
        · refine Or.inr (Or.inr ⟨root + dx / 2, hm.1, hm.2, hf, ?_⟩)
          have := close_zero hs
          rwa [abs_of_pos hf] at this
      · exact ih _ _ h1 hf hl hm h

/-- C40: what `Bisection::solve` returns when its search succeeds: a point where `|f|` is below the closeness threshold, or
a point within the effective accuracy of a sign change; inside the interval if it is enforced and contains the guess. The
third case is the defect exhibited in `C40_premature_stop`; it needs a value of `f` strictly between 0 and the threshold. -/
theorem C40_bisection (f : ℝ → ℝ) (c : Config) (guess r : ℝ)
    (hg : c.enforced = true → c.lower ≤ guess ∧ guess ≤ c.upper)
    (h : bisection f c guess = some (.found r)) :
    (c.enforced = true → c.lower ≤ r ∧ r ≤ c.upper) ∧
    (|f r| < closeTol ^ 2 ∨ (f r ≤ 0 ∧ ∃ x, |x - r| < max c.accuracy eps ∧ 0 < f x) ∨
      (f r ≤ 0 ∧ ∃ x, 0 < f x ∧ f x < closeTol ^ 2)) := by
  obtain ⟨_, h' | ⟨h1, h2⟩ | ⟨b, it, hb, hit, hs, h'⟩⟩ := solve_cases f c guess _ hg _ h
  · cases h'
  · simp only [Ret.found.injEq] at h2
    subst h2
    exact ⟨hg, Or.inl (close_zero h1)⟩
  · rcases h' with ⟨h1, h2⟩ | ⟨h1, h2⟩ | ⟨h1, h2, h3⟩
    · simp only [Ret.found.injEq] at h2
      subst h2
      exact ⟨fun he => (hb.bounds he).1, Or.inl (close_zero (hb.lo ▸ h1))⟩
    · simp only [Ret.found.injEq] at h2
      subst h2
      exact ⟨fun he => (hb.bounds he).2, Or.inl (close_zero (hb.hi ▸ h1))⟩
    · have hsg := signs hs h1 h2
      rw [hb.lo, hb.hi] at hsg
      unfold bisectImpl at h3
      have key : ∀ lo hi : ℝ, lo ≤ b.xMin → b.xMin ≤ hi → lo ≤ b.xMax → b.xMax ≤ hi →
          lo ≤ r ∧ r ≤ hi ∧ f r ≤ 0 ∧ (|f r| < closeTol ^ 2 ∨ (∃ x, |x - r| < max c.accuracy eps ∧ 0 < f x) ∨
            ∃ x, lo ≤ x ∧ x ≤ hi ∧ 0 < f x ∧ f x < closeTol ^ 2) := by
        intro lo hi a1 a2 a3 a4
        rcases hsg with ⟨g1, g2⟩ | ⟨g1, g2⟩
        · rw [if_pos (hb.lo ▸ g1)] at h3
          refine bisectLoop_spec f _ lo hi _ b.xMin (b.xMax - b.xMin) r g1.le ?_ ⟨a1, a2⟩ ?_ h3.symm
          · rwa [add_sub_cancel]
          · rw [add_sub_cancel]; exact ⟨a3, a4⟩
        · rw [if_neg (by rw [hb.lo]; exact not_lt.2 g1.le)] at h3
          refine bisectLoop_spec f _ lo hi _ b.xMax (b.xMin - b.xMax) r g2.le ?_ ⟨a3, a4⟩ ?_ h3.symm
          · rwa [add_sub_cancel]
          · rw [add_sub_cancel]; exact ⟨a1, a2⟩
      refine ⟨fun he => ?_, ?_⟩
      · have hbd := hb.bounds he
        have := key c.lower c.upper hbd.1.1 hbd.1.2 hbd.2.1 hbd.2.2
        exact ⟨this.1, this.2.1⟩
      · have := key (min b.xMin b.xMax) (max b.xMin b.xMax) (min_le_left _ _) (le_max_left _ _) (min_le_right _ _)
          (le_max_right _ _)
        obtain ⟨_, _, hr, h | h | ⟨x, _, _, hx, hx'⟩⟩ := this
        · exact Or.inl h
        · exact Or.inr (Or.inl ⟨hr, h⟩)
        · exact Or.inr (Or.inr ⟨hr, x, hx, hx'⟩)

theorem root_near {f : ℝ → ℝ} (hf : Continuous f) {r x a : ℝ} (h : |x - r| < a) (h1 : f r ≤ 0) (h2 : 0 ≤ f x) :
    ∃ z, f z = 0 ∧ |z - r| < a := by
  rcases le_total r x with hrx | hrx
  · obtain ⟨z, hz, hz0⟩ := intermediate_value_Icc hrx hf.continuousOn ⟨h1, h2⟩
    refine ⟨z, hz0, ?_⟩
    rw [abs_of_nonneg (by linarith)] at h
    rw [abs_of_nonneg (by linarith [hz.1])]
    linarith [hz.2]
  · obtain ⟨z, hz, hz0⟩ := intermediate_value_Icc' hrx hf.continuousOn ⟨h1, h2⟩
    refine ⟨z, hz0, ?_⟩
    rw [abs_of_nonpos (by linarith)] at h
    rw [abs_of_nonpos (by linarith [hz.2])]
    linarith [hz.1]

/-- C40: what a successful bisection means for a continuous function: the point returned has `|f|` below the closeness
threshold, or is within the effective accuracy of a true root, or the search stopped prematurely at a point `x` with a tiny
positive value and there is a true root between the point returned and `x`. -/
theorem C40_bisection_continuous (f : ℝ → ℝ) (hf : Continuous f) (c : Config) (guess r : ℝ)
    (hg : c.enforced = true → c.lower ≤ guess ∧ guess ≤ c.upper)
    (h : bisection f c guess = some (.found r)) :
    |f r| < closeTol ^ 2 ∨ (∃ z, f z = 0 ∧ |z - r| < max c.accuracy eps) ∨
      ∃ x z, 0 < f x ∧ f x < closeTol ^ 2 ∧ f z = 0 ∧ z ∈ Set.uIcc r x := by
  obtain ⟨_, h | ⟨hr, x, hx, hx'⟩ | ⟨hr, x, hx, hx'⟩⟩ := C40_bisection f c guess r hg h
  · exact Or.inl h
  · exact Or.inr (Or.inl (root_near hf hx hr hx'.le))
  · obtain ⟨z, hz, hz0⟩ := intermediate_value_uIcc (a := r) (b := x) hf.continuousOn
      (show (0 : ℝ) ∈ Set.uIcc (f r) (f x) from Set.mem_uIcc_of_le hr hx.le)
    exact Or.inr (Or.inr ⟨x, z, hx, hx', hz0, hz⟩)

/-- The loop on a bracket none of whose dyadic points, down to the accuracy, has a tiny positive value. -/
theorem bisectLoop_accurate (f : ℝ → ℝ) (acc : ℝ) (n : ℕ) (root dx r : ℝ) (h1 : f root ≤ 0) (h2 : 0 < f (root + dx))
    (hv : ∀ k i : ℕ, i ≤ 2 ^ k → acc ≤ |dx| / 2 ^ k → ¬ (0 < f (root + dx * (i / 2 ^ k)) ∧
      f (root + dx * (i / 2 ^ k)) < closeTol ^ 2))
    (h : bisectLoop f acc n root dx = .found r) :
    |f r| < closeTol ^ 2 ∨ (f r ≤ 0 ∧ ∃ x, |x - r| < acc ∧ 0 < f x) := by
  induction n generalizing root dx with
  | zero => simp [bisectLoop] at h
  | succ n ih =>
    rw [bisectLoop] at h
    have hd : |dx / 2| = |dx| / 2 := by rw [abs_div, abs_of_pos (by norm_num : (0 : ℝ) < 2)]
    by_cases hf : f (root + dx / 2) ≤ 0
    · rw [if_pos hf] at h
      split_ifs at h with hs
      · simp only [Ret.found.injEq] at h
        subst h
        rcases hs with hs | hs
        · refine Or.inr ⟨hf, root + dx, ?_, h2⟩
          rw [show root + dx - (root + dx / 2) = dx / 2 by ring]; exact hs
        · exact Or.inl (close_zero hs)
      · refine ih _ _ hf (by rw [show root + dx / 2 + dx / 2 = root + dx by ring]; exact h2) (fun k i hi ha => ?_) h
        have := hv (k + 1) (2 ^ k + i) (by rw [pow_succ]; omega) (by rw [pow_succ, mul_comm, ← div_div, ← hd]; exact ha)
        rwa [show root + dx * (((2 ^ k + i : ℕ) : ℝ) / 2 ^ (k + 1)) = root + dx / 2 + dx / 2 * (i / 2 ^ k) by
          push_cast; field_simp; ring] at this
    · rw [if_neg hf] at h
      rw [not_le] at hf
      split_ifs at h with hs
      · simp only [Ret.found.injEq] at h
        subst h
        by_cases hacc : |dx / 2| < acc
        · refine Or.inr ⟨h1, root + dx / 2, ?_, hf⟩
          rw [show root + dx / 2 - root = dx / 2 by ring]; exact hacc
        · have hs' := close_zero (hs.resolve_left hacc)
          rw [abs_of_pos hf] at hs'
          refine absurd (And.intro hf hs') ?_
          have := hv 1 1 (by norm_num) (by rw [pow_one, ← hd]; exact not_lt.1 hacc)
          rwa [show root + dx * (((1 : ℕ) : ℝ) / 2 ^ 1) = root + dx / 2 by push_cast; ring] at this
      · refine ih _ _ h1 hf (fun k i hi ha => ?_) h
        have := hv (k + 1) i (hi.trans (pow_le_pow_right₀ (by norm_num) (by omega)))
          (by rw [pow_succ, mul_comm, ← div_div, ← hd]; exact ha)
        rwa [show root + dx * ((i : ℝ) / 2 ^ (k + 1)) = root + dx / 2 * (i / 2 ^ k) by field_simp; ring] at this

theorem bisectLoop_found (f : ℝ → ℝ) (acc : ℝ) (n : ℕ) (root dx : ℝ) (hn : 0 < n) (h : |dx| < acc * 2 ^ n) :
    ∃ r, bisectLoop f acc n root dx = .found r := by
  induction n generalizing root dx with
  | zero => simp at hn
  | succ n ih =>
    rw [bisectLoop]
    split_ifs with h1 h2
    all_goals try exact ⟨_, rfl⟩
    all_goals
      have hd : |dx / 2| < acc * 2 ^ n := by
        rw [abs_div, abs_of_pos (by norm_num : (0 : ℝ) < 2), div_lt_iff₀ (by norm_num)]
        calc |dx| < acc * 2 ^ (n + 1) := h
          _ = acc * 2 ^ n * 2 := by ring
      rcases Nat.eq_zero_or_pos n with rfl | hn'
      · exfalso
        simp only [pow_zero, mul_one] at hd
        first
          | exact h2 (Or.inl hd)
          | exact (by assumption : ¬ (|dx / 2| < acc ∨ _)) (Or.inl hd)
      · exact ih _ _ hn' hd

/-- C40: bisection of a bracket never gives up when the bracket is shorter than `accuracy * 2 ^ (iterations left)`. In
particular: if `f` changes sign between the guess and the point one step away, the search succeeds whenever the step size is
below `EPSILON * 2 ^ 999`. -/
theorem C40_bisection_succeeds (f : ℝ → ℝ) (c : Config) (guess : ℝ) (ha : 0 < c.accuracy) (he : c.enforced = false)
    (hs0 : 0 ≤ c.stepsize) (hs : c.stepsize < eps * 2 ^ 999)
    (hsign : (0 < f guess ∧ f (guess - c.stepsize) ≤ 0) ∨ (f guess < 0 ∧ 0 ≤ f (guess + c.stepsize))) :
    ∃ r, bisection f c guess = some (.found r) := by
  have hb : ∀ x, c.bound x = x := fun x => by simp [Config.bound, he]
  have hacc : c.stepsize < max c.accuracy eps * 2 ^ 999 :=
    lt_of_lt_of_le hs (mul_le_mul_of_nonneg_right (le_max_right _ _) (by positivity))
  unfold bisection solve
  rw [if_neg (not_le.2 ha)]
  simp only [hb]
  by_cases hc : close (f guess) 0
  · exact ⟨guess, by rw [if_pos hc]⟩
  rw [if_neg hc]
  have himpl : ∀ b : Bracket, |b.xMax - b.xMin| < max c.accuracy eps * 2 ^ 999 →
      ∃ r, bisectImpl f (max c.accuracy eps) b 2 = .found r := by
    intro b h
    unfold bisectImpl
    split_ifs
    · exact bisectLoop_found f _ _ _ _ (by simp [maxIterations]) (by simpa [maxIterations] using h)
    · rw [abs_sub_comm] at h
      exact bisectLoop_found f _ _ _ _ (by simp [maxIterations]) (by simpa [maxIterations] using h)
  have hloop : ∀ b : Bracket, b.yMin * b.yMax ≤ 0 → |b.xMax - b.xMin| < max c.accuracy eps * 2 ^ 999 →
      ∃ r, bracketLoop f c (bisectImpl f (max c.accuracy eps)) 2 false b = .found r := by
    intro b h1 h2
    rw [bracketLoop, if_neg (by simp [maxIterations]), if_pos h1]
    split_ifs
    · exact ⟨_, rfl⟩
    · exact ⟨_, rfl⟩
    · exact himpl b h2
  rcases hsign with ⟨h1, h2⟩ | ⟨h1, h2⟩
  · rw [if_pos h1]
    obtain ⟨r, hr⟩ := hloop ⟨guess - c.stepsize, guess, f (guess - c.stepsize), f guess⟩
      (by simp only; nlinarith) (by simp only; rw [sub_sub_cancel, abs_of_nonneg hs0]; exact hacc)
    exact ⟨r, by rw [hr]⟩
  · rw [if_neg (not_lt.2 h1.le)]
    obtain ⟨r, hr⟩ := hloop ⟨guess, guess + c.stepsize, f guess, f (guess + c.stepsize)⟩
      (by simp only; nlinarith) (by simp only; rw [add_sub_cancel_left, abs_of_nonneg hs0]; exact hacc)
    exact ⟨r, by rw [hr]⟩

example : (1e-5 : ℝ) < eps * 2 ^ 999 :=
  calc (1e-5 : ℝ) < eps * 2 ^ 52 := by unfold eps; norm_num
    _ ≤ eps * 2 ^ 999 := mul_le_mul_of_nonneg_left (pow_le_pow_right₀ (by norm_num) (by norm_num)) eps_pos.le

/-- C40: when a continuous `f` changes sign between the guess and the point one step away, the step is below
`EPSILON * 2 ^ 999` and no point met while halving that step down to the accuracy has a tiny positive value, bisection
succeeds and its answer is accurate: `|f|` there is below the closeness threshold or there is a true root within the
effective accuracy. -/
theorem C40_bisection_accurate (f : ℝ → ℝ) (hf : Continuous f) (c : Config) (guess : ℝ) (ha : 0 < c.accuracy)
    (he : c.enforced = false) (hs0 : 0 ≤ c.stepsize) (hs : c.stepsize < eps * 2 ^ 999) (e : ℝ)
    (hsign : (e = -1 ∧ 0 < f guess ∧ f (guess - c.stepsize) ≤ 0) ∨ (e = 1 ∧ f guess < 0 ∧ 0 ≤ f (guess + c.stepsize)))
    (hv : ∀ k i : ℕ, i ≤ 2 ^ k → max c.accuracy eps ≤ c.stepsize / 2 ^ k →
      ¬ (0 < f (guess + e * c.stepsize * (i / 2 ^ k)) ∧ f (guess + e * c.stepsize * (i / 2 ^ k)) < closeTol ^ 2)) :
    ∃ r, bisection f c guess = some (.found r) ∧
      (|f r| < closeTol ^ 2 ∨ ∃ z, f z = 0 ∧ |z - r| < max c.accuracy eps) := by
  obtain ⟨r, hr⟩ := C40_bisection_succeeds f c guess ha he hs0 hs (hsign.imp And.right And.right)
  refine ⟨r, hr, ?_⟩
  have hb : ∀ x, c.bound x = x := fun x => by simp [Config.bound, he]
  suffices H : |f r| < closeTol ^ 2 ∨ (f r ≤ 0 ∧ ∃ x, |x - r| < max c.accuracy eps ∧ 0 < f x) by
    rcases H with H | ⟨hr, x, hx, hx'⟩
    · exact Or.inl H
    · exact Or.inr (root_near hf hx hr hx'.le)
  unfold bisection solve at hr
  rw [if_neg (not_le.2 ha)] at hr
  simp only [hb] at hr
  by_cases hc : close (f guess) 0
  · rw [if_pos hc] at hr
    simp only [Option.some.injEq, Ret.found.injEq] at hr
    subst hr
    exact Or.inl (close_zero hc)
  rw [if_neg hc] at hr
  -- The loop on a bracket with a sign change and dyadic points as above.
  have hloop : ∀ b : Bracket, b.yMin = f b.xMin → b.yMax = f b.xMax → b.yMin * b.yMax ≤ 0 →
      (∀ k i : ℕ, i ≤ 2 ^ k → max c.accuracy eps ≤ |b.xMax - b.xMin| / 2 ^ k →
        ¬ (0 < f (b.xMin + (b.xMax - b.xMin) * (i / 2 ^ k)) ∧
          f (b.xMin + (b.xMax - b.xMin) * (i / 2 ^ k)) < closeTol ^ 2)) →
      bracketLoop f c (bisectImpl f (max c.accuracy eps)) 2 false b = .found r →
      |f r| < closeTol ^ 2 ∨ (f r ≤ 0 ∧ ∃ x, |x - r| < max c.accuracy eps ∧ 0 < f x) := by
    intro b e1 e2 h1 hv' h
    rw [bracketLoop, if_neg (by simp [maxIterations]), if_pos h1] at h
    split_ifs at h with g1 g2
    · simp only [Ret.found.injEq] at h
      subst h
      exact Or.inl (close_zero (e1 ▸ g1))
    · simp only [Ret.found.injEq] at h
      subst h
      exact Or.inl (close_zero (e2 ▸ g2))
    · have hsg := signs h1 g1 g2
      rw [e1, e2] at hsg
      unfold bisectImpl at h
      rcases hsg with ⟨q1, q2⟩ | ⟨q1, q2⟩
      · rw [if_pos (e1 ▸ q1)] at h
        exact bisectLoop_accurate f _ _ _ _ _ q1.le (by rwa [add_sub_cancel]) hv' h
      · rw [if_neg (by rw [e1]; exact not_lt.2 q1.le)] at h
        refine bisectLoop_accurate f _ _ _ _ _ q2.le (by rwa [add_sub_cancel]) (fun k i hi hk => ?_) h
        have := hv' k (2 ^ k - i) (Nat.sub_le _ _) (by rwa [abs_sub_comm])
        rwa [show b.xMin + (b.xMax - b.xMin) * (((2 ^ k - i : ℕ) : ℝ) / 2 ^ k) =
          b.xMax + (b.xMin - b.xMax) * (i / 2 ^ k) by
            rw [Nat.cast_sub hi]; push_cast; field_simp; ring] at this
  rcases hsign with ⟨rfl, h1, h2⟩ | ⟨rfl, h1, h2⟩
  · rw [if_pos h1] at hr
    refine hloop ⟨guess - c.stepsize, guess, f (guess - c.stepsize), f guess⟩ rfl rfl (by simp only; nlinarith)
      (fun k i hi hk => ?_) (Option.some.inj hr)
    simp only [sub_sub_cancel] at hk ⊢
    rw [abs_of_nonneg hs0] at hk
    have := hv k (2 ^ k - i) (Nat.sub_le _ _) hk
    rwa [show guess + -1 * c.stepsize * (((2 ^ k - i : ℕ) : ℝ) / 2 ^ k) = guess - c.stepsize + c.stepsize * (i / 2 ^ k) by
      rw [Nat.cast_sub hi]; push_cast; field_simp; ring] at this
  · rw [if_neg (not_lt.2 h1.le)] at hr
    refine hloop ⟨guess, guess + c.stepsize, f guess, f (guess + c.stepsize)⟩ rfl rfl (by simp only; nlinarith)
      (fun k i hi hk => ?_) (Option.some.inj hr)
    simp only [add_sub_cancel_left] at hk ⊢
    rw [abs_of_nonneg hs0] at hk
    have := hv k i hi hk
    rwa [one_mul] at this

/-- The root 1/3 of `x - 1/3`, bisected between 0 and 1 to ten digits: every point met is off the root by at least
`1 / (3 * 2 ^ k)`. -/
example : ∃ r, bisection (fun x => x - 1 / 3) ⟨1e-10, 1, 0, 0, false⟩ 0 = some (.found r) ∧
    (|r - 1 / 3| < closeTol ^ 2 ∨ ∃ z : ℝ, z - 1 / 3 = 0 ∧ |z - r| < max 1e-10 eps) := by
  refine C40_bisection_accurate (fun x => x - 1 / 3) (by fun_prop) ⟨1e-10, 1, 0, 0, false⟩ 0 (by norm_num) rfl
    (by norm_num) ?_ 1 (Or.inr ⟨rfl, by norm_num, by norm_num⟩) ?_
  · calc (1 : ℝ) < eps * 2 ^ 53 := by unfold eps; norm_num
      _ ≤ eps * 2 ^ 999 := mul_le_mul_of_nonneg_left (pow_le_pow_right₀ (by norm_num) (by norm_num)) eps_pos.le
  · rintro k i hi hk ⟨h1, h2⟩
    have hp : (0 : ℝ) < 2 ^ k := by positivity
    have hk' : (2 : ℝ) ^ k ≤ 1e10 := by
      have := (le_max_left _ _).trans hk
      rw [le_div_iff₀ hp] at this
      norm_num at this ⊢
      linarith
    simp only [one_mul, zero_add] at h1 h2
    rw [sub_pos, lt_div_iff₀ hp] at h1
    rw [sub_lt_iff_lt_add, div_lt_iff₀ hp] at h2
    have h3 : (2 : ℝ) ^ k + 1 ≤ 3 * i := by
      have : (2 : ℝ) ^ k < 3 * i := by linarith
      exact_mod_cast Nat.succ_le_of_lt (by exact_mod_cast this)
    have h4 : closeTol ^ 2 ≤ 1e-20 := by unfold closeTol eps; norm_num
    nlinarith

/-- C40 (defect): when the middle of the bracket has a tiny positive value the search stops, but returns the old end of the
bracket instead of the middle. Here `f x = x + 1e-30` is bisected from -1 to 1: the middle 0 is within `1e-30` of the root, and
bisection returns -1. -/
theorem C40_premature_stop :
    bisection (fun x => x + 1e-30) ⟨1e-10, 2, -10, 10, true⟩ (-1) = some (.found (-1)) := by
  have e1 : ¬ close ((-1 : ℝ) + 1e-30) 0 := by
    intro h
    have := close_zero h
    rw [abs_of_neg (by norm_num)] at this
    unfold closeTol eps at this
    norm_num at this
  have e2 : ¬ close ((1 : ℝ) + 1e-30) 0 := by
    intro h
    have := close_zero h
    rw [abs_of_pos (by norm_num)] at this
    unfold closeTol eps at this
    norm_num at this
  have hb : Config.bound ⟨1e-10, 2, -10, 10, true⟩ (-1 + 2) = 1 := by
    unfold Config.bound; norm_num
  unfold bisection solve
  simp only
  rw [if_neg (by norm_num), if_neg e1, if_neg (by norm_num), hb, bracketLoop, if_neg (by simp [maxIterations]),
    if_pos (by norm_num), if_neg e1, if_neg e2]
  unfold bisectImpl
  rw [if_pos (by norm_num)]
  simp only [maxIterations]
  rw [show 1000 + 1 - 2 = 998 + 1 from rfl, bisectLoop]
  have hm : (-1 : ℝ) + (1 - -1) / 2 = 0 := by norm_num
  have hcl : close ((0 : ℝ) + 1e-30) 0 := by
    right; left
    refine ⟨by simp, ?_⟩
    rw [sub_zero, abs_of_pos (by norm_num)]
    unfold closeTol eps
    norm_num
  rw [hm, if_pos (Or.inr hcl), if_neg (by norm_num)]

/-- The same search meets the hypotheses of `C40_bisection` and `C40_bisection_continuous`. -/
example := C40_bisection _ _ _ _ (fun _ => by norm_num) C40_premature_stop

example := C40_bisection_continuous _ (by fun_prop) _ _ _ (fun _ => by norm_num) C40_premature_stop

/-! ## C52: Brent -/

/-- The loop invariant of Brent's method: true values, everything inside `[lo, hi]`, and, when the iterate and its far end
have the same sign, the previous iterate has the other one. -/
structure BrentInv (f : ℝ → ℝ) (lo hi : ℝ) (s : Brent) : Prop where
  vmin : s.yMin = f s.xMin
  vmax : s.yMax = f s.xMax
  vroot : s.froot = f s.root
  bmin : lo ≤ s.xMin ∧ s.xMin ≤ hi
  bmax : lo ≤ s.xMax ∧ s.xMax ≤ hi
  broot : lo ≤ s.root ∧ s.root ≤ hi
  sign : 0 < s.froot * s.yMax → s.yMin * s.froot ≤ 0

theorem rebracket_inv {f : ℝ → ℝ} {lo hi : ℝ} {s : Brent} (h : BrentInv f lo hi s) :
    BrentInv f lo hi s.rebracket ∧ s.rebracket.froot * s.rebracket.yMax ≤ 0 := by
  unfold Brent.rebracket
  split_ifs with hc
  · have hpos : 0 < s.froot * s.yMax := by
      rcases hc with ⟨a, b⟩ | ⟨a, b⟩
      · exact mul_pos a b
      · exact mul_pos_of_neg_of_neg a b
    have := h.sign hpos
    refine ⟨⟨h.vmin, h.vmin, h.vroot, h.bmin, h.bmin, h.broot, fun _ => this⟩, ?_⟩
    simp only
    linarith [mul_comm s.yMin s.froot]
  · refine ⟨h, ?_⟩
    by_contra hp
    rw [not_le] at hp
    rcases pos_and_pos_or_neg_and_neg_of_mul_pos hp with ⟨a, b⟩ | ⟨a, b⟩
    · exact hc (Or.inl ⟨a, b⟩)
    · exact hc (Or.inr ⟨a, b⟩)

theorem swap_inv {f : ℝ → ℝ} {lo hi : ℝ} {s : Brent} (h : BrentInv f lo hi s) (hs : s.froot * s.yMax ≤ 0) :
    BrentInv f lo hi s.swap ∧ s.swap.froot * s.swap.yMax ≤ 0 := by
  unfold Brent.swap
  split_ifs with hc
  · refine ⟨⟨h.vroot, h.vroot, h.vmax, h.broot, h.broot, h.bmax, fun _ => ?_⟩, ?_⟩
    · simp only; exact hs
    · simp only; linarith [mul_comm s.yMax s.froot]
  · exact ⟨h, hs⟩

/-- The divisors in the interpolation of `Brent.step` are not zero: `step` runs only when the value at the iterate is not
close to zero, and only uses `yMin` when it exceeds `|froot|`. -/
theorem swap_yMax_ne_zero (s : Brent) (h : ¬ close s.swap.froot 0) : s.swap.yMax ≠ 0 := by
  have h0 := ne_zero_of_not_close h
  have : |s.swap.froot| ≤ |s.swap.yMax| := by
    unfold Brent.swap
    split_ifs with hc
    · exact hc.le
    · exact not_lt.1 hc
  intro h1
  rw [h1, abs_zero] at this
  exact h0 (abs_eq_zero.1 (le_antisymm this (abs_nonneg _)))

theorem interp_between (xAcc1 xMid p q e : ℝ) (hp : 0 ≤ p)
    (h : 2 * p < if 3 * xMid * q - |xAcc1 * q| < |e * q| then 3 * xMid * q - |xAcc1 * q| else |e * q|) :
    ∃ t, 0 ≤ t ∧ t ≤ 2 ∧ p / q = t * xMid := by
  have h5 : 2 * p < 3 * xMid * q := by
    have := abs_nonneg (xAcc1 * q)
    split_ifs at h with h3
    · linarith
    · linarith [not_lt.1 h3]
  have h6 : 0 < xMid * q := by nlinarith
  have hq0 : q ≠ 0 := fun h => by rw [h] at h6; simp at h6
  have hx0 : xMid ≠ 0 := fun h => by rw [h] at h6; simp at h6
  refine ⟨p / (xMid * q), by positivity, ?_, by field_simp⟩
  rw [div_le_iff₀ h6]; nlinarith

theorem step_eq (s : Brent) (xAcc1 xMid : ℝ) : ∃ t, 0 ≤ t ∧ t ≤ 2 ∧ (s.step xAcc1 xMid).1 = t * xMid := by
  unfold Brent.step
  by_cases h1 : |s.e| ≥ xAcc1 ∧ s.yMin > |s.froot|
  · rw [if_pos h1]
    simp only
    by_cases h2 : close s.xMin s.xMax
    all_goals
      simp only [h2, if_true, if_false]
      split_ifs
      all_goals first
        | (refine interp_between xAcc1 xMid _ _ s.e (abs_nonneg _) ?_
           first
            | (rw [if_pos (by assumption)]; assumption)
            | (rw [if_neg (by assumption)]; assumption))
        | exact ⟨1, by norm_num, by norm_num, by simp⟩
  · rw [if_neg h1]
    exact ⟨1, by norm_num, by norm_num, by simp⟩

theorem step_between (s : Brent) (xAcc1 xMid : ℝ) (hx : 0 < xAcc1) (hm : xAcc1 < |xMid|) :
    ∃ t, 0 ≤ t ∧ t ≤ 2 ∧
      (if |(s.step xAcc1 xMid).1| > xAcc1 then (s.step xAcc1 xMid).1 else nrsign xAcc1 xMid) = t * xMid := by
  have hx0 : xMid ≠ 0 := fun h => by rw [h, abs_zero] at hm; linarith
  split_ifs with hd
  · exact step_eq s xAcc1 xMid
  · unfold nrsign
    simp only [ge_iff_le, hx.le, if_true]
    split_ifs with h
    · rw [abs_of_nonneg h] at hm
      have h' : 0 < xMid := lt_of_le_of_ne h (Ne.symm hx0)
      refine ⟨xAcc1 / xMid, by positivity, ?_, by field_simp⟩
      rw [div_le_iff₀ h']; linarith
    · rw [not_le] at h
      rw [abs_of_neg h] at hm
      refine ⟨xAcc1 / (-xMid), by apply div_nonneg <;> linarith, ?_, ?_⟩
      · rw [div_le_iff₀ (by linarith)]; linarith
      · field_simp

theorem brentLoop_spec (f : ℝ → ℝ) (acc lo hi : ℝ) (hacc : 0 < acc) (n : ℕ) (s : Brent) (hs : BrentInv f lo hi s) (r : ℝ)
    (h : brentLoop f acc n s = .found r) :
    lo ≤ r ∧ r ≤ hi ∧
      (|f r| < closeTol ^ 2 ∨ ∃ x, lo ≤ x ∧ x ≤ hi ∧ f r * f x ≤ 0 ∧ |x - r| ≤ acc + 4 * eps * |r|) := by
  induction n generalizing s with
  | zero => simp [brentLoop] at h
  | succ n ih =>
    rw [brentLoop] at h
    simp only at h
    obtain ⟨i1, i2⟩ := rebracket_inv hs
    obtain ⟨j1, j2⟩ := swap_inv i1 i2
    generalize s.rebracket.swap = w at *
    split_ifs at h with h1 h2
    · simp only [Ret.found.injEq] at h
      subst h
      refine ⟨j1.broot.1, j1.broot.2, ?_⟩
      rcases h1 with h1 | h1
      · refine Or.inr ⟨w.xMax, j1.bmax.1, j1.bmax.2, ?_, ?_⟩
        · rw [← j1.vroot, ← j1.vmax]; exact j2
        · rw [abs_mul, abs_of_pos (by norm_num : (0 : ℝ) < 0.5)] at h1
          linarith
      · exact Or.inl (close_zero (j1.vroot ▸ h1))
    all_goals
      push Not at h1
      have hx : 0 < 2 * eps * |w.root| + 0.5 * acc := by have := eps_pos; positivity
      obtain ⟨t, t0, t2, ht⟩ := step_between w _ _ hx h1.1
      first
        | rw [if_pos h2] at ht
        | rw [if_neg h2] at ht
      refine ih _ (?_ : BrentInv f lo hi _) h
      refine ⟨j1.vroot, j1.vmax, rfl, j1.broot, j1.bmax, ?_, ?_⟩
      · simp only
        rw [ht]
        have b1 := j1.broot
        have b2 := j1.bmax
        constructor <;> nlinarith
      · simp only
        rw [ht]
        generalize f (w.root + t * (0.5 * (w.xMax - w.root))) = y
        intro hy
        rcases pos_and_pos_or_neg_and_neg_of_mul_pos hy with ⟨a, b⟩ | ⟨a, b⟩
        · have : w.froot ≤ 0 := by by_contra hc; rw [not_le] at hc; nlinarith
          nlinarith
        · have : 0 ≤ w.froot := by by_contra hc; rw [not_le] at hc; nlinarith
          nlinarith

/-- C52: what `Brent::solve` returns when its search succeeds: a point with `|f|` below the closeness threshold, or a point
within `accuracy + 4 EPSILON |r|` of a sign change; inside the interval if it is enforced and contains the guess. This holds
whatever step the interpolation proposes. -/
theorem C52_brent (f : ℝ → ℝ) (c : Config) (guess r : ℝ)
    (hg : c.enforced = true → c.lower ≤ guess ∧ guess ≤ c.upper)
    (h : brent f c guess = some (.found r)) :
    (c.enforced = true → c.lower ≤ r ∧ r ≤ c.upper) ∧
    (|f r| < closeTol ^ 2 ∨ ∃ x, f r * f x ≤ 0 ∧ |x - r| ≤ max c.accuracy eps + 4 * eps * |r|) := by
  obtain ⟨hacc, h' | ⟨h1, h2⟩ | ⟨b, it, hb, hit, hs, h'⟩⟩ := solve_cases f c guess _ hg _ h
  · cases h'
  · simp only [Ret.found.injEq] at h2
    subst h2
    exact ⟨hg, Or.inl (close_zero h1)⟩
  · rcases h' with ⟨h1, h2⟩ | ⟨h1, h2⟩ | ⟨h1, h2, h3⟩
    · simp only [Ret.found.injEq] at h2
      subst h2
      exact ⟨fun he => (hb.bounds he).1, Or.inl (close_zero (hb.lo ▸ h1))⟩
    · simp only [Ret.found.injEq] at h2
      subst h2
      exact ⟨fun he => (hb.bounds he).2, Or.inl (close_zero (hb.hi ▸ h1))⟩
    · have key : ∀ lo hi : ℝ, lo ≤ b.xMin → b.xMin ≤ hi → lo ≤ b.xMax → b.xMax ≤ hi → _ :=
        fun lo hi a1 a2 a3 a4 => brentLoop_spec f (max c.accuracy eps) lo hi (lt_max_of_lt_left hacc) _ _
          ⟨hb.lo, hb.hi, hb.hi, ⟨a1, a2⟩, ⟨a3, a4⟩, ⟨a3, a4⟩, fun _ => hs⟩ r h3.symm
      refine ⟨fun he => ?_, ?_⟩
      · have hbd := hb.bounds he
        have := key c.lower c.upper hbd.1.1 hbd.1.2 hbd.2.1 hbd.2.2
        exact ⟨this.1, this.2.1⟩
      · have := key (min b.xMin b.xMax) (max b.xMin b.xMax) (min_le_left _ _) (le_max_left _ _) (min_le_right _ _)
          (le_max_right _ _)
        obtain ⟨_, _, h | ⟨x, _, _, hx, hx'⟩⟩ := this
        · exact Or.inl h
        · exact Or.inr ⟨x, hx, hx'⟩

theorem not_close_one : ¬ close (1 : ℝ) 0 := by
  intro h
  have := close_zero h
  unfold closeTol eps at this
  norm_num at this

theorem not_close_neg_one : ¬ close (-1 : ℝ) 0 := by
  intro h
  have := close_zero h
  unfold closeTol eps at this
  norm_num at this

/-- A successful search: the root of the identity, from -1 with step 2. -/
theorem brent_identity : brent (fun x => x) ⟨1e-10, 2, -10, 10, true⟩ (-1) = some (.found 0) := by
  have hb : Config.bound ⟨1e-10, 2, -10, 10, true⟩ (-1 + 2) = 1 := by
    unfold Config.bound; norm_num
  have he : max 1e-10 eps = 1e-10 := by unfold eps; norm_num
  have he1 : eps ≤ 1 := by unfold eps; norm_num
  have he2 : eps ≤ 1e-10 := by unfold eps; norm_num
  unfold brent solve
  simp only
  rw [if_neg (by norm_num), if_neg not_close_neg_one, if_neg (by norm_num), hb, bracketLoop,
    if_neg (by simp [maxIterations]), if_pos (by norm_num), if_neg not_close_neg_one, if_neg not_close_one, he]
  unfold brentImpl
  simp only [maxIterations]
  rw [show 1000 + 1 - 2 = 997 + 1 + 1 from rfl, brentLoop]
  have h1 : Brent.swap (Brent.rebracket ⟨-1, -1, 1, 1, 1, 1, 0, 0⟩) = ⟨-1, -1, -1, -1, 1, 1, 1 - -1, 1 - -1⟩ := by
    norm_num [Brent.rebracket, Brent.swap]
  have h2 : Brent.swap (Brent.rebracket ⟨1, 1, -1, -1, 0, 0, -1, -1⟩) = ⟨1, 1, -1, -1, 0, 0, -1, -1⟩ := by
    norm_num [Brent.rebracket, Brent.swap]
  have h3 : Brent.step ⟨-1, -1, -1, -1, 1, 1, 1 - -1, 1 - -1⟩ (2 * eps * |1| + 0.5 * 1e-10) (0.5 * (-1 - 1)) = (-1, -1) := by
    norm_num [Brent.step]
  simp only [h1, h3]
  rw [if_neg (by
    simp only [h1]
    rintro (h | h)
    · rw [abs_of_neg (by norm_num), abs_of_pos (by norm_num)] at h
      norm_num at h; linarith
    · exact not_close_one h)]
  rw [if_pos (by rw [abs_of_neg (by norm_num), abs_of_pos (by norm_num)]; norm_num; linarith),
    show (1 : ℝ) + -1 = 0 by norm_num, brentLoop]
  simp only [h2]
  rw [if_pos (by rw [h2]; exact Or.inr (Or.inl rfl))]

/-- C52: for a continuous function a successful Brent search returns a point within `accuracy + 4 EPSILON |r|` of a true
root, or with `|f|` below the closeness threshold. -/
theorem C52_brent_continuous (f : ℝ → ℝ) (hf : Continuous f) (c : Config) (guess r : ℝ)
    (hg : c.enforced = true → c.lower ≤ guess ∧ guess ≤ c.upper)
    (h : brent f c guess = some (.found r)) :
    |f r| < closeTol ^ 2 ∨ ∃ z, f z = 0 ∧ |z - r| ≤ max c.accuracy eps + 4 * eps * |r| := by
  obtain ⟨_, h | ⟨x, hx, hx'⟩⟩ := C52_brent f c guess r hg h
  · exact Or.inl h
  · right
    have h0 : (0 : ℝ) ∈ Set.uIcc (f r) (f x) := by
      rw [Set.mem_uIcc]
      by_contra hc
      push Not at hc
      rcases le_or_gt (f r) 0 with h1 | h1
      · have h2 := hc.1 h1
        have h3 := hc.2
        rcases lt_or_eq_of_le h1 with h4 | h4
        · nlinarith
        · have := hc.2 h2.le; rw [h4] at this; exact lt_irrefl _ this
      · rcases le_or_gt (f x) 0 with h2 | h2
        · have := hc.2 h2; linarith
        · nlinarith
    obtain ⟨z, hz, hz0⟩ := intermediate_value_uIcc (hf.continuousOn) h0
    refine ⟨z, hz0, le_trans ?_ hx'⟩
    rw [abs_sub_comm z r, abs_sub_comm x r]
    exact Set.abs_sub_left_of_mem_uIcc hz |> fun h => by simpa [abs_sub_comm] using h

example := C52_brent_continuous _ continuous_id _ _ _ (fun _ => by norm_num) brent_identity

/-! ## C53: Newton-Raphson -/

theorem newtonLoop_spec (f f' : ℝ → ℝ) (acc lo hi : ℝ) (n : ℕ) (root xl xh dx dxold r : ℝ)
    (h1 : f xl < 0) (h2 : 0 ≤ f xh) (bl : lo ≤ xl ∧ xl ≤ hi) (bh : lo ≤ xh ∧ xh ≤ hi)
    (h : newtonLoop f f' acc n root xl xh dx dxold = .found r) :
    lo ≤ r ∧ r ≤ hi ∧
      ((∃ a b, f a < 0 ∧ 0 ≤ f b ∧ |a - r| < acc ∧ |b - r| < acc) ∨
       ∃ p, f' p ≠ 0 ∧ r = p - f p / f' p ∧ |r - p| < acc) := by
  induction n generalizing root xl xh dx dxold with
  | zero => simp [newtonLoop] at h
  | succ n ih =>
    rw [newtonLoop] at h
    simp only at h
    split_ifs at h with c1 c2 c3 c4 c5 c6
    · simp only [Ret.found.injEq] at h
      subst h
      refine ⟨by linarith [bl.1, bh.1], by linarith [bl.2, bh.2], Or.inl ⟨xl, xh, h1, h2, ?_, ?_⟩⟩
      · rw [show xl - (xl + (xh - xl) / 2) = -((xh - xl) / 2) by ring, abs_neg]; exact c2
      · rw [show xh - (xl + (xh - xl) / 2) = (xh - xl) / 2 by ring]; exact c2
    · exact ih _ _ _ _ _ c3 h2 ⟨by linarith [bl.1, bh.1], by linarith [bl.2, bh.2]⟩ bh h
    · exact ih _ _ _ _ _ h1 (not_lt.1 c3) bl ⟨by linarith [bl.1, bh.1], by linarith [bl.2, bh.2]⟩ h
    all_goals
      push Not at c1
      have hprod : (root - f root / f' root - xh) * (root - f root / f' root - xl) ≤ 0 := by
        have e : ((root - xh) * f' root - f root) * ((root - xl) * f' root - f root) =
            (root - f root / f' root - xh) * (root - f root / f' root - xl) * (f' root) ^ 2 := by
          field_simp
          ring
        have h3 := c1.1
        rw [e] at h3
        have : 0 < (f' root) ^ 2 := by positivity
        by_contra hc
        rw [not_le] at hc
        have := mul_pos hc this
        linarith
      have hin : lo ≤ root - f root / f' root ∧ root - f root / f' root ≤ hi := by
        generalize root - f root / f' root = z at hprod
        constructor
        · by_contra hc
          rw [not_le] at hc
          have a1 : z - xh < 0 := by linarith [bh.1]
          have a2 : z - xl < 0 := by linarith [bl.1]
          have := mul_pos_of_neg_of_neg a1 a2
          linarith
        · by_contra hc
          rw [not_le] at hc
          have a1 : 0 < z - xh := by linarith [bh.2]
          have a2 : 0 < z - xl := by linarith [bl.2]
          have := mul_pos a1 a2
          linarith
    · simp only [Ret.found.injEq] at h
      subst h
      refine ⟨hin.1, hin.2, Or.inr ⟨root, c4, rfl, ?_⟩⟩
      rw [sub_sub_cancel_left, abs_neg]; exact c5
    · exact ih _ _ _ _ _ c6 h2 hin bh h
    · exact ih _ _ _ _ _ h1 (not_lt.1 c6) bl hin h

/-- C53: what `NewtonRaphson::solve` returns when its search succeeds: a point with `|f|` below the closeness threshold, or
the middle of a sign change shorter than twice the effective accuracy, or the end of a Newton step shorter than it; always
inside the bracket, so inside the interval if it is enforced and contains the guess. -/
theorem C53_newton (f f' : ℝ → ℝ) (c : Config) (guess r : ℝ)
    (hg : c.enforced = true → c.lower ≤ guess ∧ guess ≤ c.upper)
    (h : newton f f' c guess = some (.found r)) :
    (c.enforced = true → c.lower ≤ r ∧ r ≤ c.upper) ∧
    (|f r| < closeTol ^ 2 ∨
     (∃ a b, f a < 0 ∧ 0 ≤ f b ∧ |a - r| < max c.accuracy eps ∧ |b - r| < max c.accuracy eps) ∨
     ∃ p, f' p ≠ 0 ∧ r = p - f p / f' p ∧ |r - p| < max c.accuracy eps) := by
  obtain ⟨hacc, h' | ⟨h1, h2⟩ | ⟨b, it, hb, hit, hs, h'⟩⟩ := solve_cases f c guess _ hg _ h
  · cases h'
  · simp only [Ret.found.injEq] at h2
    subst h2
    exact ⟨hg, Or.inl (close_zero h1)⟩
  · rcases h' with ⟨h1, h2⟩ | ⟨h1, h2⟩ | ⟨h1, h2, h3⟩
    · simp only [Ret.found.injEq] at h2
      subst h2
      exact ⟨fun he => (hb.bounds he).1, Or.inl (close_zero (hb.lo ▸ h1))⟩
    · simp only [Ret.found.injEq] at h2
      subst h2
      exact ⟨fun he => (hb.bounds he).2, Or.inl (close_zero (hb.hi ▸ h1))⟩
    · have hsg := signs hs h1 h2
      rw [hb.lo, hb.hi] at hsg
      unfold newtonImpl at h3
      simp only at h3
      have key : ∀ lo hi : ℝ, lo ≤ b.xMin → b.xMin ≤ hi → lo ≤ b.xMax → b.xMax ≤ hi →
          lo ≤ r ∧ r ≤ hi ∧
          ((∃ a b, f a < 0 ∧ 0 ≤ f b ∧ |a - r| < max c.accuracy eps ∧ |b - r| < max c.accuracy eps) ∨
            ∃ p, f' p ≠ 0 ∧ r = p - f p / f' p ∧ |r - p| < max c.accuracy eps) := by
        intro lo hi a1 a2 a3 a4
        rcases hsg with ⟨g1, g2⟩ | ⟨g1, g2⟩
        · rw [if_pos (hb.lo ▸ g1)] at h3
          exact newtonLoop_spec f f' _ lo hi _ _ _ _ _ _ r g1 g2.le ⟨a1, a2⟩ ⟨a3, a4⟩ h3.symm
        · rw [if_neg (by rw [hb.lo]; exact not_lt.2 g1.le)] at h3
          exact newtonLoop_spec f f' _ lo hi _ _ _ _ _ _ r g2 g1.le ⟨a3, a4⟩ ⟨a1, a2⟩ h3.symm
      refine ⟨fun he => ?_, ?_⟩
      · have hbd := hb.bounds he
        have := key c.lower c.upper hbd.1.1 hbd.1.2 hbd.2.1 hbd.2.2
        exact ⟨this.1, this.2.1⟩
      · have := key (min b.xMin b.xMax) (max b.xMin b.xMax) (min_le_left _ _) (le_max_left _ _) (min_le_right _ _)
          (le_max_right _ _)
        exact Or.inr this.2.2

/-- A successful search: the root of the identity, from -1 with step 2. -/
example : newton (fun x => x) (fun _ => 1) ⟨1e-10, 2, -10, 10, true⟩ (-1) = some (.found 0) := by
  have hb : Config.bound ⟨1e-10, 2, -10, 10, true⟩ (-1 + 2) = 1 := by
    unfold Config.bound; norm_num
  unfold newton solve
  simp only
  rw [if_neg (by norm_num), if_neg not_close_neg_one, if_neg (by norm_num), hb, bracketLoop,
    if_neg (by simp [maxIterations]), if_pos (by norm_num), if_neg not_close_neg_one, if_neg not_close_one]
  unfold newtonImpl
  simp only
  rw [if_pos (by norm_num)]
  simp only [maxIterations]
  rw [show 1000 - 2 = 997 + 1 from rfl, newtonLoop]
  simp only
  rw [if_neg (by norm_num), if_neg (by norm_num), if_pos (by norm_num)]
  norm_num

/-- C53 (defect): when an iterate is an exact root with derivative zero, the search divides zero by zero and fails. For
`f x = (x - 5)^3` started at 4 with step 2 the first iterate is the root 5, and the answer is `0.0`. -/
theorem C53_exact_root_lost :
    (newton (fun x => (x - 5) ^ 3) (fun x => 3 * (x - 5) ^ 2) ⟨1e-10, 2, -10, 10, true⟩ 4).map Ret.value = some 0 := by
  have e1 : ¬ close (((4 : ℝ) - 5) ^ 3) 0 := by
    intro h
    have := close_zero h
    unfold closeTol eps at this
    norm_num at this
  have e2 : ¬ close (((6 : ℝ) - 5) ^ 3) 0 := by
    intro h
    have := close_zero h
    unfold closeTol eps at this
    norm_num at this
  have hb : Config.bound ⟨1e-10, 2, -10, 10, true⟩ (4 + 2) = 6 := by
    unfold Config.bound; norm_num
  unfold newton solve
  simp only
  rw [if_neg (by norm_num), if_neg e1, if_neg (by norm_num), hb, bracketLoop, if_neg (by simp [maxIterations]),
    if_pos (by norm_num), if_neg e1, if_neg e2]
  unfold newtonImpl
  simp only
  rw [if_pos (by norm_num)]
  simp only [maxIterations]
  rw [show 1000 - 2 = 997 + 1 from rfl, newtonLoop]
  simp only
  rw [if_neg (by norm_num), if_pos (by norm_num)]
  rfl

/-! ## C54: bracketing and failure -/

/-- C54: the assertion: every solver panics exactly when the accuracy is not positive. -/
theorem C54_panics (f : ℝ → ℝ) (c : Config) (guess : ℝ) (impl : ℝ → Bracket → ℕ → Ret) :
    solve f c guess impl = none ↔ c.accuracy ≤ 0 := by
  unfold solve
  simp only
  split_ifs <;> simp_all

/-- C54 (defect): a failed search is reported as the number 0. For every function that stays at or above the closeness
threshold, so has no root at all, all three solvers return `0.0` from every guess. -/
theorem C54_failure_is_zero (f f' : ℝ → ℝ) (hf : ∀ x, closeTol ^ 2 ≤ f x) (c : Config) (ha : 0 < c.accuracy)
    (guess : ℝ) (hg : c.enforced = true → c.lower ≤ guess ∧ guess ≤ c.upper) :
    (bisection f c guess).map Ret.value = some 0 ∧ (brent f c guess).map Ret.value = some 0 ∧
      (newton f f' c guess).map Ret.value = some 0 := by
  have ht : 0 < closeTol ^ 2 := by unfold closeTol; have := eps_pos; positivity
  have key : ∀ impl, (solve f c guess impl).map Ret.value = some 0 := by
    intro impl
    cases h : solve f c guess impl with
    | none => rw [C54_panics] at h; linarith
    | some r =>
      obtain ⟨_, h' | ⟨h1, _⟩ | ⟨b, it, hb, _, hs, _⟩⟩ := solve_cases f c guess impl hg r h
      · subst h'; rfl
      · have := close_zero h1
        rw [abs_of_pos (lt_of_lt_of_le ht (hf guess))] at this
        linarith [hf guess]
      · rw [hb.lo, hb.hi] at hs
        have h1 := lt_of_lt_of_le ht (hf b.xMin)
        have h2 := lt_of_lt_of_le ht (hf b.xMax)
        nlinarith
  exact ⟨key _, key _, key _⟩

example : ∃ f : ℝ → ℝ, ∀ x, closeTol ^ 2 ≤ f x :=
  ⟨fun x => x ^ 2 + 1, fun x => by
    have : closeTol ^ 2 ≤ 1 := by unfold closeTol eps; norm_num
    nlinarith [sq_nonneg x]⟩

end Verif.Math.Rootfind
