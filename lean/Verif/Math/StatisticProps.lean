import Verif.Math.Statistic
import Mathlib.Analysis.MeanInequalities
import Mathlib.Algebra.QuadraticDiscriminant
import Mathlib.Algebra.BigOperators.Fin
import Mathlib.Algebra.BigOperators.Ring.List
import Mathlib.Algebra.Order.BigOperators.Group.List
import Mathlib.Tactic.Linarith
import Mathlib.Tactic.FieldSimp
import Mathlib.Tactic.Ring
import Mathlib.Tactic.Positivity
import Mathlib.Tactic.NormNum

/-!
# C41: descriptive statistics
-/

namespace Verif.Math.Statistic

/-! ## Sums -/

theorem sum_affine (xs : List ℝ) (a b : ℝ) : (xs.map fun x => a * x + b).sum = a * xs.sum + b * xs.length := by
  induction xs with
  | nil => simp
  | cons x l ih => simp only [List.map_cons, List.sum_cons, ih, List.length_cons]; push_cast; ring

theorem sum_map_mul (xs : List ℝ) (f : ℝ → ℝ) (c : ℝ) : (xs.map fun x => c * f x).sum = c * (xs.map f).sum := by
  induction xs with
  | nil => simp
  | cons x l ih => simp only [List.map_cons, List.sum_cons, ih]; ring

theorem sum_sq_dev (xs : List ℝ) (c : ℝ) :
    (xs.map fun x => (x - c) ^ 2).sum = (xs.map fun x => x ^ 2).sum - 2 * c * xs.sum + c ^ 2 * xs.length := by
  induction xs with
  | nil => simp
  | cons x l ih => simp only [List.map_cons, List.sum_cons, ih, List.length_cons]; push_cast; ring

theorem sum_sq_nonneg (xs : List ℝ) (c : ℝ) : 0 ≤ (xs.map fun x => (x - c) ^ 2).sum := by
  apply List.sum_nonneg
  intro y hy
  obtain ⟨x, _, rfl⟩ := List.mem_map.1 hy
  positivity

theorem sum_sq_eq_zero (xs : List ℝ) (c : ℝ) : (xs.map fun x => (x - c) ^ 2).sum = 0 ↔ ∀ x ∈ xs, x = c := by
  induction xs with
  | nil => simp
  | cons x l ih =>
    simp only [List.map_cons, List.sum_cons, List.forall_mem_cons, ← ih]
    have h1 := sum_sq_nonneg l c
    have h2 := sq_nonneg (x - c)
    constructor
    · intro h
      have h3 : (x - c) ^ 2 = 0 := by linarith
      exact ⟨by have := pow_eq_zero_iff (two_ne_zero) |>.1 h3; linarith, by linarith⟩
    · rintro ⟨rfl, h⟩
      rw [h]; ring

/-- The population mean, in closed form. -/
noncomputable def mu (xs : List ℝ) : ℝ := xs.sum / xs.length

/-- The sum of squared deviations, in closed form. -/
noncomputable def ss (xs : List ℝ) : ℝ := (xs.map fun x => (x - mu xs) ^ 2).sum

/-- The sum of products of deviations. -/
noncomputable def sp (xs ys : List ℝ) : ℝ := (List.zipWith (fun x y => (x - mu xs) * (y - mu ys)) xs ys).sum

theorem mean_val {xs : List ℝ} (h : xs ≠ []) : mean xs = .val (mu xs) := by
  unfold mean arithmeticMean mu
  have : xs.length ≠ 0 := by simpa using h
  rw [if_neg this, if_neg this]

theorem variance_val {xs : List ℝ} (h : 2 ≤ xs.length) : variance xs = .val (ss xs / (xs.length - 1)) := by
  unfold variance sampleVariance ss
  have h0 : xs ≠ [] := by rintro rfl; simp at h
  rw [if_neg (by omega), if_neg (by omega), mean_val h0]
  simp only [Out.bind]
  rw [if_neg (by omega), Nat.cast_sub (by omega), Nat.cast_one]

theorem popVariance_val {xs : List ℝ} (h : xs ≠ []) : populationVariance xs = .val (ss xs / xs.length) := by
  unfold populationVariance ss
  rw [if_neg (by simpa using h), mean_val h]
  rfl

theorem sd_val {xs : List ℝ} (h : 2 ≤ xs.length) :
    standardDeviation xs = .val (Real.sqrt (ss xs / (xs.length - 1))) := by
  unfold standardDeviation sampleStandardDeviation
  rw [if_neg (by omega), if_neg (by omega), variance_val h]
  rfl

theorem cov_val {xs ys : List ℝ} (hl : xs.length = ys.length) (h : 2 ≤ xs.length) :
    covariance xs ys = .val (sp xs ys / (xs.length - 1)) := by
  unfold covariance sp mu
  rw [if_neg (by simpa using hl), if_neg (by omega)]
  simp only
  rw [hl]

theorem ne_nil {xs : List ℝ} (h : 2 ≤ xs.length) : xs ≠ [] := by rintro rfl; simp at h

theorem length_pos {xs : List ℝ} (h : 2 ≤ xs.length) : (0 : ℝ) < xs.length - 1 := by
  have : (2 : ℝ) ≤ xs.length := by exact_mod_cast h
  linarith

theorem mu_mul {xs : List ℝ} (h : xs ≠ []) : mu xs * xs.length = xs.sum := by
  unfold mu
  have : (xs.length : ℝ) ≠ 0 := by simpa using h
  field_simp

theorem ss_nonneg (xs : List ℝ) : 0 ≤ ss xs := sum_sq_nonneg xs _

theorem mu_affine {xs : List ℝ} (h : xs ≠ []) (a b : ℝ) : mu (xs.map fun x => a * x + b) = a * mu xs + b := by
  unfold mu
  have : (xs.length : ℝ) ≠ 0 := by simpa using h
  rw [sum_affine, List.length_map]
  field_simp

theorem ss_affine {xs : List ℝ} (h : xs ≠ []) (a b : ℝ) : ss (xs.map fun x => a * x + b) = a ^ 2 * ss xs := by
  unfold ss
  rw [mu_affine h, List.map_map, ← sum_map_mul]
  congr 1
  refine List.map_congr_left fun x _ => ?_
  simp only [Function.comp]
  ring

theorem sp_self (xs : List ℝ) : sp xs xs = ss xs := by
  unfold sp ss
  generalize mu xs = m
  congr 1
  rw [List.zipWith_self]
  refine List.map_congr_left fun x _ => ?_
  ring

theorem sp_comm {xs ys : List ℝ} : sp xs ys = sp ys xs := by
  unfold sp
  congr 1
  rw [List.zipWith_comm]
  congr 1
  funext y x
  ring

theorem zip_affine (xs ys : List ℝ) (a b m k : ℝ) :
    (List.zipWith (fun x y => (x - (a * m + b)) * (y - k)) (xs.map fun x => a * x + b) ys).sum =
      a * (List.zipWith (fun x y => (x - m) * (y - k)) xs ys).sum := by
  induction xs generalizing ys with
  | nil => simp
  | cons x l ih =>
    cases ys with
    | nil => simp
    | cons y l' => simp only [List.map_cons, List.zipWith_cons_cons, List.sum_cons, ih]; ring

theorem sp_affine {xs : List ℝ} (h : xs ≠ []) (ys : List ℝ) (a b : ℝ) :
    sp (xs.map fun x => a * x + b) ys = a * sp xs ys := by
  unfold sp
  rw [mu_affine h, zip_affine]

theorem zip_add (xs ys zs : List ℝ) (m n k : ℝ) (h : xs.length = ys.length) :
    (List.zipWith (fun w z => (w - (m + n)) * (z - k)) (List.zipWith (· + ·) xs ys) zs).sum =
      (List.zipWith (fun x z => (x - m) * (z - k)) xs zs).sum + (List.zipWith (fun y z => (y - n) * (z - k)) ys zs).sum := by
  induction xs generalizing ys zs with
  | nil =>
    have : ys = [] := by simpa using h.symm
    subst this; simp
  | cons x l ih =>
    cases ys with
    | nil => simp at h
    | cons y l' =>
      cases zs with
      | nil => simp
      | cons z l'' =>
        simp only [List.zipWith_cons_cons, List.sum_cons]
        rw [ih l' l'' (by simpa using h)]
        ring

theorem sum_zip_add (xs ys : List ℝ) (h : xs.length = ys.length) : (List.zipWith (· + ·) xs ys).sum = xs.sum + ys.sum := by
  induction xs generalizing ys with
  | nil => have : ys = [] := by simpa using h.symm
           subst this; simp
  | cons x l ih =>
    cases ys with
    | nil => simp at h
    | cons y l' => simp only [List.zipWith_cons_cons, List.sum_cons, ih l' (by simpa using h)]; ring

theorem mu_add {xs ys : List ℝ} (h : xs.length = ys.length) : mu (List.zipWith (· + ·) xs ys) = mu xs + mu ys := by
  unfold mu
  rw [sum_zip_add xs ys h, List.length_zipWith, ← h, min_self]
  ring

theorem sp_add {xs ys : List ℝ} (h : xs.length = ys.length) (zs : List ℝ) :
    sp (List.zipWith (· + ·) xs ys) zs = sp xs zs + sp ys zs := by
  unfold sp
  rw [mu_add h, zip_add xs ys zs _ _ _ h]

/-- Cauchy-Schwarz for lists of deviations. -/
theorem sp_sq_le {xs ys : List ℝ} (h : xs.length = ys.length) : sp xs ys ^ 2 ≤ ss xs * ss ys := by
  have key : ∀ t : ℝ, 0 ≤ ss xs * (t * t) + (2 * sp xs ys) * t + ss ys := by
    intro t
    unfold ss sp
    generalize mu xs = m
    generalize mu ys = k
    have : (xs.map fun x => (x - m) ^ 2).sum * (t * t) +
        (2 * (List.zipWith (fun x y => (x - m) * (y - k)) xs ys).sum) * t + (ys.map fun y => (y - k) ^ 2).sum =
        (List.zipWith (fun x y => ((x - m) * t + (y - k)) ^ 2) xs ys).sum := by
      induction xs generalizing ys with
      | nil =>
        have : ys = [] := by simpa using h.symm
        subst this; simp
      | cons x l ih =>
        cases ys with
        | nil => simp at h
        | cons y l' =>
          simp only [List.map_cons, List.zipWith_cons_cons, List.sum_cons]
          rw [← ih (by simpa using h)]
          ring
    rw [this]
    apply List.sum_nonneg
    intro z hz
    obtain ⟨p, _, rfl⟩ := List.mem_iff_getElem.1 hz
    rw [List.getElem_zipWith]
    positivity
  have := discrim_le_zero key
  unfold discrim at this
  nlinarith

/-! ## Minimum and maximum -/

theorem foldl_min (l : List ℝ) (x : ℝ) : IsLeast {y | y ∈ x :: l} (l.foldl (fun a b => a ⊓ b) x) := by
  induction l generalizing x with
  | nil => simp [IsLeast, lowerBounds]
  | cons y l ih =>
    obtain ⟨h1, h2⟩ := ih (x ⊓ y)
    simp only [List.foldl_cons]
    constructor
    · simp only [Set.mem_ofPred_eq, List.mem_cons] at h1 ⊢
      rcases h1 with h1 | h1
      · rcases min_choice x y with h | h
        · left; rw [h1]; exact h
        · right; left; rw [h1]; exact h
      · exact Or.inr (Or.inr h1)
    · intro z hz
      have h3 := h2 (show x ⊓ y ∈ {z | z ∈ (x ⊓ y) :: l} by simp)
      simp only [Set.mem_ofPred_eq, List.mem_cons] at hz
      rcases hz with rfl | rfl | hz
      · exact le_trans h3 inf_le_left
      · exact le_trans h3 inf_le_right
      · exact h2 (by simp [hz])

theorem foldl_max (l : List ℝ) (x : ℝ) : IsGreatest {y | y ∈ x :: l} (l.foldl (fun a b => a ⊔ b) x) := by
  induction l generalizing x with
  | nil => simp [IsGreatest, upperBounds]
  | cons y l ih =>
    obtain ⟨h1, h2⟩ := ih (x ⊔ y)
    simp only [List.foldl_cons]
    constructor
    · simp only [Set.mem_ofPred_eq, List.mem_cons] at h1 ⊢
      rcases h1 with h1 | h1
      · rcases max_choice x y with h | h
        · left; rw [h1]; exact h
        · right; left; rw [h1]; exact h
      · exact Or.inr (Or.inr h1)
    · intro z hz
      have h3 := h2 (show x ⊔ y ∈ {z | z ∈ (x ⊔ y) :: l} by simp)
      simp only [Set.mem_ofPred_eq, List.mem_cons] at hz
      rcases hz with rfl | rfl | hz
      · exact le_trans le_sup_left h3
      · exact le_trans le_sup_right h3
      · exact h2 (by simp [hz])

/-- C41: `min` and `max` panic only on the empty vector; otherwise they are the least and greatest entry and `range` is their
difference. -/
theorem C41_min_max (xs : List ℝ) :
    (xs = [] → min xs = .panic ∧ max xs = .panic ∧ range xs = .panic) ∧
    (xs ≠ [] → ∃ lo hi, min xs = .val lo ∧ max xs = .val hi ∧ range xs = .val (hi - lo) ∧
      IsLeast {x | x ∈ xs} lo ∧ IsGreatest {x | x ∈ xs} hi) := by
  refine ⟨by rintro rfl; exact ⟨rfl, rfl, by simp [range]⟩, fun h => ?_⟩
  cases xs with
  | nil => exact absurd rfl h
  | cons x l => exact ⟨_, _, rfl, rfl, by simp [range, max, min, Out.bind], foldl_min l x, foldl_max l x⟩

/-! ## The claims -/

theorem sum_bounds (xs : List ℝ) (lo hi : ℝ) (h : ∀ x ∈ xs, lo ≤ x ∧ x ≤ hi) :
    lo * xs.length ≤ xs.sum ∧ xs.sum ≤ hi * xs.length := by
  induction xs with
  | nil => simp
  | cons x l ih =>
    obtain ⟨h1, h2⟩ := ih fun y hy => h y (by simp [hy])
    obtain ⟨h3, h4⟩ := h x (by simp)
    simp only [List.sum_cons, List.length_cons]
    push_cast
    constructor <;> nlinarith

/-- C41: the mean lies between the least and the greatest entry, deviations from it add up to zero, and it is the point with
the least sum of squared deviations. -/
theorem C41_mean (xs : List ℝ) (h : xs ≠ []) :
    ∃ m lo hi, mean xs = .val m ∧ arithmeticMean xs = .val m ∧ min xs = .val lo ∧ max xs = .val hi ∧ lo ≤ m ∧ m ≤ hi ∧
      (xs.map fun x => x - m).sum = 0 ∧
      ∀ c, (xs.map fun x => (x - m) ^ 2).sum ≤ (xs.map fun x => (x - c) ^ 2).sum := by
  obtain ⟨lo, hi, h1, h2, _, h3, h4⟩ := (C41_min_max xs).2 h
  have hlen : (0 : ℝ) < xs.length := by
    have : 0 < xs.length := List.length_pos_of_ne_nil h
    exact_mod_cast this
  obtain ⟨b1, b2⟩ := sum_bounds xs lo hi fun x hx => ⟨h3.2 hx, h4.2 hx⟩
  have hm := mu_mul h
  refine ⟨mu xs, lo, hi, mean_val h, ?_, h1, h2, ?_, ?_, ?_, ?_⟩
  · unfold arithmeticMean mu; rw [if_neg (by simpa using h)]
  · unfold mu; rwa [le_div_iff₀ hlen]
  · unfold mu; rwa [div_le_iff₀ hlen]
  · have := sum_affine xs 1 (-mu xs)
    simp only [one_mul, ← sub_eq_add_neg] at this
    rw [this, ← hm]; ring
  · intro c
    rw [sum_sq_dev, sum_sq_dev, ← hm]
    nlinarith [sq_nonneg (mu xs - c), mul_nonneg hlen.le (sq_nonneg (mu xs - c))]

example := C41_mean [3, 1, 2] (by simp)

/-- C41: mean, variance and standard deviation under `x ↦ a x + b`. -/
theorem C41_affine (xs : List ℝ) (h : 2 ≤ xs.length) (a b m v s : ℝ)
    (hm : mean xs = .val m) (hv : variance xs = .val v) (hs : standardDeviation xs = .val s) :
    mean (xs.map fun x => a * x + b) = .val (a * m + b) ∧
    variance (xs.map fun x => a * x + b) = .val (a ^ 2 * v) ∧
    standardDeviation (xs.map fun x => a * x + b) = .val (|a| * s) := by
  have h0 := ne_nil h
  have hl : 2 ≤ (xs.map fun x => a * x + b).length := by simpa using h
  have hn : (xs.map fun x => a * x + b) ≠ [] := ne_nil hl
  rw [mean_val h0] at hm
  rw [variance_val h] at hv
  rw [sd_val h] at hs
  cases hm; cases hv; cases hs
  refine ⟨by rw [mean_val hn, mu_affine h0], ?_, ?_⟩
  · rw [variance_val hl, ss_affine h0, List.length_map, mul_div_assoc]
  · rw [sd_val hl, ss_affine h0, List.length_map, mul_div_assoc, Real.sqrt_mul (sq_nonneg a), Real.sqrt_sq_eq_abs]

/-- C41: the variance is never negative, and zero exactly when all entries are equal; the population variance is
`(n - 1) / n` of it and is the mean of the squares minus the square of the mean; the standard deviation is its root. One entry
gives no variance, none panics. -/
theorem C41_variance (xs : List ℝ) :
    (xs = [] → variance xs = .panic) ∧ (xs.length = 1 → variance xs = .special) ∧
    (2 ≤ xs.length → ∃ m v p s, mean xs = .val m ∧ variance xs = .val v ∧ sampleVariance xs = .val v ∧
      populationVariance xs = .val p ∧ standardDeviation xs = .val s ∧
      0 ≤ v ∧ (v = 0 ↔ ∀ x ∈ xs, ∀ y ∈ xs, x = y) ∧ p * xs.length = v * (xs.length - 1) ∧
      p = (xs.map fun x => x ^ 2).sum / xs.length - m ^ 2 ∧ 0 ≤ s ∧ s ^ 2 = v) := by
  refine ⟨by rintro rfl; simp [variance], fun h => ?_, fun h => ?_⟩
  · have h0 : xs ≠ [] := by rintro rfl; simp at h
    unfold variance sampleVariance
    rw [if_neg (by omega), if_neg (by omega), mean_val h0]
    simp [Out.bind, h]
  · have h0 := ne_nil h
    have hp := length_pos h
    have hl : (xs.length : ℝ) ≠ 0 := by linarith
    have hv : 0 ≤ ss xs / (xs.length - 1) := div_nonneg (ss_nonneg _) hp.le
    refine ⟨mu xs, _, _, _, mean_val h0, variance_val h, ?_, popVariance_val h0, sd_val h, hv, ?_, ?_, ?_,
      Real.sqrt_nonneg _, Real.sq_sqrt hv⟩
    · rw [← variance_val h]; unfold variance; rw [if_neg (by omega)]
    · rw [div_eq_zero_iff, or_iff_left (ne_of_gt hp)]
      unfold ss
      rw [sum_sq_eq_zero]
      constructor
      · intro hx x hx1 y hy; rw [hx x hx1, hx y hy]
      · intro hx x hx1
        have : xs.sum = x * xs.length := by
          have := sum_bounds xs x x fun y hy => ⟨(hx x hx1 y hy).le, (hx x hx1 y hy).ge⟩
          linarith
        unfold mu
        rw [this]
        field_simp
    · have : (xs.length : ℝ) - 1 ≠ 0 := ne_of_gt hp
      field_simp
    · unfold ss
      rw [sum_sq_dev, ← mu_mul h0]
      field_simp
      ring

/-- C41: the covariance panics exactly for different lengths or fewer than two entries; it is symmetric, agrees with the
variance on the diagonal, and is linear in each argument and blind to shifts. -/
theorem C41_covariance (xs ys zs : List ℝ) (h1 : xs.length = ys.length) (h2 : ys.length = zs.length) (a b c d : ℝ) :
    (covariance xs ys = .panic ↔ xs.length ≤ 1) ∧
    (∀ ws : List ℝ, ws.length ≠ xs.length → covariance xs ws = .panic) ∧
    covariance xs ys = covariance ys xs ∧ (2 ≤ xs.length → covariance xs xs = variance xs) ∧
    (∀ v w, covariance xs zs = .val v → covariance ys zs = .val w →
      covariance (List.zipWith (· + ·) xs ys) zs = .val (v + w) ∧
      covariance (xs.map fun x => a * x + b) (zs.map fun x => c * x + d) = .val (a * c * v)) := by
  refine ⟨?_, ?_, ?_, ?_, ?_⟩
  · constructor
    · intro h
      by_contra hc
      rw [cov_val h1 (by omega)] at h
      simp at h
    · intro h
      unfold covariance
      rw [if_neg (by simpa using h1), if_pos h]
  · intro ws hw
    unfold covariance
    rw [if_pos (by omega)]
  · by_cases h : 2 ≤ xs.length
    · rw [cov_val h1 h, cov_val h1.symm (by omega), sp_comm, h1]
    · unfold covariance
      rw [if_neg (not_not.2 h1), if_neg (not_not.2 h1.symm), if_pos (by omega : xs.length ≤ 1),
        if_pos (by omega : ys.length ≤ 1)]
  · intro h
    rw [cov_val rfl h, variance_val h, sp_self]
  · intro v w hv hw
    have hlen : 2 ≤ xs.length := by
      by_contra hc
      unfold covariance at hv
      rw [if_neg (by omega), if_pos (by omega)] at hv
      simp at hv
    rw [cov_val (by omega) hlen] at hv
    rw [cov_val (by omega) (by omega)] at hw
    cases hv; cases hw
    have e : (List.zipWith (· + ·) xs ys).length = xs.length := by rw [List.length_zipWith, ← h1, min_self]
    refine ⟨?_, ?_⟩
    · rw [cov_val (by omega) (by omega), sp_add h1, e, h1, add_div]
    · rw [cov_val (by simp; omega) (by simp; omega), sp_affine (ne_nil hlen), sp_comm, sp_affine (ne_nil (by omega)),
        sp_comm, List.length_map]
      congr 1
      ring

example := C41_covariance [1, 2, 4, 5] [2, 1, 5, 4] [0, 3, 3, 7] rfl rfl 2 1 (-3) 5

theorem corr_val {xs ys : List ℝ} (hl : xs.length = ys.length) (h : 2 ≤ xs.length) (hx : 0 < ss xs) (hy : 0 < ss ys) :
    correlation xs ys = .val (sp xs ys / (Real.sqrt (ss xs) * Real.sqrt (ss ys))) := by
  have hp := length_pos h
  have hx' : 0 < Real.sqrt (ss xs) := Real.sqrt_pos.2 hx
  have hy' : 0 < Real.sqrt (ss ys) := Real.sqrt_pos.2 hy
  have hn' : 0 < Real.sqrt ((xs.length : ℝ) - 1) := Real.sqrt_pos.2 hp
  unfold correlation
  rw [cov_val hl h, sd_val h, sd_val (by omega), ← hl]
  simp only [Out.bind]
  rw [Real.sqrt_div hx.le, Real.sqrt_div hy.le, if_neg]
  · congr 1
    have e : Real.sqrt ((xs.length : ℝ) - 1) * Real.sqrt ((xs.length : ℝ) - 1) = xs.length - 1 := Real.mul_self_sqrt hp.le
    have hne : (xs.length : ℝ) - 1 ≠ 0 := ne_of_gt hp
    rw [div_mul_div_comm, e]
    field_simp
  · push Not
    exact ⟨(div_pos hx' hn').ne', (div_pos hy' hn').ne'⟩

theorem corr_cases {xs ys : List ℝ} {r : ℝ} (h : correlation xs ys = .val r) :
    xs.length = ys.length ∧ 2 ≤ xs.length ∧ 0 < ss xs ∧ 0 < ss ys := by
  have hl : xs.length = ys.length := by
    by_contra hc
    unfold correlation covariance at h
    rw [if_pos hc] at h
    simp [Out.bind] at h
  have h2 : 2 ≤ xs.length := by
    by_contra hc
    unfold correlation covariance at h
    rw [if_neg (by simpa using hl), if_pos (by omega)] at h
    simp [Out.bind] at h
  refine ⟨hl, h2, ?_, ?_⟩
  all_goals
    unfold correlation at h
    rw [cov_val hl h2, sd_val h2, sd_val (by omega)] at h
    simp only [Out.bind] at h
    split_ifs at h with hc
    push Not at hc
  · rcases (ss_nonneg xs).lt_or_eq with h0 | h0
    · exact h0
    · exact absurd (by rw [← h0]; simp) hc.1
  · rcases (ss_nonneg ys).lt_or_eq with h0 | h0
    · exact h0
    · exact absurd (by rw [← h0]; simp) hc.2

/-- C41: every correlation is in `[-1, 1]`; it is symmetric; a sample has correlation 1 with itself; an affine change of a
sample only changes its sign with the sign of the slope. -/
theorem C41_correlation (xs ys : List ℝ) (r : ℝ) (h : correlation xs ys = .val r) :
    -1 ≤ r ∧ r ≤ 1 ∧ correlation ys xs = .val r ∧ correlation xs xs = .val 1 ∧
    (∀ a b, 0 < a → correlation (xs.map fun x => a * x + b) ys = .val r) ∧
    (∀ a b, a < 0 → correlation (xs.map fun x => a * x + b) ys = .val (-r)) := by
  obtain ⟨hl, h2, hx, hy⟩ := corr_cases h
  have hx' : 0 < Real.sqrt (ss xs) := Real.sqrt_pos.2 hx
  have hy' : 0 < Real.sqrt (ss ys) := Real.sqrt_pos.2 hy
  rw [corr_val hl h2 hx hy] at h
  simp only [Out.val.injEq] at h
  have hcs : |sp xs ys| ≤ Real.sqrt (ss xs) * Real.sqrt (ss ys) := by
    rw [← Real.sqrt_mul hx.le]
    apply Real.abs_le_sqrt
    exact sp_sq_le hl
  have hpos := mul_pos hx' hy'
  have hne := ne_nil h2
  have hlen : ∀ a b : ℝ, (xs.map fun x => a * x + b).length = ys.length := fun a b => by simpa using hl
  have haff : ∀ a b : ℝ, a ≠ 0 → correlation (xs.map fun x => a * x + b) ys = .val (a / |a| * r) := by
    intro a b ha
    have ha' : 0 < |a| := abs_pos.2 ha
    rw [corr_val (hlen a b) (by simpa using h2) (by rw [ss_affine hne]; positivity) hy, sp_affine hne, ss_affine hne,
      Real.sqrt_mul (sq_nonneg a), Real.sqrt_sq_eq_abs, ← h]
    congr 1
    field_simp
  refine ⟨?_, ?_, ?_, ?_, ?_, ?_⟩
  · rw [← h, le_div_iff₀ hpos]; linarith [(abs_le.1 hcs).1]
  · rw [← h, div_le_iff₀ hpos]; linarith [(abs_le.1 hcs).2]
  · rw [corr_val hl.symm (by omega) hy hx, sp_comm, mul_comm, h]
  · rw [corr_val rfl h2 hx hx, sp_self, Real.mul_self_sqrt hx.le, div_self hx.ne']
  · intro a b ha
    rw [haff a b ha.ne', abs_of_pos ha, div_self ha.ne', one_mul]
  · intro a b ha
    rw [haff a b ha.ne, abs_of_neg ha, div_neg, div_self ha.ne, neg_one_mul]

theorem prod_pos {xs : List ℝ} (h : ∀ x ∈ xs, 0 < x) : 0 < xs.prod := by
  induction xs with
  | nil => simp
  | cons x l ih => rw [List.prod_cons]; exact mul_pos (h x (by simp)) (ih fun y hy => h y (by simp [hy]))

theorem prod_inv (xs : List ℝ) : (xs.map fun x => 1 / x).prod = 1 / xs.prod := by
  induction xs with
  | nil => simp
  | cons x l ih => simp only [List.map_cons, List.prod_cons, ih]; rw [div_mul_div_comm, one_mul]

/-- Arithmetic and geometric means of a list of positive numbers. -/
theorem amgm {xs : List ℝ} (h0 : xs ≠ []) (h : ∀ x ∈ xs, 0 < x) : xs.prod ^ ((1 : ℝ) / xs.length) ≤ xs.sum / xs.length := by
  have hlen : (0 : ℝ) < xs.length := by
    have : 0 < xs.length := List.length_pos_of_ne_nil h0
    exact_mod_cast this
  have := Real.geom_mean_le_arith_mean_weighted (Finset.univ : Finset (Fin xs.length)) (fun _ => (1 : ℝ) / xs.length)
    (fun i => xs[i.1]) (fun _ _ => by positivity) (by simp; field_simp)
    (fun i _ => (h _ (List.getElem_mem _)).le)
  rw [Real.finsetProd_rpow _ _ (fun i _ => (h _ (List.getElem_mem _)).le), ← Finset.mul_sum, Fin.prod_univ_getElem,
    Fin.sum_univ_getElem] at this
  rw [div_eq_mul_one_div xs.sum, mul_comm xs.sum]
  exact this

theorem inv_sum_pos {xs : List ℝ} (h0 : xs ≠ []) (h : ∀ x ∈ xs, 0 < x) : 0 < (xs.map fun x => 1 / x).sum := by
  apply List.sum_pos
  · intro y hy
    obtain ⟨x, hx, rfl⟩ := List.mem_map.1 hy
    have := h x hx
    positivity
  · simpa using h0

/-- C41: for positive data the least entry, the harmonic, geometric and arithmetic means and the greatest entry come in this
order. -/
theorem C41_means (xs : List ℝ) (h0 : xs ≠ []) (h : ∀ x ∈ xs, 0 < x) :
    ∃ lo hm gm am hi, min xs = .val lo ∧ harmonicMean xs = .val hm ∧ geometricMean xs = .val gm ∧
      arithmeticMean xs = .val am ∧ max xs = .val hi ∧ lo ≤ hm ∧ hm ≤ gm ∧ gm ≤ am ∧ am ≤ hi := by
  have hlen : (0 : ℝ) < xs.length := by
    have : 0 < xs.length := List.length_pos_of_ne_nil h0
    exact_mod_cast this
  obtain ⟨m, lo, hi, _, h2, h3, h4, _, h5, _⟩ := C41_mean xs h0
  have hp := prod_pos h
  have hs := inv_sum_pos h0 h
  have hl0 : xs.length ≠ 0 := by simpa using h0
  obtain ⟨_, _, g1, _, _, g2, _⟩ := (C41_min_max xs).2 h0
  rw [g1] at h3; cases h3
  have hlo : 0 < lo := h lo g2.1
  have hm : m = xs.sum / xs.length := by
    unfold arithmeticMean at h2; rw [if_neg hl0] at h2; cases h2; rfl
  refine ⟨lo, xs.length / (xs.map fun x => 1 / x).sum, xs.prod ^ ((1 : ℝ) / xs.length), m, hi, g1, ?_, ?_, h2, h4, ?_, ?_, ?_, h5⟩
  · unfold harmonicMean
    rw [if_neg hl0, if_neg]
    rintro (hc | hc)
    · exact lt_irrefl _ (h 0 hc)
    · exact hs.ne' hc
  · unfold geometricMean
    rw [if_neg hl0, if_neg]
    rintro ⟨hc, _⟩
    linarith
  · rw [le_div_iff₀ hs]
    have := sum_bounds (xs.map fun x => 1 / x) 0 (1 / lo) (by
      intro y hy
      obtain ⟨x, hx, rfl⟩ := List.mem_map.1 hy
      exact ⟨by have := h x hx; positivity, one_div_le_one_div_of_le hlo (g2.2 hx)⟩)
    have h6 := this.2
    rw [List.length_map] at h6
    calc lo * (xs.map fun x => 1 / x).sum ≤ lo * (1 / lo * xs.length) := mul_le_mul_of_nonneg_left h6 hlo.le
      _ = xs.length := by field_simp
  · have h6 := amgm (xs := xs.map fun x => 1 / x) (by simpa using h0) (by
      intro y hy
      obtain ⟨x, hx, rfl⟩ := List.mem_map.1 hy
      have := h x hx; positivity)
    rw [prod_inv, List.length_map, Real.div_rpow (by norm_num) hp.le, Real.one_rpow] at h6
    have hg : 0 < xs.prod ^ ((1 : ℝ) / xs.length) := Real.rpow_pos_of_pos hp _
    rw [div_le_div_iff₀ hg hlen] at h6
    rw [div_le_iff₀ hs]
    linarith
  · rw [hm]; exact amgm h0 h

example := C41_means [3, 1, 2] (by simp) (by simp)

theorem mu_perm {xs ys : List ℝ} (h : xs.Perm ys) : mu xs = mu ys := by
  unfold mu; rw [h.sum_eq, h.length_eq]

theorem ss_perm {xs ys : List ℝ} (h : xs.Perm ys) : ss xs = ss ys := by
  unfold ss; rw [mu_perm h]; exact (h.map _).sum_eq

theorem mean_perm {xs ys : List ℝ} (h : xs.Perm ys) : mean xs = mean ys := by
  unfold mean arithmeticMean; rw [h.sum_eq, h.length_eq]

theorem sd_perm {xs ys : List ℝ} (h : xs.Perm ys) : standardDeviation xs = standardDeviation ys := by
  by_cases h2 : 2 ≤ xs.length
  · rw [sd_val h2, sd_val (h.length_eq ▸ h2), ss_perm h, h.length_eq]
  · unfold standardDeviation
    rw [if_pos (by omega), if_pos (by rw [← h.length_eq]; omega)]

theorem minmax_perm {xs ys : List ℝ} (h : xs.Perm ys) : min xs = min ys ∧ max xs = max ys := by
  by_cases h0 : xs = []
  · subst h0
    rw [List.nil_perm] at h
    subst h; exact ⟨rfl, rfl⟩
  · have h0' : ys ≠ [] := by rintro rfl; exact h0 (List.perm_nil.1 h)
    obtain ⟨a, b, e1, e2, _, l1, g1⟩ := (C41_min_max xs).2 h0
    obtain ⟨a', b', e3, e4, _, l2, g2⟩ := (C41_min_max ys).2 h0'
    have : {x | x ∈ xs} = {x | x ∈ ys} := by ext x; exact h.mem_iff
    rw [this] at l1 g1
    rw [e1, e2, e3, e4, l1.unique l2, g1.unique g2]
    exact ⟨rfl, rfl⟩

/-- C41: no statistic of a single sample depends on the order of the entries. -/
theorem C41_order_independent (xs ys : List ℝ) (h : xs.Perm ys) :
    mean xs = mean ys ∧ arithmeticMean xs = arithmeticMean ys ∧ geometricMean xs = geometricMean ys ∧
    harmonicMean xs = harmonicMean ys ∧ variance xs = variance ys ∧ sampleVariance xs = sampleVariance ys ∧
    populationVariance xs = populationVariance ys ∧ standardDeviation xs = standardDeviation ys ∧
    sampleStandardDeviation xs = sampleStandardDeviation ys ∧
    populationStandardDeviation xs = populationStandardDeviation ys ∧ skewness xs = skewness ys ∧
    kurtosis xs = kurtosis ys ∧ min xs = min ys ∧ max xs = max ys ∧ range xs = range ys := by
  have hl := h.length_eq
  have hmap : ∀ f : ℝ → ℝ, (xs.map f).sum = (ys.map f).sum := fun f => (h.map f).sum_eq
  have hsv : sampleVariance xs = sampleVariance ys := by
    unfold sampleVariance; rw [hl, mean_perm h]; simp only [hmap]
  have hv : variance xs = variance ys := by unfold variance; rw [hl, hsv]
  have hpv : populationVariance xs = populationVariance ys := by
    unfold populationVariance; rw [hl, mean_perm h]; simp only [hmap]
  have hssd : sampleStandardDeviation xs = sampleStandardDeviation ys := by
    unfold sampleStandardDeviation; rw [hl, hv]
  obtain ⟨h1, h2⟩ := minmax_perm h
  refine ⟨mean_perm h, ?_, ?_, ?_, hv, hsv, hpv, sd_perm h, hssd, ?_, ?_, ?_, h1, h2, ?_⟩
  · unfold arithmeticMean; rw [hl, h.sum_eq]
  · unfold geometricMean; rw [hl, h.prod_eq]
  · unfold harmonicMean; simp only [hl, hmap, h.mem_iff]
  · unfold populationStandardDeviation; rw [hl, hpv]
  · unfold skewness; rw [hl, mean_perm h, sd_perm h]; simp only [hmap]
  · unfold kurtosis; rw [hl, mean_perm h, sd_perm h]; simp only [hmap]
  · unfold range; rw [hl, h1, h2]

example := C41_order_independent [3, 1, 2] [1, 3, 2] (.swap _ _ _)

/-- The central moment of order `k` of the sample: the mean of the `k`-th powers of the deviations from the mean. -/
noncomputable def centralMoment (k : ℕ) (xs : List ℝ) : ℝ :=
  (xs.map fun x => (x - xs.sum / xs.length) ^ k).sum / xs.length

/-- C41: the skewness of at least three and the kurtosis of at least four values, not all equal, are the adjusted
Fisher-Pearson coefficients of skewness and of excess kurtosis. -/
theorem C41_moments (xs : List ℝ) (hv : 0 < centralMoment 2 xs) :
    (3 ≤ xs.length → skewness xs = .val (√(xs.length * (xs.length - 1)) / (xs.length - 2) *
      (centralMoment 3 xs / √(centralMoment 2 xs) ^ 3))) ∧
    (4 ≤ xs.length → kurtosis xs = .val ((xs.length - 1) / ((xs.length - 2) * (xs.length - 3)) *
      ((xs.length + 1) * (centralMoment 4 xs / centralMoment 2 xs ^ 2 - 3) + 6))) := by
  have hlen : ∀ k : ℕ, 2 ≤ xs.length → (xs.map fun x => (x - mu xs) ^ k).sum = centralMoment k xs * xs.length := by
    intro k h
    have : (xs.length : ℝ) ≠ 0 := by
      have : xs.length ≠ 0 := by omega
      exact_mod_cast this
    unfold centralMoment mu
    rw [div_mul_cancel₀ _ this]
  have hss : 2 ≤ xs.length → ss xs = centralMoment 2 xs * xs.length := hlen 2
  have hpow : ∀ (k : ℕ) (sd : ℝ), (xs.map fun x => ((x - mu xs) / sd) ^ k).sum =
      (xs.map fun x => (x - mu xs) ^ k).sum / sd ^ k := by
    intro k sd
    rw [div_eq_inv_mul, ← sum_map_mul]
    congr 1
    refine List.map_congr_left fun x _ => ?_
    rw [div_pow, div_eq_inv_mul]
  constructor
  · intro h
    have hn : (3 : ℝ) ≤ xs.length := by exact_mod_cast h
    unfold skewness
    rw [if_neg (by omega), mean_val (ne_nil (by omega)), sd_val (by omega)]
    simp only [Out.bind]
    rw [hss (by omega)]
    generalize hN : (xs.length : ℝ) = n at *
    have h1 : 0 < n - 1 := by linarith
    have h2 : 0 < n - 2 := by linarith
    have h0 : 0 < n := by linarith
    have hs : 0 < √(centralMoment 2 xs * n / (n - 1)) := by positivity
    rw [if_neg hs.ne', hpow, hlen 3 (by omega)]
    congr 1
    have hsd : √(centralMoment 2 xs * n / (n - 1)) = √(centralMoment 2 xs) * √(n * (n - 1)) / (n - 1) := by
      rw [← Real.sqrt_mul hv.le, eq_div_iff h1.ne', ← Real.sqrt_sq h1.le, ← Real.sqrt_mul (by positivity),
        Real.sqrt_sq h1.le]
      congr 1
      field_simp
    have hq : √(n * (n - 1)) ^ 2 = n * (n - 1) := Real.sq_sqrt (by positivity)
    have hq0 : 0 < √(n * (n - 1)) := by positivity
    have hm0 : 0 < √(centralMoment 2 xs) := by positivity
    rw [hsd]
    generalize √(n * (n - 1)) = q at *
    generalize √(centralMoment 2 xs) = m at *
    have hq4 : q ^ 4 = n ^ 2 * (n - 1) ^ 2 := by
      rw [show q ^ 4 = (q ^ 2) ^ 2 by ring, hq]; ring
    field_simp
    linear_combination (-centralMoment 3 xs) * hq4
  · intro h
    have hn : (4 : ℝ) ≤ xs.length := by exact_mod_cast h
    unfold kurtosis
    rw [if_neg (by omega), mean_val (ne_nil (by omega)), sd_val (by omega)]
    simp only [Out.bind]
    rw [hss (by omega)]
    generalize hN : (xs.length : ℝ) = n at *
    have h1 : 0 < n - 1 := by linarith
    have h2 : 0 < n - 2 := by linarith
    have h3 : 0 < n - 3 := by linarith
    have h0 : 0 < n := by linarith
    have hs : 0 < √(centralMoment 2 xs * n / (n - 1)) := by positivity
    have hq : √(centralMoment 2 xs * n / (n - 1)) ^ 4 = (centralMoment 2 xs * n / (n - 1)) ^ 2 := by
      rw [show ∀ x : ℝ, x ^ 4 = (x ^ 2) ^ 2 by intro x; ring, Real.sq_sqrt (by positivity)]
    rw [if_neg hs.ne', hpow, hlen 4 (by omega), hq]
    congr 1
    field_simp
    ring

example : 0 < centralMoment 2 [1, 2, 3, 5] := by norm_num [centralMoment]

/-- C41: skewness and kurtosis are free of location and scale: a positive slope changes neither, a negative one flips the sign
of the skewness. -/
theorem C41_shape (xs : List ℝ) (a b : ℝ) (ha : a ≠ 0) :
    (∀ s, skewness xs = .val s → skewness (xs.map fun x => a * x + b) = .val (a / |a| * s)) ∧
    (∀ k, kurtosis xs = .val k → kurtosis (xs.map fun x => a * x + b) = .val k) := by
  have ha' : |a| ≠ 0 := abs_ne_zero.2 ha
  constructor
  · intro s hs
    unfold skewness at hs ⊢
    rw [List.length_map]
    split_ifs at hs with h
    · rw [if_neg h]
      have h2 : 2 ≤ xs.length := by omega
      have hl : 2 ≤ (xs.map fun x => a * x + b).length := by simpa using h2
      rw [mean_val (ne_nil h2), sd_val h2] at hs
      rw [mean_val (ne_nil hl), sd_val hl, mu_affine (ne_nil h2), ss_affine (ne_nil h2), List.length_map, mul_div_assoc,
        Real.sqrt_mul (sq_nonneg a), Real.sqrt_sq_eq_abs]
      simp only [Out.bind] at hs ⊢
      split_ifs at hs with h0
      rw [if_neg (mul_ne_zero ha' h0)]
      simp only [Out.val.injEq] at hs ⊢
      rw [← hs, ← mul_div_assoc, ← mul_assoc, ← sum_map_mul, List.map_map]
      congr 3
      refine List.map_congr_left fun x _ => ?_
      simp only [Function.comp]
      have e3 : |a| ^ 3 = |a| * a ^ 2 := by rw [pow_succ, sq_abs]; ring
      rw [div_pow, mul_pow, e3, div_pow]
      field_simp
      ring
  · intro k hk
    unfold kurtosis at hk ⊢
    rw [List.length_map]
    split_ifs at hk with h
    · rw [if_neg h]
      have h2 : 2 ≤ xs.length := by omega
      have hl : 2 ≤ (xs.map fun x => a * x + b).length := by simpa using h2
      rw [mean_val (ne_nil h2), sd_val h2] at hk
      rw [mean_val (ne_nil hl), sd_val hl, mu_affine (ne_nil h2), ss_affine (ne_nil h2), List.length_map, mul_div_assoc,
        Real.sqrt_mul (sq_nonneg a), Real.sqrt_sq_eq_abs]
      simp only [Out.bind] at hk ⊢
      split_ifs at hk with h0
      rw [if_neg (mul_ne_zero ha' h0)]
      rw [← hk, List.map_map]
      congr 6
      refine List.map_congr_left fun x _ => ?_
      simp only [Function.comp]
      have e4 : |a| ^ 4 = a ^ 4 := by rw [show (4 : ℕ) = 2 * 2 from rfl, pow_mul, sq_abs, ← pow_mul]
      rw [div_pow, mul_pow, e4, div_pow]
      field_simp
      try ring

/-- A sample with all its statistics defined. -/
example : mean [1, 2, 4, 5] = .val 3 ∧ variance [1, 2, 4, 5] = .val (10 / 3) ∧
    covariance [1, 2, 4, 5] [2, 1, 5, 4] = .val (8 / 3) := by
  refine ⟨?_, ?_, ?_⟩
  · rw [mean_val (by simp)]; unfold mu; norm_num
  · rw [variance_val (by simp)]; unfold ss mu; norm_num
  · rw [cov_val (by simp) (by simp)]; unfold sp mu; norm_num

example := C41_affine [1, 2, 4, 5] (by simp) 2 3 _ _ _ (mean_val (by simp)) (variance_val (by simp)) (sd_val (by simp))

example := C41_correlation [1, 2, 4, 5] [2, 1, 5, 4] _
  (corr_val (by simp) (by simp) (by norm_num [ss, mu]) (by norm_num [ss, mu]))

end Verif.Math.Statistic
