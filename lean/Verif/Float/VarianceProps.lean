import Verif.Float.FormulaProps

/-!
# C86, C87: the accuracy of variances, medians and quantiles in `f64`
-/

namespace Verif.Float

/-! ## Variances -/

/-- The square of a rounded difference, rounded. -/
theorem square_error (a b : ℚ) (ha : Rep a) (hb : Rep b) :
    |rnd (rnd (a - b) * rnd (a - b)) - (a - b) ^ 2| ≤ ((1 + u) ^ 3 - 1) * (a - b) ^ 2 + 2 ^ (-1075 : ℤ) := by
  have e1 := rnd_sub ha hb
  have he := rnd_error' (rnd (a - b) * rnd (a - b))
  have hη0 : (0 : ℚ) < 2 ^ (-1075 : ℤ) := zpos (-1075)
  generalize (2 : ℚ) ^ (-1075 : ℤ) = η at he hη0 ⊢
  set x := a - b with hx
  set d := rnd x with hd
  have hu0 := u_pos
  obtain ⟨f, hf⟩ : ∃ f, d = x + f := ⟨d - x, by ring⟩
  have hfx : |f| ≤ u * |x| := by rw [hf] at e1; rwa [show x - (x + f) = -f by ring, abs_neg] at e1
  have hd2 : |d * d - x ^ 2| ≤ (2 * u + u ^ 2) * x ^ 2 := by
    rw [hf, show (x + f) * (x + f) - x ^ 2 = 2 * x * f + f ^ 2 by ring]
    have h1 : |2 * x * f| ≤ 2 * u * x ^ 2 := by
      rw [abs_mul, abs_mul, abs_of_pos (by norm_num : (0 : ℚ) < 2), ← sq_abs x]
      have := mul_le_mul_of_nonneg_left hfx (abs_nonneg x)
      nlinarith
    have h2 : |f ^ 2| ≤ u ^ 2 * x ^ 2 := by
      rw [abs_of_nonneg (sq_nonneg f), ← sq_abs f, ← sq_abs x, ← mul_pow]
      exact pow_le_pow_left₀ (abs_nonneg f) hfx 2
    exact (abs_add_le _ _).trans (by linarith)
  have hdd : |d * d| ≤ (1 + u) ^ 2 * x ^ 2 := by
    have h3 : d * d = x ^ 2 + (d * d - x ^ 2) := by ring
    rw [h3]
    refine (abs_add_le _ _).trans ?_
    rw [abs_of_nonneg (sq_nonneg x)]
    linarith
  have h4 : u * |d * d| ≤ u * ((1 + u) ^ 2 * x ^ 2) := mul_le_mul_of_nonneg_left hdd hu0.le
  have h5 : rnd (d * d) - x ^ 2 = (d * d - x ^ 2) - (d * d - rnd (d * d)) := by ring
  rw [h5]
  refine (abs_sub _ _).trans ?_
  linarith

theorem squares_error (xs ys : List F64) (m : F64) (h : List.Forall₂ (fun x y => (do let d ← x.sub m; d.mul d) = some y) xs ys) :
    |exactSum ys - (xs.map fun x => (x.val - m.val) ^ 2).sum| ≤
      ((1 + u) ^ 3 - 1) * (xs.map fun x => (x.val - m.val) ^ 2).sum + xs.length * 2 ^ (-1075 : ℤ) ∧ absSum ys = exactSum ys := by
  induction h with
  | nil => simp [exactSum, absSum]
  | @cons x y xs ys hxy _ ih =>
    obtain ⟨d, h1, h2⟩ := Option.bind_eq_some_iff.1 hxy
    have hyv := mul_some h2
    rw [show d.val = rnd (x.val - m.val) from toF64_some h1] at hyv
    have hy0 : 0 ≤ y.val := by rw [hyv]; exact rnd_nonneg (mul_self_nonneg _)
    have h3 := square_error x.val m.val x.rep m.rep
    rw [← hyv] at h3
    rw [exactSum_cons, absSum_cons, abs_of_nonneg hy0, ih.2, List.map_cons, List.sum_cons, List.length_cons]
    refine ⟨?_, rfl⟩
    have h4 := ih.1
    generalize (2 : ℚ) ^ (-1075 : ℤ) = η at h3 h4 ⊢
    generalize (xs.map fun x => (x.val - m.val) ^ 2).sum = Z at h4 ⊢
    generalize (x.val - m.val) ^ 2 = z at h3 ⊢
    rw [show y.val + exactSum ys - (z + Z) = (y.val - z) + (exactSum ys - Z) by ring]
    refine (abs_add_le _ _).trans ?_
    push_cast
    linarith

theorem sq_sum_nonneg (xs : List F64) (c : ℚ) : 0 ≤ (xs.map fun x => (x.val - c) ^ 2).sum := by
  apply List.sum_nonneg
  intro y hy
  obtain ⟨x, _, rfl⟩ := List.mem_map.1 hy
  exact sq_nonneg _

/-- Around any centre, the sum of squares is that around the mean plus the squared distance of the centres for each entry. -/
theorem sq_sum_shift (xs : List F64) (hne : xs ≠ []) (c : ℚ) :
    (xs.map fun x => (x.val - c) ^ 2).sum =
      (xs.map fun x => (x.val - (xs.map F64.val).sum / xs.length) ^ 2).sum +
        xs.length * (c - (xs.map F64.val).sum / xs.length) ^ 2 := by
  have gen : ∀ (ys : List F64) (μ : ℚ), (ys.map fun x => (x.val - c) ^ 2).sum =
      (ys.map fun x => (x.val - μ) ^ 2).sum - 2 * (c - μ) * ((ys.map F64.val).sum - ys.length * μ) +
        ys.length * (c - μ) ^ 2 := by
    intro ys μ
    induction ys with
    | nil => simp
    | cons y ys ih => simp only [List.map_cons, List.sum_cons, List.length_cons, ih]; push_cast; ring
  have hl : (xs.length : ℚ) ≠ 0 := by
    have := List.length_pos_iff.2 hne
    exact_mod_cast this.ne'
  rw [gen xs ((xs.map F64.val).sum / xs.length), mul_div_cancel₀ _ hl]
  ring

/-- The error of the sum of squares divided by `k`. -/
theorem variance_error (xs : List F64) (hne : xs ≠ []) (hn : xs.length ≤ 2 ^ 52 - 4) (m v : F64) (k : ℕ) (hk : k ≤ 2 ^ 53)
    (h : (do (← squares xs m).div (← ofNat k)) = some v) :
    0 < k ∧ |v.val - (xs.map fun x => (x.val - m.val) ^ 2).sum / k| ≤
      (xs.length + 4) * 2 ^ (-52 : ℤ) * ((xs.map fun x => (x.val - m.val) ^ 2).sum / k) +
        (2 * xs.length / k + 1) * 2 ^ (-1075 : ℤ) := by
  obtain ⟨s, h1, h2⟩ := Option.bind_eq_some_iff.1 h
  obtain ⟨r, hr, hrv⟩ := ofNat_small k hk
  rw [hr] at h2
  obtain ⟨hr0, hv⟩ := div_some (show s.div r = some v from h2)
  rw [hrv] at hr0 hv
  have hk0 : 0 < k := Nat.pos_of_ne_zero fun h0 => hr0 (by rw [h0]; rfl)
  refine ⟨hk0, ?_⟩
  obtain ⟨ys, h3, h4⟩ := Option.bind_eq_some_iff.1 h1
  have hF := mapM_some _ _ _ h3
  obtain ⟨e1, e2⟩ := squares_error xs ys m hF
  have hlen : ys.length = xs.length := hF.length_eq.symm
  have e3 := sum_from ys F64.zero s h4
  rw [show F64.zero.val = 0 from rfl, abs_zero, zero_add, zero_add, e2, hlen] at e3
  have hys0 : 0 ≤ exactSum ys := by rw [← e2]; exact absSum_nonneg ys
  have hZ0 := sq_sum_nonneg xs m.val
  have he := rnd_error' (s.val / k)
  rw [← hv] at he
  have hη0 : (0 : ℚ) < 2 ^ (-1075 : ℤ) := zpos (-1075)
  have hn1 : 0 < xs.length := List.length_pos_iff.2 hne
  generalize (2 : ℚ) ^ (-1075 : ℤ) = η at he hη0 e1 ⊢
  generalize (xs.map fun x => (x.val - m.val) ^ 2).sum = Z at e1 hZ0 ⊢
  have hkq : (0 : ℚ) < k := by exact_mod_cast hk0
  have hu0 := u_pos
  set n := xs.length with hnn
  have hP1 : 1 ≤ (1 + u) ^ n := one_le_pow₀ (by linarith)
  have hs : |s.val - Z| ≤ ((1 + u) ^ (n + 3) - 1) * Z + (1 + u) ^ n * (n * η) := by
    have h5 : s.val - Z = (s.val - exactSum ys) + (exactSum ys - Z) := by ring
    rw [h5]
    refine (abs_add_le _ _).trans ?_
    have h6 : exactSum ys ≤ (1 + u) ^ 3 * Z + n * η := by
      have := (abs_le.1 e1).2
      linarith
    have h7 := mul_le_mul_of_nonneg_left h6 (show 0 ≤ (1 + u) ^ n - 1 by linarith)
    rw [pow_add]
    linarith
  have hnη : 0 ≤ (n : ℚ) * η := by positivity
  have hs0 : |s.val / k| ≤ (1 + u) ^ (n + 3) * Z / k + (1 + u) ^ n * (n * η) / k := by
    rw [← add_div, abs_div, abs_of_pos hkq]
    refine div_le_div_of_nonneg_right ?_ hkq.le
    have h5 : s.val = Z + (s.val - Z) := by ring
    rw [h5]
    refine (abs_add_le _ _).trans ?_
    rw [abs_of_nonneg hZ0]
    linarith
  have h8 : |v.val - Z / k| ≤ ((1 + u) ^ (n + 4) - 1) * (Z / k) + (1 + u) ^ (n + 1) * (n * η) / k + η := by
    have h5 : v.val - Z / k = (s.val - Z) / k - (s.val / k - v.val) := by ring
    rw [h5]
    refine (abs_sub _ _).trans ?_
    rw [abs_div, abs_of_pos hkq]
    have h6 := div_le_div_of_nonneg_right hs hkq.le
    have h7 := mul_le_mul_of_nonneg_left hs0 hu0.le
    have h9 : (((1 + u) ^ (n + 3) - 1) * Z + (1 + u) ^ n * (n * η)) / k + (u * ((1 + u) ^ (n + 3) * Z / k + (1 + u) ^ n * (n * η) / k) + η) =
        ((1 + u) ^ (n + 4) - 1) * (Z / k) + (1 + u) ^ (n + 1) * (n * η) / k + η := by
      rw [pow_succ (1 + u) (n + 3), pow_succ (1 + u) n]; ring
    rw [← h9]
    linarith
  have hp4 := pow_bound (n + 4) (by omega)
  have hp1 : (1 + u) ^ (n + 1) ≤ 2 := by
    refine (pow_bound (n + 1) (by omega)).trans ?_
    have h6 : ((n + 1 : ℕ) : ℚ) ≤ 2 ^ 52 := by exact_mod_cast (by omega : n + 1 ≤ 2 ^ 52)
    have h7 : ((n + 1 : ℕ) : ℚ) * 2 ^ (-52 : ℤ) ≤ 2 ^ 52 * 2 ^ (-52 : ℤ) := mul_le_mul_of_nonneg_right h6 (zpos (-52)).le
    have h9 : (2 : ℚ) ^ 52 * 2 ^ (-52 : ℤ) = 1 := by norm_num
    linarith
  refine h8.trans ?_
  have hZk : 0 ≤ Z / k := by positivity
  have h10 : ((1 + u) ^ (n + 4) - 1) * (Z / k) ≤ (n + 4) * 2 ^ (-52 : ℤ) * (Z / k) := by
    refine mul_le_mul_of_nonneg_right ?_ hZk
    push_cast at hp4
    linarith
  have h11 : (1 + u) ^ (n + 1) * (n * η) / k ≤ 2 * n / k * η := by
    rw [show 2 * (n : ℚ) / k * η = 2 * (n * η) / k by ring]
    exact div_le_div_of_nonneg_right (mul_le_mul_of_nonneg_right hp1 hnη) hkq.le
  linarith

theorem meanVal_of (xs : List F64) (m : F64) (h : mean xs = .ok m) : xs ≠ [] ∧ meanVal xs = some m := by
  unfold mean at h
  split_ifs at h with hne
  exact ⟨hne, of_ok h⟩

/-- C86: the accuracy of the variances. With `m` the rounded mean and `μ` the exact one, the exact sum of squared deviations plus
`n (m - μ)²`, divided by `n - 1` for the variance and by `n` for the population variance, is what they return up to the relative
error `(n + 4) 2^-52` and an underflow term. -/
theorem C86_variance_error (xs : List F64) (hn : xs.length ≤ 2 ^ 52 - 4) (m v : F64) (hm : mean xs = .ok m) (μ Z : ℚ)
    (hμ : μ = (xs.map F64.val).sum / xs.length)
    (hZ : Z = (xs.map fun x => (x.val - μ) ^ 2).sum + xs.length * (m.val - μ) ^ 2) :
    (variance xs = .ok v → 2 ≤ xs.length ∧
      |v.val - Z / (xs.length - 1)| ≤ (xs.length + 4) * 2 ^ (-52 : ℤ) * (Z / (xs.length - 1)) + 2 ^ (-1072 : ℤ)) ∧
    (populationVariance xs = .ok v →
      |v.val - Z / xs.length| ≤ (xs.length + 4) * 2 ^ (-52 : ℤ) * (Z / xs.length) + 2 ^ (-1072 : ℤ)) := by
  obtain ⟨hne, hmv⟩ := meanVal_of xs m hm
  have hl : 0 < xs.length := List.length_pos_iff.2 hne
  have hZ' : (xs.map fun x => (x.val - m.val) ^ 2).sum = Z := by rw [hZ, hμ, sq_sum_shift xs hne]
  have hη0 : (0 : ℚ) < 2 ^ (-1075 : ℤ) := zpos (-1075)
  have hη8 : (2 : ℚ) ^ (-1072 : ℤ) = 8 * 2 ^ (-1075 : ℤ) := by
    rw [show (-1072 : ℤ) = 3 + -1075 by norm_num, zpow_add₀ (by norm_num)]; norm_num
  have key : ∀ k : ℕ, k ≤ 2 ^ 53 → xs.length ≤ 2 * k →
      (do (← squares xs (← meanVal xs)).div (← ofNat k)) = some v →
      0 < k ∧ |v.val - Z / k| ≤ (xs.length + 4) * 2 ^ (-52 : ℤ) * (Z / k) + 2 ^ (-1072 : ℤ) := by
    intro k hk h2k h
    rw [hmv] at h
    obtain ⟨h1, h2⟩ := variance_error xs hne hn m v k hk h
    rw [hZ'] at h2
    refine ⟨h1, ?_⟩
    have hkq : (0 : ℚ) < k := by exact_mod_cast h1
    have h3 : 2 * (xs.length : ℚ) / k ≤ 4 := by
      rw [div_le_iff₀ hkq]
      have : (xs.length : ℚ) ≤ 2 * k := by exact_mod_cast h2k
      linarith
    rw [hη8]
    clear hη8
    generalize (2 : ℚ) ^ (-1075 : ℤ) = η at h2 hη0 ⊢
    have h4 : (2 * (xs.length : ℚ) / k + 1) * η ≤ 8 * η := mul_le_mul_of_nonneg_right (by linarith) hη0.le
    linarith
  constructor
  · intro h
    unfold variance at h
    rw [if_neg hne] at h
    have h' := of_ok h
    have h2 : 2 ≤ xs.length := by
      by_contra hc
      obtain ⟨s, h1, h2⟩ := Option.bind_eq_some_iff.1 (show (squares xs m).bind (fun s => (ofNat (xs.length - 1)).bind (fun r => s.div r)) = some v by
        rw [hmv] at h'; exact h')
      obtain ⟨r, hr, hrv⟩ := ofNat_small (xs.length - 1) (by omega)
      rw [hr] at h2
      have := (div_some (show s.div r = some v from h2)).1
      rw [hrv, show xs.length - 1 = 0 by omega] at this
      exact this rfl
    refine ⟨h2, ?_⟩
    have := (key (xs.length - 1) (by omega) (by omega) h').2
    rwa [Nat.cast_sub (by omega), Nat.cast_one] at this
  · intro h
    unfold populationVariance at h
    rw [if_neg hne] at h
    exact (key xs.length (by omega) (by omega) (of_ok h)).2

/-- The variance of 1, 2, 4, whose mean 7/3 is not a double. -/
example : ∃ m v, mean [lit 1, lit 2, lit 4] = .ok m ∧ variance [lit 1, lit 2, lit 4] = .ok v ∧ v.val ≠ 7 / 3 ∧
    ∀ μ Z, μ = 7 / 3 → Z = (1 - μ) ^ 2 + (2 - μ) ^ 2 + (4 - μ) ^ 2 + 3 * (m.val - μ) ^ 2 →
      |v.val - Z / 2| ≤ 7 * 2 ^ (-52 : ℤ) * (Z / 2) + 2 ^ (-1072 : ℤ) := by
  have h1 : mean [lit 1, lit 2, lit 4] = .ok (lit (7 / 3)) := by decide +kernel
  have h2 : variance [lit 1, lit 2, lit 4] = .ok (lit (2627099782632789 / 2 ^ 50)) := by decide +kernel
  refine ⟨_, _, h1, h2, by decide +kernel, fun μ Z hμ hZ => ?_⟩
  have e1 : (lit 1).val = 1 := by decide +kernel
  have e2 : (lit 2).val = 2 := by decide +kernel
  have e4 : (lit 4).val = 4 := by decide +kernel
  have := ((C86_variance_error _ (by norm_num) _ _ h1 μ Z (by rw [hμ]; simp [e1, e2, e4]; norm_num)
    (by rw [hZ]; simp [e1, e2, e4]; ring)).1 h2).2
  have h3 : (([lit 1, lit 2, lit 4].length : ℕ) : ℚ) = 3 := by norm_num
  rw [h3] at this
  norm_num at this ⊢
  exact this

/-! ## Medians and quantiles -/

/-- C87: the accuracy of the median: the middle value for an odd number of data; for an even number, half the sum of the two
middle values up to the relative error `2^-53` and an underflow term. -/
theorem C87_median_error (xs : List F64) (r : F64) (h : median xs = .ok r) :
    (xs.length % 2 = 1 → (sorted xs)[xs.length / 2]? = some r) ∧
    (xs.length % 2 = 0 → ∃ a b, (sorted xs)[xs.length / 2 - 1]? = some a ∧ (sorted xs)[xs.length / 2]? = some b ∧
      |r.val - (a.val + b.val) / 2| ≤ u * |(a.val + b.val) / 2| + 2 ^ (-1075 : ℤ)) := by
  obtain ⟨two, h2, h2v⟩ := ofNat_small 2 (by norm_num)
  have hls := sorted_length xs
  unfold median at h
  by_cases hne : xs = []
  · rw [if_pos hne] at h; cases h
  rw [if_neg hne] at h
  simp only [hls] at h
  by_cases hev : xs.length % 2 = 0
  · rw [if_pos hev] at h
    have hl : 0 < xs.length := List.length_pos_iff.2 hne
    refine ⟨fun ho => by omega, fun _ => ?_⟩
    obtain ⟨a, ha⟩ : ∃ a, (sorted xs)[xs.length / 2 - 1]? = some a := ⟨_, List.getElem?_eq_getElem (by omega)⟩
    obtain ⟨b, hb⟩ : ∃ b, (sorted xs)[xs.length / 2]? = some b := ⟨_, List.getElem?_eq_getElem (by omega)⟩
    simp only [ha, hb, h2] at h
    refine ⟨a, b, ha, hb, ?_⟩
    obtain ⟨s, h4, h5⟩ := Option.bind_eq_some_iff.1 (of_ok h)
    have h6 := (div_some h5).2
    have hs := add_some h4
    rw [h2v] at h6
    push_cast at h6
    have e1 := rnd_add a.rep b.rep
    rw [← hs] at e1
    -- halving a value is exact or loses at most half of the least positive number
    have e2 : |s.val / 2 - r.val| ≤ 2 ^ (-1075 : ℤ) := by
      by_cases hs0 : s.val = 0
      · rw [h6, hs0, zero_div, rnd_zero, sub_zero, abs_zero]; exact (zpos (-1075)).le
      obtain ⟨k, hk⟩ := rep_multiple s.rep hs0
      rcases eq_or_lt_of_le (ulpExp_ge s.val) with hE | hE
      · -- the grid of halves of the least number
        have hz := rnd_half_ulp (s.val / 2)
        have hle : ulpExp (s.val / 2) ≤ ulpExp s.val := by
          rw [← abs_of_pos (show (0 : ℚ) < 2 by norm_num)] at *
          unfold ulpExp
          have hp : 0 < |s.val| := abs_pos.2 hs0
          have := ulpExp_mono (x := |s.val| / 2) (y := |s.val|) (by positivity) (by linarith)
          unfold ulpExp at this
          rw [abs_abs, abs_div, abs_abs] at this
          rw [abs_div]
          simpa using this
        have hE2 : ulpExp (s.val / 2) = -1074 := le_antisymm (by omega) (ulpExp_ge _)
        rw [hE2, ← h6] at hz
        refine hz.trans (le_of_eq ?_)
        rw [show (-1074 : ℤ) = 1 + -1075 by norm_num, zpow_add₀ (by norm_num), zpow_one]
        ring
      · have hr : Rep (s.val / 2) := by
          have e : s.val / 2 = (k : ℚ) * 2 ^ (ulpExp s.val - 1) := by
            rw [zpow_sub₀ (by norm_num), zpow_one]
            nth_rewrite 1 [hk]
            ring
          rw [e]
          apply rep_of_le _ _ _ (by omega)
          have hlt := abs_lt_ulp s.val hs0
          rw [zpow_add₀ (by norm_num), mul_comm] at hlt
          nth_rewrite 1 [hk] at hlt
          rw [abs_mul, abs_of_pos (zpos (ulpExp s.val))] at hlt
          exact (int_abs_lt (zpos (ulpExp s.val)) hlt).le
        rw [h6, rnd_rep hr, sub_self, abs_zero]
        exact (zpos (-1075)).le
    generalize (2 : ℚ) ^ (-1075 : ℤ) = η at e2 ⊢
    have h7 : r.val - (a.val + b.val) / 2 = -((a.val + b.val - s.val) / 2 + (s.val / 2 - r.val)) := by ring
    rw [h7, abs_neg]
    refine (abs_add_le _ _).trans ?_
    rw [abs_div, abs_div, abs_of_pos (show (0 : ℚ) < 2 by norm_num)]
    linarith
  · rw [if_neg hev] at h
    refine ⟨fun _ => ?_, fun he => absurd he hev⟩
    cases hb : (sorted xs)[xs.length / 2]? with
    | none => rw [hb] at h; cases h
    | some b => rw [hb] at h; cases h; rfl

example : ∃ a b, |(lit (3 / 2)).val - ((a : F64).val + (b : F64).val) / 2| ≤ u * |(a.val + b.val) / 2| + 2 ^ (-1075 : ℤ) := by
  obtain ⟨a, b, _, _, h⟩ := (C87_median_error [lit 2, lit 1] (lit (3 / 2)) (by decide +kernel)).2 rfl
  exact ⟨a, b, h⟩

/-- C87: the accuracy of a quantile. It is the exact linear interpolation of the order statistics at an index within the relative
error `2^-53` of `q (n - 1)`, up to `2^-50` of the larger neighbour in size and an underflow term. -/
theorem C87_quantile_error (xs : List F64) (hn : xs.length ≤ 2 ^ 53) (q r : F64) (h : quantile xs q = .ok r) :
    ∃ (x : ℚ) (lo up : F64), |x - q.val * (xs.length - 1 : ℕ)| ≤ u * (q.val * (xs.length - 1 : ℕ)) + 2 ^ (-1075 : ℤ) ∧
      (sorted xs)[⌊x⌋₊]? = some lo ∧ (sorted xs)[⌈x⌉₊]? = some up ∧
      |r.val - (lo.val + (up.val - lo.val) * (x - ⌊x⌋))| ≤ 2 ^ (-50 : ℤ) * max |lo.val| |up.val| + 2 ^ (-1074 : ℤ) := by
  have hp := C87_quantile_panics xs hn q
  rw [h] at hp
  have hv : ¬ (xs = [] ∨ q.val < 0 ∨ 1 < q.val) := fun hc => by simpa using hp.2 hc
  rw [not_or, not_or, not_lt, not_lt] at hv
  obtain ⟨hne, h0, h1⟩ := hv
  obtain ⟨x, lo, up, t, hx, hx0, hxN, hlo, hup, hle, ht, ht0, ht1, h2⟩ := quantile_spec xs hne hn q h0 h1
  rw [h2] at h
  have hr := lerp_some (of_ok h)
  have hN0 : (0 : ℚ) ≤ (xs.length - 1 : ℕ) := Nat.cast_nonneg _
  refine ⟨x, lo, up, ?_, hlo, hup, ?_⟩
  · have := rnd_error' (q.val * (xs.length - 1 : ℕ))
    rw [← hx, abs_of_nonneg (mul_nonneg h0 hN0), abs_sub_comm] at this
    exact this
  rw [← ht]
  have e1 := rnd_sub up.rep lo.rep
  have he := rnd_error' (rnd (up.val - lo.val) * t.val)
  have e3 := rnd_add lo.rep (rep_rnd (rnd (up.val - lo.val) * t.val))
  rw [← hr] at e3
  have hη0 : (0 : ℚ) < 2 ^ (-1075 : ℤ) := zpos (-1075)
  have hη2 : (2 : ℚ) ^ (-1074 : ℤ) = 2 * 2 ^ (-1075 : ℤ) := by
    rw [show (-1074 : ℤ) = 1 + -1075 by norm_num, zpow_add₀ (by norm_num), zpow_one]
  rw [hη2, show (2 : ℚ) ^ (-50 : ℤ) = 8 * u by unfold u; norm_num]
  clear hη2
  generalize (2 : ℚ) ^ (-1075 : ℤ) = η at he hη0 ⊢
  have hu0 := u_pos
  have hu : u ≤ 1 / 100 := by unfold u; norm_num
  set M := max |lo.val| |up.val| with hM
  have m1 : |lo.val| ≤ M := le_max_left _ _
  have m2 : |up.val| ≤ M := le_max_right _ _
  have hM0 : 0 ≤ M := (abs_nonneg _).trans m1
  have huM : 0 ≤ u * M := by positivity
  have huuM : u * (u * M) ≤ 1 / 100 * (u * M) := mul_le_mul_of_nonneg_right hu huM
  have hL : |up.val - lo.val| ≤ 2 * M := (abs_sub _ _).trans (by linarith)
  generalize rnd (up.val - lo.val) = D at *
  have e1' : |D - (up.val - lo.val)| ≤ 2 * (u * M) := by
    rw [abs_sub_comm]
    refine e1.trans ?_
    have := mul_le_mul_of_nonneg_left hL hu0.le
    linarith
  have hDt : |D * t.val - (up.val - lo.val) * t.val| ≤ 2 * (u * M) := by
    rw [← sub_mul, abs_mul, abs_of_nonneg ht0]
    have := mul_le_mul_of_nonneg_left ht1.le (abs_nonneg (D - (up.val - lo.val)))
    linarith
  have hLt : |(up.val - lo.val) * t.val| ≤ 2 * M := by
    rw [abs_mul, abs_of_nonneg ht0]
    have := mul_le_mul_of_nonneg_left ht1.le (abs_nonneg (up.val - lo.val))
    linarith
  have hDt' : |D * t.val| ≤ 2 * M + 2 * (u * M) := by
    have h4 : D * t.val = (up.val - lo.val) * t.val + (D * t.val - (up.val - lo.val) * t.val) := by ring
    rw [h4]
    exact (abs_add_le _ _).trans (by linarith)
  set p := rnd (D * t.val) with hpd
  have he' : |D * t.val - p| ≤ 2.1 * (u * M) + η := by
    refine he.trans ?_
    have := mul_le_mul_of_nonneg_left hDt' hu0.le
    linarith
  have hpe : |p - (up.val - lo.val) * t.val| ≤ 4.1 * (u * M) + η := by
    have h4 : p - (up.val - lo.val) * t.val = (D * t.val - (up.val - lo.val) * t.val) - (D * t.val - p) := by ring
    rw [h4]
    exact (abs_sub _ _).trans (by linarith)
  have hex : |lo.val + (up.val - lo.val) * t.val| ≤ M := by
    have h4 : lo.val + (up.val - lo.val) * t.val = (1 - t.val) * lo.val + t.val * up.val := by ring
    rw [h4]
    refine (abs_add_le _ _).trans ?_
    rw [abs_mul, abs_mul, abs_of_nonneg ht0, abs_of_nonneg (show 0 ≤ 1 - t.val by linarith)]
    have h5 : (1 - t.val) * |lo.val| ≤ (1 - t.val) * M := mul_le_mul_of_nonneg_left m1 (by linarith)
    have h6 : t.val * |up.val| ≤ t.val * M := mul_le_mul_of_nonneg_left m2 ht0
    linarith
  have hyp : |lo.val + p| ≤ M + (4.1 * (u * M) + η) := by
    have h4 : lo.val + p = (lo.val + (up.val - lo.val) * t.val) + (p - (up.val - lo.val) * t.val) := by ring
    rw [h4]
    exact (abs_add_le _ _).trans (by linarith)
  have hfin : |lo.val + p - r.val| ≤ 1.1 * (u * M) + 1 / 100 * η := by
    refine e3.trans ?_
    have h4 : u * |lo.val + p| ≤ u * (M + (4.1 * (u * M) + η)) := mul_le_mul_of_nonneg_left hyp hu0.le
    have h5 : u * η ≤ 1 / 100 * η := mul_le_mul_of_nonneg_right hu hη0.le
    linarith
  have h4 : r.val - (lo.val + (up.val - lo.val) * t.val) = (p - (up.val - lo.val) * t.val) - (lo.val + p - r.val) := by ring
  rw [h4]
  exact (abs_sub _ _).trans (by linarith)

example := C87_quantile_error [lit 3, lit 1, lit 2] (by norm_num) (lit (1 / 4)) (lit (3 / 2)) (by decide +kernel)

end Verif.Float
