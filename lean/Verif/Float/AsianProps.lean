import Verif.Float.MeansProps
import Verif.Float.FormulaProps

/-!
# C100: harmonic means and Asian options
-/

namespace Verif.Float.Mean

open X64 Real Verif.Float.Sim
open Verif.Options (TypeFlag StrikeFlag AveragingMethod)
open Verif.Float.Fft (ur mu top rnd_real toF64_total ur_pos mu_pos ur_le)

theorem sum_fin (xs : List F64) (acc s : F64) (h : xs.foldlM F64.add acc = some s) :
    (xs.map fin).foldl X64.add (fin acc) = fin s := by
  induction xs generalizing acc with
  | nil => simp only [List.foldlM_nil, Option.pure_def, Option.some.injEq] at h; rw [h]; rfl
  | cons x xs ih =>
    rw [List.foldlM_cons] at h
    obtain ⟨b, hb, h2⟩ := Option.bind_eq_some_iff.1 h
    rw [List.map_cons, List.foldl_cons, Bsm.add_some hb]
    exact ih b h2

/-! ### Harmonic means -/

theorem recip_term {x : F64} (h : 2 ^ (-900 : ℤ) ≤ x.val ∧ x.val ≤ 2 ^ (900 : ℤ)) :
    ∃ y : F64, (ofQ 1).div (fin x) = fin y ∧ |y.val - 1 / x.val| ≤ u * (1 / x.val) ∧ 0 < y.val := by
  have hx0 : 0 < x.val := lt_of_lt_of_le (zpos _) h.1
  have hlo : (2 : ℚ) ^ (-900 : ℤ) ≤ 1 / x.val := by
    rw [zpow_neg, ← one_div]
    exact one_div_le_one_div_of_le hx0 h.2
  have hhi : 1 / x.val ≤ (2 : ℚ) ^ (900 : ℤ) := by
    rw [show (2 : ℚ) ^ (900 : ℤ) = 1 / 2 ^ (-900 : ℤ) by rw [zpow_neg]; simp]
    exact one_div_le_one_div_of_le (zpos _) h.1
  have hq0 : 0 < 1 / x.val := by positivity
  have hrep : Rep ((2 : ℚ) ^ (900 : ℤ)) := by simpa using rep_of_le 1 900 (by norm_num) (by norm_num)
  have hrep' : Rep ((2 : ℚ) ^ (-900 : ℤ)) := by simpa using rep_of_le 1 (-900) (by norm_num) (by norm_num)
  have hr0 : 0 < rnd (1 / x.val) := lt_of_lt_of_le (zpos _) (le_rnd hrep' hlo)
  obtain ⟨y, hy, hyv⟩ := toF64_isSome (x := 1 / x.val) (by
    rw [abs_of_pos hr0]
    refine (rnd_le hrep hhi).trans_lt ?_
    rw [show (2 : ℚ) ^ 1024 = 2 ^ (1024 : ℤ) by norm_num, zpow_lt_iff]; norm_num)
  obtain ⟨one, h1, h1v⟩ := Bsm.one_val
  refine ⟨y, ?_, ?_, by rw [hyv]; exact hr0⟩
  · rw [h1]
    apply Bsm.div_some
    unfold F64.div
    rw [if_neg hx0.ne', h1v, hy]
  · rw [hyv, abs_sub_comm]
    rcases rnd_error (1 / x.val) with h3 | h3
    · rwa [abs_of_pos hq0] at h3
    · exfalso
      have h4 : (2 : ℚ) ^ (-1022 : ℤ) ≤ 2 ^ (-900 : ℤ) := zpow_le_zpow_right₀ (by norm_num) (by norm_num)
      rw [abs_of_pos hq0] at h3
      exact absurd (h3.1.trans_le h4) (not_lt.2 hlo)

theorem recip_terms (xs : List F64) (h : ∀ x ∈ xs, 2 ^ (-900 : ℤ) ≤ x.val ∧ x.val ≤ 2 ^ (900 : ℤ)) :
    ∃ ys : List F64, (xs.map fun x => (ofQ 1).div (fin x)) = ys.map fin ∧ ys.length = xs.length ∧ (∀ y ∈ ys, 0 < y.val) ∧
      |exactSum ys - (xs.map fun x => 1 / x.val).sum| ≤ u * (xs.map fun x => 1 / x.val).sum := by
  induction xs with
  | nil => exact ⟨[], rfl, rfl, by simp, by simp [exactSum]⟩
  | cons x xs ih =>
    obtain ⟨ys, h1, h2, h3, h4⟩ := ih fun y hy => h y (by simp [hy])
    obtain ⟨y, g1, g2, g3⟩ := recip_term (h x (by simp))
    refine ⟨y :: ys, by simp [h1, g1], by simp [h2], by simpa [g3] using h3, ?_⟩
    rw [exactSum_cons, List.map_cons, List.sum_cons]
    rw [show y.val + exactSum ys - (1 / x.val + (xs.map fun x => 1 / x.val).sum) =
      (y.val - 1 / x.val) + (exactSum ys - (xs.map fun x => 1 / x.val).sum) by ring]
    refine (abs_add_le _ _).trans ?_
    linarith

theorem recip_range (xs : List F64) (h : ∀ x ∈ xs, 2 ^ (-900 : ℤ) ≤ x.val ∧ x.val ≤ 2 ^ (900 : ℤ)) :
    xs.length * (2 : ℚ) ^ (-900 : ℤ) ≤ (xs.map fun x => 1 / x.val).sum ∧
      (xs.map fun x => 1 / x.val).sum ≤ xs.length * (2 : ℚ) ^ (900 : ℤ) := by
  induction xs with
  | nil => simp
  | cons x xs ih =>
    obtain ⟨h1, h2⟩ := ih fun y hy => h y (by simp [hy])
    obtain ⟨g1, g2⟩ := h x (by simp)
    have hx0 : 0 < x.val := lt_of_lt_of_le (zpos _) g1
    have hlo : (2 : ℚ) ^ (-900 : ℤ) ≤ 1 / x.val := by
      rw [zpow_neg, ← one_div]
      exact one_div_le_one_div_of_le hx0 g2
    have hhi : 1 / x.val ≤ (2 : ℚ) ^ (900 : ℤ) := by
      rw [show (2 : ℚ) ^ (900 : ℤ) = 1 / 2 ^ (-900 : ℤ) by rw [zpow_neg]; simp]
      exact one_div_le_one_div_of_le (zpos _) g1
    rw [List.map_cons, List.sum_cons, List.length_cons]
    push_cast
    exact ⟨by rw [add_mul, one_mul, add_comm]; exact _root_.add_le_add hlo h1,
      by rw [add_mul, one_mul, add_comm _ ((2 : ℚ) ^ (900 : ℤ))]; exact _root_.add_le_add hhi h2⟩

theorem absSum_pos (ys : List F64) (h : ∀ y ∈ ys, 0 ≤ y.val) : absSum ys = exactSum ys := by
  induction ys with
  | nil => rfl
  | cons y ys ih =>
    rw [absSum_cons, exactSum_cons, abs_of_nonneg (h y (by simp)), ih fun z hz => h z (by simp [hz])]

/-- C100: the harmonic mean of `n` numbers between `2^-900` and `2^900`, `n` up to `2^40`, is a finite number with relative error at most
`(n + 1) 2^-51`. -/
theorem C100_harmonic_error (xs : List F64) (hne : xs ≠ []) (hn : xs.length ≤ 2 ^ 40)
    (h : ∀ x ∈ xs, 2 ^ (-900 : ℤ) ≤ x.val ∧ x.val ≤ 2 ^ (900 : ℤ)) :
    ∃ r, harmonicMean xs = some (fin r) ∧ |F64.real r - hmean xs| ≤ (xs.length + 1) * 2 ^ (-51 : ℤ) * hmean xs := by
  obtain ⟨ys, h1, h2, h3, h4⟩ := recip_terms xs h
  obtain ⟨r1, r2⟩ := recip_range xs h
  have hl0 : 0 < xs.length := List.length_pos_iff.2 hne
  have hN : (0 : ℚ) < xs.length := by exact_mod_cast hl0
  have hN1 : (1 : ℚ) ≤ xs.length := by exact_mod_cast hl0
  have hN2 : (xs.length : ℚ) ≤ 2 ^ 40 := by exact_mod_cast hn
  have hS : 0 < (xs.map fun x => 1 / x.val).sum := lt_of_lt_of_le (by positivity) r1
  have hu := u_pos
  have hu1 : u ≤ 1 / 1000 := by unfold u; norm_num
  have hreal : hmean xs = ((xs.length : ℚ) : ℝ) / (((xs.map fun x => 1 / x.val).sum : ℚ) : ℝ) := by
    unfold hmean F64.real
    push_cast
    rw [List.map_map]
    congr 3
    funext x
    simp
  have hab := absSum_pos ys fun y hy => (h3 y hy).le
  have hE : exactSum ys ≤ 2 * (xs.map fun x => 1 / x.val).sum := by
    have := (abs_le.1 h4).2
    nlinarith
  have hbig : (xs.map fun x => 1 / x.val).sum ≤ 2 ^ 940 := by
    refine r2.trans ?_
    calc (xs.length : ℚ) * 2 ^ (900 : ℤ) ≤ 2 ^ 40 * 2 ^ (900 : ℤ) := by gcongr
      _ = 2 ^ 940 := by rw [zpow_ofNat, ← pow_add]
  obtain ⟨s, hs⟩ := (C86_sum ys (by rw [h2]; omega)).2 (by
    change absSum ys < _
    rw [hab]
    refine (hE.trans (mul_le_mul_of_nonneg_left hbig (by norm_num))).trans_lt ?_
    rw [← pow_succ']
    exact pow_lt_pow_right₀ (by norm_num) (by norm_num))
  have he := sum_error ys (by rw [h2]; omega) s hs
  rw [hab, h2] at he
  have hsx : sum (xs.map fun x => (ofQ 1).div (fin x)) = fin s := by unfold sum; rw [h1, sum_fin ys _ s hs]
  set S := (xs.map fun x => 1 / x.val).sum with hSdef
  have hclose : |s.val - S| ≤ 2 * xs.length * u * S := by
    have e1 : ((xs.length - 1 : ℕ) : ℚ) = xs.length - 1 := by rw [Nat.cast_sub hl0, Nat.cast_one]
    rw [e1, show (2 : ℚ) ^ (-52 : ℤ) = 2 * u by unfold u; norm_num] at he
    have h5 : exactSum ys ≤ (1 + u) * S := by have := (abs_le.1 h4).2; linarith
    have h6 : ((xs.length : ℚ) - 1) * (2 * u) * exactSum ys ≤ ((xs.length : ℚ) - 1) * (2 * u) * ((1 + u) * S) :=
      mul_le_mul_of_nonneg_left h5 (by nlinarith)
    have h7 : |s.val - S| ≤ |s.val - exactSum ys| + |exactSum ys - S| := abs_sub_le _ _ _
    have h8 : ((xs.length : ℚ) - 1) * (2 * u) * u ≤ u * (1 / 2) := by
      have : ((xs.length : ℚ) - 1) * (2 * u) ≤ 2 ^ 40 * (2 * u) := by gcongr; linarith
      have h9 : (2 : ℚ) ^ 40 * (2 * u) ≤ 1 / 2 := by unfold u; norm_num
      nlinarith
    have h9 := mul_le_mul_of_nonneg_right h8 hS.le
    have h10 : 0 < u * S := by positivity
    nlinarith [he]
  obtain ⟨m, hm, hmv⟩ := ofNat_small xs.length (by omega)
  have hSr : (0 : ℝ) < S := by exact_mod_cast hS
  have hNr : (0 : ℝ) < xs.length := by exact_mod_cast hl0
  have hcloser : |F64.real s - (S : ℝ)| ≤ 2 * xs.length * ur * |(S : ℝ)| := by
    have := (Rat.cast_le (K := ℝ)).2 hclose
    push_cast at this
    rw [abs_of_pos hSr]
    have e : ((u : ℚ) : ℝ) = ur := by unfold u ur; push_cast; rfl
    rw [e] at this
    exact this
  have hur := ur_pos
  have hβ : 2 * (xs.length : ℝ) * ur ≤ 1 / 8 := by
    have : (xs.length : ℝ) ≤ 2 ^ 40 := by exact_mod_cast hn
    calc 2 * (xs.length : ℝ) * ur ≤ 2 * 2 ^ 40 * ur := by gcongr
      _ ≤ _ := by unfold ur; norm_num
  have hbox : Bsm.Box 1000 |((xs.length : ℚ) : ℝ) / (S : ℝ)| := by
    have q1 : ((xs.length : ℚ) : ℝ) / (S : ℝ) = ((xs.length / S : ℚ) : ℝ) := by push_cast; rfl
    rw [q1, abs_of_pos (by exact_mod_cast (by positivity : (0 : ℚ) < xs.length / S))]
    constructor
    · have : ((2 : ℚ) ^ 1000)⁻¹ ≤ xs.length / S := by
        rw [inv_eq_one_div, div_le_div_iff₀ (by positivity) hS, one_mul]
        refine r2.trans (mul_le_mul_of_nonneg_left ?_ hN.le)
        rw [zpow_ofNat]
        exact pow_le_pow_right₀ (by norm_num) (by norm_num)
      have := (Rat.cast_le (K := ℝ)).2 this
      push_cast at this ⊢
      exact this
    · have : xs.length / S ≤ (2 : ℚ) ^ 1000 := by
        rw [div_le_iff₀ hS]
        have h9 : (1 : ℚ) ≤ 2 ^ 1000 * 2 ^ (-900 : ℤ) := by
          rw [show (2 : ℚ) ^ 1000 = 2 ^ (1000 : ℤ) by norm_num, ← zpow_add₀ (by norm_num)]
          exact one_le_zpow₀ (by norm_num) (by norm_num)
        calc (xs.length : ℚ) = xs.length * 1 := by ring
          _ ≤ xs.length * (2 ^ 1000 * 2 ^ (-900 : ℤ)) := by gcongr
          _ = 2 ^ 1000 * (xs.length * 2 ^ (-900 : ℤ)) := by ring
          _ ≤ _ := mul_le_mul_of_nonneg_left r1 (by positivity)
      have := (Rat.cast_le (K := ℝ)).2 this
      push_cast at this ⊢
      exact this
  have hmr : F64.real m = ((xs.length : ℚ) : ℝ) := by unfold F64.real; rw [hmv]
  obtain ⟨r, hr, hre⟩ := Bsm.divN (a := m) (b := s) (A := ((xs.length : ℚ) : ℝ)) (B := (S : ℝ)) (α := 0) (β := 2 * xs.length * ur)
    (by rw [hmr, sub_self, abs_zero, zero_mul]) hcloser le_rfl (by norm_num) (by positivity) hβ hSr.ne' hbox
  refine ⟨r, ?_, ?_⟩
  · unfold harmonicMean
    rw [if_neg hne, hsx]
    have : X64.ofNat xs.length = fin m := Bsm.ofQ_some hm
    rw [this, Bsm.div_some hr]
  · rw [hreal]
    refine hre.trans ?_
    rw [abs_of_pos (by have : (0 : ℝ) < ((xs.length : ℚ) : ℝ) := by exact_mod_cast hl0
                       positivity)]
    refine mul_le_mul_of_nonneg_right ?_ (by positivity)
    rw [show (2 : ℝ) ^ (-51 : ℤ) = 4 * ur by unfold ur; norm_num]
    nlinarith

/-! ### Asian options -/

theorem max_zero (c : F64) : (fin c).max (fin F64.zero) = fin (c.max F64.zero) := by
  show (if (fin c).lt (fin F64.zero) then fin F64.zero else fin c) = _
  unfold X64.lt F64.max
  by_cases h : c.val < 0
  · simp [show F64.zero.val = 0 from rfl, h, h.le]
  · by_cases h0 : c.val = 0
    · have : c = F64.zero := F64.ext h0
      simp [this]
    · have : ¬ c.val ≤ F64.zero.val := by
        rw [show F64.zero.val = 0 from rfl]
        intro hc
        exact h (lt_of_le_of_ne hc h0)
      rw [if_neg this]
      simp [show F64.zero.val = 0 from rfl, h]

/-- The rounded gain of the first number over the second. -/
theorem gain_fin (a b : F64) (ha : 0 ≤ a.val) (hb : 0 ≤ b.val) : ∃ v, ((fin a).sub (fin b)).max (fin F64.zero) = fin v ∧ 0 ≤ v.val ∧
    |F64.real v - max (F64.real a - F64.real b) 0| ≤ ur * max (F64.real a - F64.real b) 0 := by
  obtain ⟨c, hc⟩ := (C89_call b a).2 hb ha
  obtain ⟨h1, -, h2, -⟩ := (C89_call b a).1 c hc
  unfold callPayoff at hc
  obtain ⟨d, hd, h3⟩ := Option.bind_eq_some_iff.1 hc
  refine ⟨c, ?_, h1, ?_⟩
  · rw [Bsm.sub_some hd, max_zero]
    simp only [Option.pure_def, Option.some.injEq] at h3
    rw [h3]
  · have := (Rat.cast_le (K := ℝ)).2 h2
    push_cast at this
    have e : ((u : ℚ) : ℝ) = ur := by unfold u ur; push_cast; rfl
    rw [e] at this
    exact this

theorem max_lipschitz (x y : ℝ) : |max x 0 - max y 0| ≤ |x - y| := by
  have := abs_max_sub_max_le_max x 0 y 0
  simpa using this

theorem gain_close {A B a b E v : ℝ} (h : |v - max (a - b) 0| ≤ ur * max (a - b) 0) (hE : |a - A| + |b - B| ≤ E) :
    |v - max (A - B) 0| ≤ 2 * E + 2 ^ (-53 : ℤ) * max (A - B) 0 := by
  have hu := ur_pos
  have hu1 := ur_le
  change _ ≤ 2 * E + ur * _
  have h1 : |max (a - b) 0 - max (A - B) 0| ≤ E := by
    refine (max_lipschitz _ _).trans (le_trans ?_ hE)
    rw [show a - b - (A - B) = (a - A) - (b - B) by ring]
    exact abs_sub _ _
  have h2 := (abs_le.1 h1).2
  have h3 : |v - max (A - B) 0| ≤ |v - max (a - b) 0| + |max (a - b) 0 - max (A - B) 0| := abs_sub_le _ _ _
  have hE0 : 0 ≤ E := (abs_nonneg _).trans h1
  nlinarith

theorem payoff_close {pow : X64 → X64 → X64} {av : AveragingMethod} {path : List F64} {a terminal : F64} {A E : ℝ}
    (hav : average pow av path = some (fin a)) (ha : 0 ≤ a.val) (hA : |F64.real a - A| ≤ E) (ht : path.getLast? = some terminal)
    (ht0 : 0 ≤ terminal.val) (f : TypeFlag) (s : StrikeFlag) (k : Option F64) (hk : 0 ≤ (k.getD F64.zero).val) :
    ∃ v, (Asian.mk f (some s) av k).payoff pow path = some (fin v) ∧ 0 ≤ v.val ∧
      |F64.real v - asianGain f s A (F64.real terminal) (F64.real (k.getD F64.zero))| ≤
        2 * E + 2 ^ (-53 : ℤ) * asianGain f s A (F64.real terminal) (F64.real (k.getD F64.zero)) := by
  unfold Asian.payoff asianGain gain
  simp only [ht, hav, Option.bind_eq_bind, Option.bind_some]
  rcases s <;> rcases f <;> simp only
  · obtain ⟨v, h1, h2, h3⟩ := gain_fin a (k.getD F64.zero) ha hk
    exact ⟨v, by rw [h1], h2, gain_close h3 (by rw [sub_self, abs_zero, _root_.add_zero]; exact hA)⟩
  · obtain ⟨v, h1, h2, h3⟩ := gain_fin (k.getD F64.zero) a hk ha
    exact ⟨v, by rw [h1], h2, gain_close h3 (by rw [sub_self, abs_zero, _root_.zero_add]; exact hA)⟩
  · obtain ⟨v, h1, h2, h3⟩ := gain_fin terminal a ht0 ha
    exact ⟨v, by rw [h1], h2, gain_close h3 (by rw [sub_self, abs_zero, _root_.zero_add]; exact hA)⟩
  · obtain ⟨v, h1, h2, h3⟩ := gain_fin a terminal ha ht0
    exact ⟨v, by rw [h1], h2, gain_close h3 (by rw [sub_self, abs_zero, _root_.add_zero]; exact hA)⟩

/-- C100: a geometric Asian option, with fixed or floating strike, pays within twice the error of the geometric mean, plus the relative error
`2^-53`, of what it should, as long as no partial product of the path overflows or underflows. -/
theorem C100_asian_geometric (pow : X64 → X64 → X64) (δ : ℝ) (hδ : 0 ≤ δ) (hδ1 : δ ≤ 2 ^ (-10 : ℤ)) (hpow : Accurate pow δ) (path : List F64)
    (h : Safe path) (S : F64) (hS : path.getLast? = some S) (f : TypeFlag) (s : StrikeFlag) (k : Option F64)
    (hk : 0 ≤ (k.getD F64.zero).val) :
    ∃ v, (Asian.mk f (some s) .geometricDiscrete k).payoff pow path = some (fin v) ∧ 0 ≤ v.val ∧
      |F64.real v - asianGain f s (gmean path) (F64.real S) (F64.real (k.getD F64.zero))| ≤
        2 * ((δ + 2 ^ (-52 : ℤ) * (3 + |log (gmean path)|)) * gmean path) +
          2 ^ (-53 : ℤ) * asianGain f s (gmean path) (F64.real S) (F64.real (k.getD F64.zero)) := by
  obtain ⟨g, h1, h2⟩ := h.root hδ hδ1 hpow
  have hG : 0 < gmean path := by
    have := total_pos fun x hx => real_pos.2 (h.pos x hx)
    unfold gmean; positivity
  have hlog : |log (gmean path)| ≤ 2 ^ 10 := by
    have ht := h.parts path.length le_rfl
    rw [List.take_length] at ht
    have htp := total_pos fun x hx => real_pos.2 (h.pos x hx)
    have hn1 : (1 : ℝ) ≤ path.length := by exact_mod_cast List.length_pos_iff.2 h.nonempty
    unfold gmean
    rw [log_rpow htp, abs_mul, abs_of_pos (by positivity)]
    have : 1 / (path.length : ℝ) ≤ 1 := by rw [div_le_one (by linarith)]; exact hn1
    calc 1 / (path.length : ℝ) * |log (total path)| ≤ 1 * |log (total path)| := by gcongr
      _ ≤ _ := by rw [one_mul]; exact log_total ht
  refine payoff_close (a := g) (by unfold average; simp only [h1]) ?_ h2 hS ?_ f s k hk
  · have hE : (δ + 2 ^ (-52 : ℤ) * (3 + |log (gmean path)|)) ≤ 1 / 2 := by
      calc δ + 2 ^ (-52 : ℤ) * (3 + |log (gmean path)|) ≤ 2 ^ (-10 : ℤ) + 2 ^ (-52 : ℤ) * (3 + 2 ^ 10) := by gcongr
        _ ≤ 1 / 2 := by norm_num
    have h3 := (abs_le.1 h2).1
    have h4 := mul_le_mul_of_nonneg_right hE hG.le
    have : 0 < F64.real g := by
      generalize (δ + 2 ^ (-52 : ℤ) * (3 + |log (gmean path)|)) * gmean path = w at *
      linarith
    exact (real_pos.1 this).le
  · exact (h.pos S (List.mem_of_getLast? hS)).le

/-- C100: an arithmetic Asian option on a path of `n` prices, none negative, pays within `n 2^-51` of the average price (plus an underflow term)
and the relative error `2^-53` of what it should. -/
theorem C100_asian_arithmetic (pow : X64 → X64 → X64) (path : List F64) (hn : path.length ≤ 2 ^ 52) (hpos : ∀ x ∈ path, 0 ≤ x.val)
    (hbig : (path.map F64.val).sum < 2 ^ 1023) (S : F64) (hS : path.getLast? = some S) (f : TypeFlag) (s : StrikeFlag) (k : Option F64)
    (hk : 0 ≤ (k.getD F64.zero).val) :
    ∃ v, (Asian.mk f (some s) .arithmeticDiscrete k).payoff pow path = some (fin v) ∧ 0 ≤ v.val ∧
      |F64.real v - asianGain f s (amean path) (F64.real S) (F64.real (k.getD F64.zero))| ≤
        2 * (path.length * 2 ^ (-52 : ℤ) * amean path + 2 ^ (-1075 : ℤ)) +
          2 ^ (-53 : ℤ) * asianGain f s (amean path) (F64.real S) (F64.real (k.getD F64.zero)) := by
  have hne : path ≠ [] := by rintro rfl; simp at hS
  have hl0 : 0 < path.length := List.length_pos_iff.2 hne
  have hab : absSum path = exactSum path := absSum_pos path hpos
  obtain ⟨t, ht⟩ := (C86_sum path hn).2 (by change absSum path < _; rw [hab]; exact hbig)
  have ht0 : 0 ≤ t.val := sum_nonneg path _ le_rfl hpos t ht
  obtain ⟨n, hN, hNv⟩ := ofNat_small path.length (by omega)
  have hNpos : (0 : ℚ) < n.val := by rw [hNv]; exact_mod_cast hl0
  have hq : |rnd (t.val / n.val)| < 2 ^ 1024 := by
    apply fin_of_le t
    rw [abs_div, abs_of_pos hNpos]
    apply div_le_self (abs_nonneg _)
    rw [hNv]; exact_mod_cast hl0
  obtain ⟨m, hm, hmv⟩ := toF64_isSome hq
  have hdiv : t.div n = some m := by unfold F64.div; rw [if_neg hNpos.ne', hm]
  have hmean : meanVal path = some m := by
    unfold meanVal
    rw [ht]
    simp only [Option.bind_eq_bind, Option.bind_some, hN, hdiv]
  have hav : average pow .arithmeticDiscrete path = some (fin m) := by
    unfold average
    simp only
    rw [show sum (path.map fin) = fin t from sum_fin path _ t ht, show X64.ofNat path.length = fin n from Bsm.ofQ_some hN, Bsm.div_some hdiv]
  have herr := (C86_mean path hn).2 m (by unfold mean; rw [if_neg hne, hmean]; rfl)
  have hsum : ((exactSum path : ℚ) : ℝ) = path.length * amean path := by
    have hnr : (path.length : ℝ) ≠ 0 := by exact_mod_cast hl0.ne'
    unfold amean exactSum F64.real
    push_cast
    rw [List.map_map]
    field_simp
    rfl
  refine payoff_close hav ?_ ?_ hS (hpos S (List.mem_of_getLast? hS)) f s k hk
  · rw [hmv]; exact rnd_nonneg (by positivity)
  · have := (Rat.cast_le (K := ℝ)).2 herr
    rw [show (path.map fun x => |x.val|).sum = exactSum path from hab] at this
    push_cast at this
    rw [hsum] at this
    have e : F64.real m - amean path = (m.val : ℝ) - (path.map F64.val).sum / path.length := by
      unfold amean F64.real
      push_cast
      rw [List.map_map]
      rfl
    rw [e]
    push_cast
    refine this.trans (le_of_eq ?_)
    ring

theorem prod_ge (c : ℚ) (hc : 0 ≤ c) (xs : List F64) (h : ∀ x ∈ xs, c ≤ x.val) : c ^ xs.length ≤ (xs.map F64.val).prod := by
  induction xs with
  | nil => simp
  | cons x xs ih =>
    rw [List.length_cons, pow_succ', List.map_cons, List.prod_cons]
    have h0 := h x (by simp)
    exact mul_le_mul h0 (ih fun y hy => h y (by simp [hy])) (by positivity) (by linarith)

/-- C100 (defect): on a path of at least 155 prices of at least 100 (and whenever the prices are at least 1 and their product is `2^1025` or more)
the geometric average is infinite: the fixed strike call and the floating strike put pay infinity, the other two nothing, whatever the strike. -/
theorem C100_asian_infinite (pow : X64 → X64 → X64) (δ : ℝ) (hpow : Accurate pow δ) (path : List F64) (hn : path.length ≤ 2 ^ 52)
    (h : (155 ≤ path.length ∧ ∀ x ∈ path, 100 ≤ x.val) ∨ ((∀ x ∈ path, 1 ≤ x.val) ∧ 2 ^ 1025 ≤ (path.map F64.val).prod)) (k : Option F64) :
    (Asian.mk .call (some .fixed) .geometricDiscrete k).payoff pow path = some (inf false) ∧
    (Asian.mk .put (some .fixed) .geometricDiscrete k).payoff pow path = some (fin F64.zero) ∧
    (Asian.mk .call (some .floating) .geometricDiscrete k).payoff pow path = some (fin F64.zero) ∧
    (Asian.mk .put (some .floating) .geometricDiscrete k).payoff pow path = some (inf false) := by
  have h' : (∀ x ∈ path, 1 ≤ x.val) ∧ 2 ^ 1025 ≤ (path.map F64.val).prod := by
    rcases h with ⟨h1, h2⟩ | h
    · refine ⟨fun x hx => by linarith [h2 x hx], ?_⟩
      refine le_trans ?_ (prod_ge 100 (by norm_num) path h2)
      calc (2 : ℚ) ^ 1025 ≤ 100 ^ 155 := by decide +kernel
        _ ≤ _ := pow_le_pow_right₀ (by norm_num) h1
    · exact h
  obtain ⟨h1, h2⟩ := h'
  have hne : path ≠ [] := by
    rintro rfl
    rw [List.map_nil, List.prod_nil] at h2
    exact absurd h2 (not_le.2 (one_lt_pow₀ (by norm_num) (by norm_num)))
  obtain ⟨p, hp, -, hp0, -⟩ := recip (List.length_pos_iff.2 hne) (hn.trans (by norm_num))
  have hroot : root pow path = inf false := by
    unfold root; rw [product_infinite path hn h1 h2, hp, hpow.infinite p hp0]
  obtain ⟨t, ht⟩ : ∃ t, path.getLast? = some t := by
    cases hl : path.getLast? with
    | none => exact absurd (List.getLast?_eq_none_iff.1 hl) hne
    | some t => exact ⟨t, rfl⟩
  have m1 : (inf true : X64).max (fin F64.zero) = fin F64.zero := rfl
  have m2 : (inf false : X64).max (fin F64.zero) = inf false := rfl
  have s1 : ∀ a : F64, (inf false).sub (fin a) = inf false := fun a => by
    unfold X64.sub; rw [Bsm.neg_fin]; rfl
  have s2 : ∀ a : F64, (fin a).sub (inf false) = inf true := fun a => rfl
  unfold Asian.payoff average
  simp only [ht, hroot, Option.bind_eq_bind, Option.bind_some, s1, s2, m1, m2, and_self]

/-! ### Cases that meet the hypotheses -/

theorem real_le_max {y : ℝ} {M : F64} (h1 : 2 ^ (-1022 : ℤ) ≤ y) (h2 : y ≤ F64.real M) :
    ∃ r : F64, |F64.real r - y| ≤ 2 ^ (-51 : ℤ) * y := by
  have hu := ur_pos
  have hy : 0 < y := lt_of_lt_of_le (by positivity) h1
  obtain ⟨q, hq1, hq2⟩ := exists_rat_btwn (show max (y - ur * y) 0 < y by
    apply max_lt _ hy
    have : 0 < ur * y := by positivity
    linarith)
  have hq0 : (0 : ℝ) < q := (le_max_right _ _).trans_lt hq1
  have hq3 : y - ur * y < q := (le_max_left _ _).trans_lt hq1
  have hq0' : 0 < q := by exact_mod_cast hq0
  obtain ⟨r, hr, hrv⟩ := toF64_isSome (x := q) (fin_of_le M (by
    have : (q : ℝ) ≤ M.val := hq2.le.trans h2
    have h3 : q ≤ M.val := by exact_mod_cast this
    rw [abs_of_pos hq0', abs_of_pos (hq0'.trans_le h3)]
    exact h3))
  refine ⟨r, ?_⟩
  have h5 := rnd_real q
  rw [← hrv, abs_of_pos hq0] at h5
  change |F64.real r - q| ≤ _ at h5
  have hmu : mu ≤ ur * y := by
    have : mu = ur * 2 ^ (-1022 : ℤ) := by unfold mu ur; rw [← zpow_add₀ (by norm_num)]; norm_num
    rw [this]; gcongr
  have h6 : |(q : ℝ) - y| ≤ ur * y := by rw [abs_le]; constructor <;> linarith
  have h7 : ur * q ≤ ur * y := by gcongr
  rw [show (2 : ℝ) ^ (-51 : ℤ) = 4 * ur by unfold ur; norm_num]
  have h8 : 0 < ur * y := by positivity
  calc |F64.real r - y| ≤ |F64.real r - q| + |(q : ℝ) - y| := abs_sub_le _ _ _
    _ ≤ _ := by linarith

/-- Where a power is asked to be finite, some double is near it. -/
theorem pow_near (x p : F64) (hx : 0 < x.val) (hp : 0 < p.val) (hp1 : p.val ≤ 1) (h : 2 ^ (-1022 : ℤ) ≤ x.val ∨ p.val ≤ 1 / 2) :
    ∃ r : F64, |F64.real r - F64.real x ^ F64.real p| ≤ 2 ^ (-51 : ℤ) * F64.real x ^ F64.real p := by
  have hx' := real_pos.2 hx
  have hp' := real_pos.2 hp
  have hp1' : F64.real p ≤ 1 := by
    have := (real_le_iff (a := p) (q := 1)).2 hp1
    push_cast at this; exact this
  obtain ⟨one, -, h1v⟩ := Bsm.one_val
  have h1r : F64.real one = 1 := by unfold F64.real; rw [h1v]; norm_num
  rcases le_total 1 (F64.real x) with h1 | h1
  · refine real_le_max (M := x) ?_ ?_
    · refine le_trans ?_ (one_le_rpow h1 hp'.le)
      have : (2 : ℝ) ^ (-1022 : ℤ) ≤ 2 ^ (0 : ℤ) := zpow_le_zpow_right₀ (by norm_num) (by norm_num)
      rwa [zpow_zero] at this
    · calc F64.real x ^ F64.real p ≤ F64.real x ^ (1 : ℝ) := rpow_le_rpow_of_exponent_le h1 hp1'
        _ = _ := rpow_one _
  · refine real_le_max (M := one) ?_ (by rw [h1r]; exact rpow_le_one hx'.le h1 hp'.le)
    rcases h with h | h
    · have h2 : (2 : ℝ) ^ (-1022 : ℤ) ≤ F64.real x := by
        have := (Rat.cast_le (K := ℝ)).2 h
        push_cast at this; exact this
      refine h2.trans ?_
      calc F64.real x = F64.real x ^ (1 : ℝ) := (rpow_one _).symm
        _ ≤ _ := rpow_le_rpow_of_exponent_ge hx' h1 hp1'
    · have h3 : F64.real p ≤ 1 / 2 := by
        have := (real_le_iff (a := p) (q := 1 / 2)).2 h
        push_cast at this; exact this
      have h4 : (2 : ℝ) ^ (-2044 : ℤ) ≤ F64.real x := by
        obtain ⟨n, hn⟩ := rep_grid x.rep
        have hn1 : 1 ≤ n := by
          by_contra hc
          have hc' : (n : ℚ) ≤ 0 := by exact_mod_cast (by omega : n ≤ 0)
          have := mul_nonpos_of_nonpos_of_nonneg hc' (zpos (-1074)).le
          rw [← hn] at this
          linarith
        have h5 : (2 : ℚ) ^ (-1074 : ℤ) ≤ x.val := by
          rw [hn]
          have : (1 : ℚ) ≤ n := by exact_mod_cast hn1
          have := mul_le_mul_of_nonneg_right this (zpos (-1074)).le
          rwa [one_mul] at this
        have h6 : (2 : ℚ) ^ (-2044 : ℤ) ≤ x.val := le_trans (zpow_le_zpow_right₀ (by norm_num) (by norm_num)) h5
        have := (Rat.cast_le (K := ℝ)).2 h6
        push_cast at this; exact this
      calc (2 : ℝ) ^ (-1022 : ℤ) = ((2 : ℝ) ^ (-2044 : ℤ)) ^ (1 / 2 : ℝ) := by
            rw [← rpow_intCast, ← rpow_intCast, ← rpow_mul (by norm_num)]
            congr 1; norm_num
        _ ≤ F64.real x ^ (1 / 2 : ℝ) := rpow_le_rpow (by positivity) h4 (by norm_num)
        _ ≤ _ := rpow_le_rpow_of_exponent_ge hx' h1 h3

open Classical in
/-- A platform's `powf` that gives a double next to the power. -/
noncomputable def somePow : X64 → X64 → X64
  | fin x, fin p =>
    if h : 0 < x.val ∧ 0 < p.val ∧ p.val ≤ 1 ∧ (2 ^ (-1022 : ℤ) ≤ x.val ∨ p.val ≤ 1 / 2) then fin (pow_near x p h.1 h.2.1 h.2.2.1 h.2.2.2).choose
    else fin F64.zero
  | inf false, _ => inf false
  | _, _ => nan

theorem somePow_accurate : Accurate somePow (2 ^ (-51 : ℤ)) where
  finite x p h1 h2 h3 h4 := by
    refine ⟨(pow_near x p h1 h2 h3 h4).choose, ?_, (pow_near x p h1 h2 h3 h4).choose_spec⟩
    unfold somePow
    simp only
    rw [dif_pos ⟨h1, h2, h3, h4⟩]
  infinite p _ := rfl
  zero p _ := by
    unfold somePow
    simp only
    rw [dif_neg (fun h => absurd h.1 (by simp [show F64.zero.val = 0 from rfl]))]

/-- The path 100, 110, 121. -/
def somePath : List F64 := [lit 100, lit 110, lit 121]

theorem somePath_safe : Safe somePath where
  nonempty := by simp [somePath]
  length := by simp [somePath]
  pos := by
    intro x hx
    simp only [somePath, List.mem_cons, List.not_mem_nil, or_false] at hx
    rcases hx with rfl | rfl | rfl <;> decide +kernel
  parts := by
    intro k hk
    have e1 : F64.real (lit 100) = 100 := by unfold F64.real; rw [show (lit 100).val = 100 by decide +kernel]; norm_num
    have e2 : F64.real (lit 110) = 110 := by unfold F64.real; rw [show (lit 110).val = 110 by decide +kernel]; norm_num
    have e3 : F64.real (lit 121) = 121 := by unfold F64.real; rw [show (lit 121).val = 121 by decide +kernel]; norm_num
    have hb : ∀ q : ℝ, 1 ≤ q → q ≤ 2 ^ 21 → 2 ^ (-1021 : ℤ) ≤ q ∧ q ≤ 2 ^ 1022 := fun q h1 h2 => by
      have : (2 : ℝ) ^ (-1021 : ℤ) ≤ 2 ^ (0 : ℤ) := zpow_le_zpow_right₀ (by norm_num) (by norm_num)
      rw [zpow_zero] at this
      exact ⟨this.trans h1, h2.trans (pow_le_pow_right₀ (by norm_num) (by norm_num))⟩
    have : k ≤ 3 := by simpa [somePath] using hk
    interval_cases k <;> simp only [somePath, List.take_zero, List.take_succ_cons, total_nil, total_cons, e1, e2, e3] <;>
      exact hb _ (by norm_num) (by norm_num)

example := C100_geometric_error somePow _ (by positivity) (zpow_le_zpow_right₀ (by norm_num) (by norm_num)) somePow_accurate somePath somePath_safe

example := C100_geometric_infinite somePow _ somePow_accurate (List.replicate 155 (lit 100)) (by simp)
  (by intro x hx; rw [List.eq_of_mem_replicate hx]; decide +kernel) (by decide +kernel)

example := C100_geometric_zero somePow _ somePow_accurate 7 (List.replicate 154 (lit (1 / 200))) (by simp)
  (by intro x hx; rw [List.eq_of_mem_replicate hx]; exact ⟨by decide +kernel, by decide +kernel⟩) (by simp)

example := C100_geometric_stuck somePow _ (zpow_le_zpow_right₀ (by norm_num) (by norm_num)) somePow_accurate (List.replicate (2 ^ 17) (lit (3 / 4)))
  (by rw [List.length_replicate]) (by rw [List.length_replicate]; norm_num)
  (by intro x hx; rw [List.eq_of_mem_replicate hx]; exact ⟨by decide +kernel, by decide +kernel⟩)

example := C100_harmonic_error somePath (by simp [somePath]) (by simp [somePath]) (by
  intro x hx
  simp only [somePath, List.mem_cons, List.not_mem_nil, or_false] at hx
  rcases hx with rfl | rfl | rfl <;> exact ⟨by decide +kernel, by decide +kernel⟩)

example := C100_asian_geometric somePow _ (by positivity) (zpow_le_zpow_right₀ (by norm_num) (by norm_num)) somePow_accurate somePath somePath_safe
  (lit 121) rfl .call .fixed (some (lit 105)) (by decide +kernel)

example := C100_asian_arithmetic somePow somePath (by simp [somePath]) (fun x hx => (somePath_safe.pos x hx).le) (by decide +kernel) (lit 121) rfl
  .put .floating none (by decide +kernel)

example := C100_asian_infinite somePow _ somePow_accurate (List.replicate 155 (lit 100)) (by simp)
  (Or.inl ⟨by simp, by intro x hx; rw [List.eq_of_mem_replicate hx]; decide +kernel⟩) (some (lit 105))

end Verif.Float.Mean
