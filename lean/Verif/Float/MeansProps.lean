import Verif.Float.MeansLemmas

/-!
# C100: geometric and harmonic means and Asian options in double precision
-/

namespace Verif.Float.Mean

open X64 Real Verif.Float.Sim
open Verif.Options (TypeFlag StrikeFlag AveragingMethod)
open Verif.Float.Fft (ur mu top rnd_real toF64_total ur_pos mu_pos ur_le)

/-- C100: geometric and harmonic mean panic exactly for no data; an Asian option panics exactly on an empty path, for continuous averaging,
or without a strike flag. -/
theorem C100_panics (pow : X64 → X64 → X64) (xs : List F64) (o : Asian) :
    (geometricMean pow xs = none ↔ xs = []) ∧ (harmonicMean xs = none ↔ xs = []) ∧
    (o.payoff pow xs = none ↔ xs = [] ∨ o.averagingMethod = .arithmeticContinuous ∨ o.averagingMethod = .geometricContinuous ∨
      o.strikeFlag = none) := by
  refine ⟨by unfold geometricMean; split_ifs <;> simp_all, by unfold harmonicMean; split_ifs <;> simp_all, ?_⟩
  obtain ⟨tf, sf, av, k⟩ := o
  unfold Asian.payoff
  rcases hl : xs.getLast? with _ | t
  · simp [List.getLast?_eq_none_iff.1 hl]
  · have : xs ≠ [] := by rintro rfl; simp at hl
    simp only [Option.bind_eq_bind, Option.bind_some, this, false_or]
    rcases av <;> rcases sf with _ | _ | _ <;> rcases tf <;> simp [average]

theorem log_total {P : ℝ} (h : 2 ^ (-1021 : ℤ) ≤ P ∧ P ≤ 2 ^ 1022) : |log P| ≤ 2 ^ 10 := by
  have hP : 0 < P := lt_of_lt_of_le (by positivity) h.1
  have h2 := log_two_lt_d9
  have h3 := log_two_gt_d9
  rw [abs_le]
  constructor
  · have := log_le_log (by positivity) h.1
    rw [log_zpow] at this
    push_cast at this
    refine le_trans ?_ this
    nlinarith
  · have := log_le_log hP h.2
    rw [log_pow] at this
    push_cast at this
    refine this.trans ?_
    nlinarith

theorem Safe.root {xs : List F64} (h : Safe xs) {pow : X64 → X64 → X64} {δ : ℝ} (hδ : 0 ≤ δ) (hδ1 : δ ≤ 2 ^ (-10 : ℤ))
    (hpow : Accurate pow δ) : ∃ g, Mean.root pow xs = fin g ∧
      |F64.real g - gmean xs| ≤ (δ + 2 ^ (-52 : ℤ) * (3 + |log (gmean xs)|)) * gmean xs := by
  have hn0 : 0 < xs.length := List.length_pos_iff.2 h.nonempty
  have hx : ∀ x ∈ xs, 0 < F64.real x := fun x hx => real_pos.2 (h.pos x hx)
  obtain ⟨one, h1, h1v⟩ := Bsm.one_val
  have h1r : F64.real one = 1 := by unfold F64.real; rw [h1v]; norm_num
  obtain ⟨b, hb, hb0, hbl⟩ := product_from xs one 1 0 (by norm_num) (by rw [h1r]; norm_num) (by rw [h1r]; simp) (by simpa using h.length) hx
    (fun j hj => by simpa using h.parts j hj)
  rw [one_mul, Nat.zero_add] at hbl
  have hpr : product xs = fin b := by unfold product; rw [h1, hb]
  obtain ⟨p, hp, hpe, hp0, hp1, -⟩ := recip hn0 (h.length.trans (by norm_num))
  have ht := h.parts xs.length le_rfl
  rw [List.take_length] at ht
  have htp := total_pos hx
  have hrc := root_close hn0 hb0 htp hbl hpe (log_total ht)
  -- the rounded product is not subnormal
  have hbb : 2 ^ (-1022 : ℤ) ≤ b.val := by
    have hk1 : (xs.length : ℝ) * (2 * ur) ≤ 1 / 8 := by
      have : (xs.length : ℝ) ≤ 2 ^ 40 := by exact_mod_cast h.length
      calc (xs.length : ℝ) * (2 * ur) ≤ 2 ^ 40 * (2 * ur) := by have := ur_pos; gcongr
        _ ≤ 1 / 8 := by unfold ur; norm_num
    have l1 := (log_bound hb0 htp hk1 hbl).1
    have e : (2 : ℝ) ^ (-1022 : ℤ) = 2 ^ (-1021 : ℤ) / 2 := by
      rw [show (-1022 : ℤ) = -1021 - 1 by norm_num, zpow_sub_one₀ (by norm_num)]; ring
    rw [← Rat.cast_le (K := ℝ)]
    push_cast
    rw [e]
    exact (div_le_div_of_nonneg_right ht.1 (by norm_num)).trans l1
  obtain ⟨y, hy, hye⟩ := hpow.finite b p (real_pos.1 hb0) hp0 hp1 (Or.inl hbb)
  refine ⟨y, by unfold Mean.root; rw [hpr, hp, hy], ?_⟩
  have hG : 0 < gmean xs := by unfold gmean; positivity
  change |_ - gmean xs| ≤ 3 / 2 * (ur * (3 + |log (gmean xs)|)) * gmean xs at hrc
  have hu := ur_pos
  have e52 : (2 : ℝ) ^ (-52 : ℤ) = 2 * ur := by unfold ur; norm_num
  rw [e52, show 2 * ur * (3 + |log (gmean xs)|) = 2 * (ur * (3 + |log (gmean xs)|)) by ring]
  have hD0 : 0 ≤ ur * (3 + |log (gmean xs)|) := by positivity
  generalize ur * (3 + |log (gmean xs)|) = D at *
  generalize F64.real b ^ F64.real p = w at *
  have hδ2 : δ ≤ 1 / 8 := hδ1.trans (by norm_num)
  have hw : |w| ≤ (1 + 3 / 2 * D) * gmean xs := by
    have := abs_sub_abs_le_abs_sub w (gmean xs)
    rw [abs_of_pos hG] at this
    linarith
  have hw0 : w ≤ |w| := le_abs_self w
  calc |F64.real y - gmean xs| ≤ |F64.real y - w| + |w - gmean xs| := abs_sub_le _ _ _
    _ ≤ δ * ((1 + 3 / 2 * D) * gmean xs) + 3 / 2 * D * gmean xs := _root_.add_le_add (hye.trans (by gcongr; linarith)) hrc
    _ ≤ (δ + 2 * D) * gmean xs := by
      have : δ * (3 / 2 * D) ≤ 1 / 8 * (3 / 2 * D) := by gcongr
      nlinarith [mul_nonneg hD0 hG.le, mul_le_mul_of_nonneg_right this hG.le]

/-- C100: unless a partial product overflows or underflows, the geometric mean of positive numbers is a finite number with relative error
at most that of the platform's power plus `2^-52 (3 + |ln G|)`, where `G` is the geometric mean: no matter how many numbers there are. -/
theorem C100_geometric_error (pow : X64 → X64 → X64) (δ : ℝ) (hδ : 0 ≤ δ) (hδ1 : δ ≤ 2 ^ (-10 : ℤ)) (hpow : Accurate pow δ) (xs : List F64)
    (h : Safe xs) : ∃ g, geometricMean pow xs = some (fin g) ∧
      |F64.real g - gmean xs| ≤ (δ + 2 ^ (-52 : ℤ) * (3 + |log (gmean xs)|)) * gmean xs := by
  obtain ⟨g, h1, h2⟩ := h.root hδ hδ1 hpow
  exact ⟨g, by unfold geometricMean; rw [if_neg h.nonempty, h1], h2⟩

/-! ### Overflow and underflow -/

theorem product_over (xs : List F64) (acc : X64) (A : ℚ) (c : ℚ) (hc : 0 ≤ c)
    (hacc : acc = inf false ∨ ∃ a, acc = fin a ∧ 1 ≤ a.val ∧ c * A ≤ a.val) (hA : 0 ≤ A) (hx : ∀ x ∈ xs, 1 ≤ x.val) :
    xs.foldl (fun acc x => acc.mul (fin x)) acc = inf false ∨
      ∃ a, xs.foldl (fun acc x => acc.mul (fin x)) acc = fin a ∧ c * (1 - u) ^ xs.length * (A * (xs.map F64.val).prod) ≤ a.val := by
  induction xs generalizing acc A c with
  | nil =>
    rcases hacc with h | ⟨a, h, h1, h2⟩
    · exact Or.inl h
    · exact Or.inr ⟨a, h, by simpa using h2⟩
  | cons x xs ih =>
    have hx1 := hx x (by simp)
    have hu := u_pos
    have hu1 := u_lt
    have hu2 : 0 ≤ 1 - u := by linarith
    have key : acc.mul (fin x) = inf false ∨ ∃ a, acc.mul (fin x) = fin a ∧ 1 ≤ a.val ∧ c * (1 - u) * (A * x.val) ≤ a.val := by
      rcases hacc with h | ⟨a, h, h1, h2⟩
      · left
        rw [h]
        show (if x.val = 0 then nan else inf (false != decide (x.val < 0))) = inf false
        rw [if_neg (by linarith), decide_eq_false (by linarith)]; rfl
      · rw [h]
        show ofQ (a.val * x.val) = _ ∨ _
        have hp : 1 ≤ a.val * x.val := by nlinarith
        by_cases hf : |rnd (a.val * x.val)| < 2 ^ 1024
        · right
          obtain ⟨b, hb, hbv⟩ := toF64_isSome hf
          refine ⟨b, Bsm.ofQ_some hb, by rw [hbv]; exact le_rnd rep_one hp, ?_⟩
          rw [hbv]
          have he : |a.val * x.val - rnd (a.val * x.val)| ≤ u * |a.val * x.val| := by
            rcases rnd_error (a.val * x.val) with h3 | h3
            · exact h3
            · exfalso
              have := h3.1
              rw [abs_of_pos (by linarith)] at this
              have h4 : (2 : ℚ) ^ (-1022 : ℤ) ≤ 2 ^ (0 : ℤ) := zpow_le_zpow_right₀ (by norm_num) (by norm_num)
              rw [zpow_zero] at h4
              exact absurd (this.trans_le h4) (not_lt.2 hp)
          rw [abs_of_pos (show 0 < a.val * x.val by linarith)] at he
          have h5 := (abs_le.1 he).2
          have h6 : c * A * x.val ≤ a.val * x.val := mul_le_mul_of_nonneg_right h2 (by linarith)
          have h7 : (1 - u) * (c * A * x.val) ≤ (1 - u) * (a.val * x.val) := mul_le_mul_of_nonneg_left h6 hu2
          calc c * (1 - u) * (A * x.val) = (1 - u) * (c * A * x.val) := by ring
            _ ≤ (1 - u) * (a.val * x.val) := h7
            _ = a.val * x.val - u * (a.val * x.val) := by ring
            _ ≤ _ := by linarith
        · left
          unfold X64.ofQ toF64
          rw [dif_neg hf]
          show inf (decide (a.val * x.val < 0)) = inf false
          rw [decide_eq_false (by linarith)]
    have := ih (acc.mul (fin x)) (A * x.val) (c * (1 - u)) (by positivity) key (mul_nonneg hA (by linarith)) (fun y hy => hx y (by simp [hy]))
    rw [List.foldl_cons]
    rcases this with h | ⟨a, h, h1⟩
    · exact Or.inl h
    · refine Or.inr ⟨a, h, ?_⟩
      rw [List.length_cons, List.map_cons, List.prod_cons, pow_succ]
      convert h1 using 1
      ring

theorem product_infinite (xs : List F64) (hn : xs.length ≤ 2 ^ 52) (hx : ∀ x ∈ xs, 1 ≤ x.val) (h : 2 ^ 1025 ≤ (xs.map F64.val).prod) :
    product xs = inf false := by
  obtain ⟨one, h1, h1v⟩ := Bsm.one_val
  rcases product_over xs (ofQ 1) 1 1 (by norm_num) (Or.inr ⟨one, h1, by rw [h1v], by rw [h1v]; norm_num⟩) (by norm_num) hx with h2 | ⟨a, h2, h3⟩
  · exact h2
  · exfalso
    have h4 : 1 / 2 ≤ (1 - u) ^ xs.length := by
      have := one_add_mul_le_pow (a := -u) (by have := u_lt; linarith) xs.length
      rw [← sub_eq_add_neg] at this
      refine le_trans ?_ this
      have h5 : (xs.length : ℚ) * u ≤ 2 ^ 52 * u := by
        have : (xs.length : ℚ) ≤ 2 ^ 52 := by exact_mod_cast hn
        have := u_pos
        gcongr
      have : (2 : ℚ) ^ 52 * u = 1 / 2 := by unfold u; norm_num
      linarith
    have h5 : a.val < 2 ^ 1024 := lt_of_abs_lt a.fin
    have h6 : (1 / 2 : ℚ) * 2 ^ 1025 ≤ (1 - u) ^ xs.length * (xs.map F64.val).prod := mul_le_mul h4 h (by positivity) (by linarith)
    have h7 : (1 / 2 : ℚ) * 2 ^ 1025 = 2 ^ 1024 := by rw [pow_succ]; ring
    rw [one_mul, one_mul] at h3
    rw [h7] at h6
    exact absurd (h6.trans h3) (not_le.2 h5)

/-- C100 (defect): the geometric mean of numbers from one on whose product is `2^1025` or more is infinite, however ordinary the mean itself. -/
theorem C100_geometric_infinite (pow : X64 → X64 → X64) (δ : ℝ) (hpow : Accurate pow δ) (xs : List F64) (hn : xs.length ≤ 2 ^ 52)
    (hx : ∀ x ∈ xs, 1 ≤ x.val) (h : 2 ^ 1025 ≤ (xs.map F64.val).prod) : geometricMean pow xs = some (inf false) := by
  have hne : xs ≠ [] := by
    rintro rfl
    rw [List.map_nil, List.prod_nil] at h
    exact absurd h (not_le.2 (one_lt_pow₀ (by norm_num) (by norm_num)))
  obtain ⟨p, hp, -, hp0, -⟩ := recip (List.length_pos_iff.2 hne) (hn.trans (by norm_num))
  unfold geometricMean root
  rw [if_neg hne, product_infinite xs hn hx h, hp, hpow.infinite p hp0]

theorem rnd_tiny {q : ℚ} (h0 : 0 ≤ q) (h : q ≤ 2 ^ (-1075 : ℤ)) : rnd q = 0 := by
  have h1 : rnd (2 ^ (-1075 : ℤ)) = 0 := by decide +kernel
  exact le_antisymm (h1 ▸ rnd_mono h) (rnd_nonneg h0)

theorem product_zero (a : ℕ) (xs : List F64) (k : ℕ) (r : F64) (hr : 0 ≤ r.val) (hr1 : r.val ≤ rnd (2 ^ (-(a * k : ℤ))))
    (hx : ∀ x ∈ xs, 0 ≤ x.val ∧ x.val ≤ 2 ^ (-(a : ℤ))) :
    ∃ s : F64, xs.foldl (fun acc x => acc.mul (fin x)) (fin r) = fin s ∧ 0 ≤ s.val ∧ s.val ≤ rnd (2 ^ (-(a * (k + xs.length : ℕ) : ℤ))) := by
  induction xs generalizing k r with
  | nil => exact ⟨r, rfl, hr, by simpa using hr1⟩
  | cons x xs ih =>
    obtain ⟨hx0, hx1⟩ := hx x (by simp)
    have hle : r.val * x.val ≤ r.val := by
      have : (2 : ℚ) ^ (-(a : ℤ)) ≤ 2 ^ (0 : ℤ) := zpow_le_zpow_right₀ (by norm_num) (by omega)
      rw [zpow_zero] at this
      nlinarith
    have hp0 : 0 ≤ r.val * x.val := mul_nonneg hr hx0
    have hf : |rnd (r.val * x.val)| < 2 ^ 1024 := by
      refine (rnd_abs_le (y := r.val) r.rep ?_).trans_lt (lt_of_abs_lt r.fin)
      rw [abs_of_nonneg hp0]; exact hle
    obtain ⟨b, hb, hbv⟩ := toF64_isSome hf
    have hb1 : b.val ≤ rnd (2 ^ (-(a * (k + 1 : ℕ) : ℤ))) := by
      rw [hbv]
      by_cases hk : a * k ≤ 1074
      · have hrep : rnd ((2 : ℚ) ^ (-(a * k : ℤ))) = 2 ^ (-(a * k : ℤ)) := by
          apply rnd_rep
          have := rep_of_le 1 (-(a * k : ℤ)) (by norm_num) (by have : ((a * k : ℕ) : ℤ) ≤ 1074 := by exact_mod_cast hk
                                                               push_cast at this; linarith)
          simpa using this
        apply rnd_mono
        rw [hrep] at hr1
        calc r.val * x.val ≤ 2 ^ (-(a * k : ℤ)) * 2 ^ (-(a : ℤ)) := mul_le_mul hr1 hx1 hx0 (by positivity)
          _ = _ := by rw [← zpow_add₀ (by norm_num)]; congr 1; push_cast; ring
      · have h0 : rnd ((2 : ℚ) ^ (-(a * k : ℤ))) = 0 := by
          apply rnd_tiny (by positivity)
          apply zpow_le_zpow_right₀ (by norm_num)
          have : ((1075 : ℕ) : ℤ) ≤ ((a * k : ℕ) : ℤ) := by exact_mod_cast (by omega)
          push_cast at this; linarith
        rw [h0] at hr1
        have : r.val = 0 := le_antisymm hr1 hr
        rw [this, zero_mul, rnd_zero]
        exact rnd_nonneg (by positivity)
    obtain ⟨s, h1, h2, h3⟩ := ih (k + 1) b (by rw [hbv]; exact rnd_nonneg hp0) hb1 (fun y hy => hx y (by simp [hy]))
    refine ⟨s, ?_, h2, ?_⟩
    · rw [List.foldl_cons, Bsm.mul_some hb, h1]
    · rw [List.length_cons, show k + (xs.length + 1) = k + 1 + xs.length by omega]; exact h3

/-- C100 (defect): the geometric mean of positive numbers of at most `2^-a` each is zero as soon as there are `1075 / a` of them. -/
theorem C100_geometric_zero (pow : X64 → X64 → X64) (δ : ℝ) (hpow : Accurate pow δ) (a : ℕ) (xs : List F64) (hn : xs.length ≤ 2 ^ 52)
    (hx : ∀ x ∈ xs, 0 < x.val ∧ x.val ≤ 2 ^ (-(a : ℤ))) (h : 1075 ≤ a * xs.length) : geometricMean pow xs = some (fin F64.zero) := by
  have hne : xs ≠ [] := by rintro rfl; simp at h
  obtain ⟨p, hp, -, hp0, -⟩ := recip (List.length_pos_iff.2 hne) (hn.trans (by norm_num))
  obtain ⟨one, h1, h1v⟩ := Bsm.one_val
  obtain ⟨s, h2, h3, h4⟩ := product_zero a xs 0 one (by rw [h1v]; norm_num) (by rw [h1v]; simp [rnd_rep rep_one])
    (fun x hx' => ⟨(hx x hx').1.le, (hx x hx').2⟩)
  have h5 : rnd ((2 : ℚ) ^ (-(a * (0 + xs.length : ℕ) : ℤ))) = 0 := by
    apply rnd_tiny (by positivity)
    apply zpow_le_zpow_right₀ (by norm_num)
    have : ((1075 : ℕ) : ℤ) ≤ ((a * xs.length : ℕ) : ℤ) := by exact_mod_cast h
    push_cast at this; push_cast; linarith
  rw [h5] at h4
  have hs : s = F64.zero := F64.ext (le_antisymm h4 h3)
  have hpr : product xs = fin F64.zero := by unfold product; rw [h1, h2, hs]
  unfold geometricMean root
  rw [if_neg hne, hpr, hp, hpow.zero p hp0]

/-- A product of numbers above one half never gets below the least positive number. -/
theorem product_stuck (xs : List F64) (r : F64) (hr : 2 ^ (-1074 : ℤ) ≤ r.val) (hx : ∀ x ∈ xs, 1 / 2 < x.val ∧ x.val ≤ 1) :
    ∃ s : F64, xs.foldl (fun acc x => acc.mul (fin x)) (fin r) = fin s ∧ 2 ^ (-1074 : ℤ) ≤ s.val := by
  induction xs generalizing r with
  | nil => exact ⟨r, rfl, hr⟩
  | cons x xs ih =>
    obtain ⟨hx0, hx1⟩ := hx x (by simp)
    have hr0 : 0 < r.val := lt_of_lt_of_le (zpos _) hr
    have hp0 : 0 < r.val * x.val := by positivity
    have hf : |rnd (r.val * x.val)| < 2 ^ 1024 := by
      refine (rnd_abs_le (y := r.val) r.rep ?_).trans_lt (lt_of_abs_lt r.fin)
      rw [abs_of_nonneg hp0.le]; nlinarith
    obtain ⟨b, hb, hbv⟩ := toF64_isSome hf
    have hb1 : 2 ^ (-1074 : ℤ) ≤ b.val := by
      rw [hbv]
      -- no smaller number is as near
      have hnz : rnd (r.val * x.val) ≠ 0 := by
        intro h0
        have hrep : Rep ((2 : ℚ) ^ (-1074 : ℤ)) := by simpa using rep_of_le 1 (-1074) (by norm_num) le_rfl
        by_cases hbig : 2 ^ (-1074 : ℤ) ≤ r.val * x.val
        · have := le_rnd hrep hbig
          rw [h0] at this
          exact absurd this (not_le.2 (zpos _))
        · have h1 := rnd_nearest (r.val * x.val) hrep
          rw [h0, sub_zero, abs_of_pos hp0, abs_of_neg (by linarith [not_le.1 hbig])] at h1
          have h2 : 2 ^ (-1074 : ℤ) * (1 / 2) < r.val * x.val := mul_lt_mul' hr hx0 (by norm_num) hr0
          linarith
      obtain ⟨n, hn⟩ := rep_grid (rep_rnd (r.val * x.val))
      rw [hn]
      have hn0 : 0 ≤ rnd (r.val * x.val) := rnd_nonneg hp0.le
      have : 1 ≤ n := by
        by_contra hc
        have hc' : (n : ℚ) ≤ 0 := by exact_mod_cast (by omega : n ≤ 0)
        apply hnz
        refine le_antisymm ?_ hn0
        rw [hn]
        exact mul_nonpos_of_nonpos_of_nonneg hc' (zpos _).le
      have h1 : (1 : ℚ) ≤ n := by exact_mod_cast this
      have := mul_le_mul_of_nonneg_right h1 (zpos (-1074)).le
      rwa [one_mul] at this
    obtain ⟨s, h1, h2⟩ := ih b hb1 (fun y hy => hx y (by simp [hy]))
    exact ⟨s, by rw [List.foldl_cons, Bsm.mul_some hb, h1], h2⟩

/-- C100 (defect): for numbers between one half and one the product gets stuck on the least positive numbers and the computed geometric mean tends
to one with their number, whatever the numbers are: of 131072 or more numbers in `(0.5, 0.9]` it is above 0.99. -/
theorem C100_geometric_stuck (pow : X64 → X64 → X64) (δ : ℝ) (hδ1 : δ ≤ 2 ^ (-10 : ℤ)) (hpow : Accurate pow δ) (xs : List F64)
    (hn : 2 ^ 17 ≤ xs.length) (hn1 : xs.length ≤ 2 ^ 52) (hx : ∀ x ∈ xs, 1 / 2 < x.val ∧ x.val ≤ 9 / 10) :
    gmean xs ≤ 9 / 10 ∧ ∃ g, geometricMean pow xs = some (fin g) ∧ 99 / 100 < F64.real g := by
  have hne : xs ≠ [] := by rintro rfl; simp at hn
  have hl0 : 0 < xs.length := by omega
  have hl : (2 : ℝ) ^ 17 ≤ xs.length := by exact_mod_cast hn
  have hxr : ∀ x ∈ xs, 0 < F64.real x ∧ F64.real x ≤ 9 / 10 := by
    intro x hx'
    refine ⟨real_pos.2 (by linarith [(hx x hx').1]), ?_⟩
    have := (real_le_iff (a := x) (q := 9 / 10)).2 (hx x hx').2
    push_cast at this
    exact this
  constructor
  · have h1 : total xs ≤ (9 / 10) ^ xs.length := by
      clear hn hn1 hx hne hl0 hl
      induction xs with
      | nil => simp [total_nil]
      | cons x xs ih =>
        rw [total_cons, List.length_cons, pow_succ']
        have h0 := hxr x (by simp)
        exact mul_le_mul h0.2 (ih fun y hy => hxr y (by simp [hy])) (total_pos fun y hy => (hxr y (by simp [hy])).1).le (by norm_num)
    unfold gmean
    calc total xs ^ (1 / (xs.length : ℝ)) ≤ ((9 / 10 : ℝ) ^ xs.length) ^ (1 / (xs.length : ℝ)) :=
          rpow_le_rpow (total_pos fun y hy => (hxr y hy).1).le h1 (by positivity)
      _ = 9 / 10 := by rw [one_div]; exact pow_rpow_inv_natCast (by norm_num) (by omega)
  · obtain ⟨p, hp, hpe, hp0, hp1, hp2⟩ := recip hl0 (hn1.trans (by norm_num))
    obtain ⟨one, h1, h1v⟩ := Bsm.one_val
    obtain ⟨s, h2, h3⟩ := product_stuck xs one (by
        rw [h1v]
        have : (2 : ℚ) ^ (-1074 : ℤ) ≤ 2 ^ (0 : ℤ) := zpow_le_zpow_right₀ (by norm_num) (by norm_num)
        rwa [zpow_zero] at this) (fun x hx' => ⟨(hx x hx').1, by linarith [(hx x hx').2]⟩)
    have hs0 : 0 < s.val := lt_of_lt_of_le (zpos _) h3
    obtain ⟨y, hy, hye⟩ := hpow.finite s p hs0 hp0 hp1 (Or.inr (hp2 (by omega)))
    have hpr : product xs = fin s := by unfold product; rw [h1, h2]
    refine ⟨y, by unfold geometricMean root; rw [if_neg hne, hpr, hp, hy], ?_⟩
    have hsr : (2 : ℝ) ^ (-1074 : ℤ) ≤ F64.real s := by
      have := (Rat.cast_le (K := ℝ)).2 h3
      push_cast at this
      exact this
    have hp0' : 0 < F64.real p := real_pos.2 hp0
    have hpl2 : F64.real p * 1074 ≤ 825 / 100000 := by
      have := (abs_le.1 hpe).2
      have h4 : 1 / (xs.length : ℝ) ≤ 1 / 2 ^ 17 := by gcongr
      have h5 : ur * (1 / xs.length) ≤ 1 / 1000 * (1 / (xs.length : ℝ)) := by have := ur_le; gcongr
      have : F64.real p ≤ 1001 / 1000 * (1 / 2 ^ 17) := by linarith
      calc F64.real p * 1074 ≤ 1001 / 1000 * (1 / 2 ^ 17) * 1074 := by gcongr
        _ ≤ _ := by norm_num
    have hw : 993 / 1000 ≤ F64.real s ^ F64.real p := by
      calc (993 / 1000 : ℝ) ≤ rexp (-(825 / 100000 * (7 / 10))) := by
            have := add_one_le_exp (-(825 / 100000 * (7 / 10)) : ℝ)
            refine le_trans ?_ this
            norm_num
        _ ≤ rexp (-(F64.real p * 1074 * log 2)) := by
            apply exp_le_exp.2
            have := log_two_lt_d9
            have h6 : F64.real p * 1074 * log 2 ≤ 825 / 100000 * (7 / 10) :=
              mul_le_mul hpl2 (by linarith) (log_nonneg (by norm_num)) (by norm_num)
            linarith
        _ = ((2 : ℝ) ^ (-1074 : ℤ)) ^ F64.real p := by
            rw [rpow_def_of_pos (by positivity), log_zpow]
            congr 1
            push_cast; ring
        _ ≤ _ := rpow_le_rpow (by positivity) hsr hp0'.le
    have hδ2 : δ ≤ 1 / 1000 := hδ1.trans (by norm_num)
    have := (abs_le.1 hye).1
    generalize F64.real s ^ F64.real p = w at *
    nlinarith

end Verif.Float.Mean
