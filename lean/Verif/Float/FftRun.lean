import Verif.Float.FftLemmas

/-! Helper lemmas: the rounded roots of unity and the recursion over all levels. -/

namespace Verif.Float.Fft

open Verif.Math.Fft (splitFrom split_lengths)

theorem pi_val : pi.val = 884279719003555 / 281474976710656 := by decide +kernel

theorem pi_error : |(884279719003555 / 281474976710656 : ℝ) - Real.pi| ≤ 2 * ur := by
  have h1 := Real.pi_gt_d20
  have h2 := Real.pi_lt_d20
  unfold ur
  rw [abs_le]
  constructor <;> norm_num at h1 h2 ⊢ <;> linarith

theorem toF64_of_rep {q : ℚ} (h : Rep q) (hq : |(q : ℝ)| ≤ top) : ∃ r, toF64 q = some r ∧ (r.val : ℝ) = q := by
  obtain ⟨r, h1, h2⟩ := toF64_total hq
  exact ⟨r, h1, by rw [h2, rnd_rep h]⟩

theorem angle_error (n k : ℕ) (hn : n ≤ 2 ^ 53) (h0 : 0 < n) (hk : 2 * k ≤ n) :
    ∃ θ, angle n k = some θ ∧ |(θ.val : ℝ) - -2 * Real.pi * k / n| ≤ 11 * ur := by
  have hu := ur_pos
  have hm := mu_pos
  have h1 := ur_le
  have hmu := mu_le
  have big := top_ge
  have big' : (2:ℝ) ^ 60 ≤ top := pow_le_pow_right₀ (by norm_num) (by norm_num)
  obtain ⟨a, a1, a2⟩ := toF64_of_rep (q := -2) ⟨-1, 1, by norm_num, by norm_num, by norm_num⟩ (by
    push_cast; rw [abs_neg, abs_of_pos (by norm_num)]; linarith)
  obtain ⟨b, b1, b2⟩ := toF64_of_rep (q := a.val * pi.val) (by
      have : a.val = -2 := by exact_mod_cast a2
      rw [this, pi_val]
      exact ⟨-884279719003555, -47, by norm_num, by norm_num, by norm_num⟩) (by
    push_cast; rw [a2, pi_val]; push_cast; norm_num; linarith)
  push_cast at b2
  rw [a2, pi_val] at b2
  push_cast at b2
  set P : ℝ := 884279719003555 / 281474976710656 with hP
  clear_value P
  have hP0 : 3 ≤ P := by rw [hP]; norm_num
  have hP1 : P ≤ 63 / 20 := by rw [hP]; norm_num
  have hk53 : k ≤ 2 ^ 53 := by omega
  obtain ⟨kf, k1, k2⟩ := ofNat_small k hk53
  obtain ⟨nf, n1, n2⟩ := ofNat_small n hn
  have hn' : (1:ℝ) ≤ n := by exact_mod_cast h0
  have hnr : (n:ℝ) ≤ 2 ^ 53 := by exact_mod_cast hn
  have hkr : 2 * (k:ℝ) ≤ n := by exact_mod_cast hk
  have hk0 : (0:ℝ) ≤ k := by positivity
  have hq1 : ((b.val * kf.val : ℚ) : ℝ) = -(P * (2 * k)) := by
    push_cast; rw [b2, k2]; push_cast; ring
  have hq1' : |((b.val * kf.val : ℚ) : ℝ)| = P * (2 * k) := by
    rw [hq1, abs_neg, abs_of_nonneg (by positivity)]
  have hPn : P * (2 * k) ≤ 63 / 20 * n := mul_le_mul hP1 hkr (by positivity) (by norm_num)
  obtain ⟨c, c1, c2⟩ := toF64_total (x := b.val * kf.val) (by
    rw [hq1']
    refine hPn.trans (le_trans ?_ big')
    have : (63 / 20 : ℝ) * 2 ^ 53 ≤ 2 ^ 60 := by norm_num
    linarith)
  have c3 := rnd_real (b.val * kf.val)
  rw [← c2, hq1', hq1] at c3
  have c4 : |(c.val : ℝ)| ≤ 4 * n := by
    have := abs_sub_abs_le_abs_sub (c.val : ℝ) (-(P * (2 * k)))
    rw [abs_neg, abs_of_nonneg (by positivity : 0 ≤ P * (2 * k))] at this
    have h3 : ur * (P * (2 * k)) ≤ 1 / 1000 * (63 / 20 * n) := mul_le_mul h1 hPn (by positivity) (by norm_num)
    linarith
  have hnv : nf.val ≠ 0 := by rw [n2]; exact_mod_cast h0.ne'
  have hq2 : ((c.val / nf.val : ℚ) : ℝ) = (c.val : ℝ) / n := by push_cast; rw [n2]; push_cast; rfl
  have npos : (0:ℝ) < n := by linarith
  have hq2' : |(c.val : ℝ) / n| ≤ 4 := by
    rw [abs_div, abs_of_pos npos, div_le_iff₀ npos]; exact c4
  obtain ⟨d, d1, d2⟩ := toF64_total (x := c.val / nf.val) (by rw [hq2]; linarith)
  have d3 := rnd_real (c.val / nf.val)
  rw [← d2, hq2] at d3
  refine ⟨d, ?_, ?_⟩
  · have b1' : a.mul pi = some b := b1
    have c1' : b.mul kf = some c := c1
    have d1' : c.div nf = some d := by
      unfold F64.div
      rw [if_neg hnv]
      exact d1
    simp [angle, a1, b1', k1, n1, c1', d1']
  · have e1 : |(c.val : ℝ) / n - -(P * (2 * k)) / n| ≤ 4 * ur := by
      rw [← sub_div, abs_div, abs_of_pos npos, div_le_iff₀ npos]
      refine c3.trans ?_
      have h3 : ur * (P * (2 * k)) ≤ ur * (63 / 20 * n) := mul_le_mul_of_nonneg_left hPn hu.le
      have h4 : ur * 1 ≤ ur * n := mul_le_mul_of_nonneg_left hn' hu.le
      have h5 : mu ≤ 1 / 2 * ur := by
        unfold mu ur
        rw [show (-1075 : ℤ) = -53 + -1022 by norm_num, zpow_add₀ (by norm_num), mul_comm]
        refine mul_le_mul_of_nonneg_right ?_ (by positivity)
        rw [show (1 / 2 : ℝ) = 2 ^ (-1 : ℤ) by norm_num]
        exact zpow_le_zpow_right₀ (by norm_num) (by norm_num)
      linarith
    have e2 : |-(P * (2 * k)) / n - -2 * Real.pi * k / n| ≤ 2 * ur := by
      rw [show -(P * (2 * k)) / n - -2 * Real.pi * k / n = -((P - Real.pi) * (2 * k / n)) by ring, abs_neg, abs_mul]
      have h3 : |2 * (k:ℝ) / n| ≤ 1 := by
        rw [abs_of_nonneg (by positivity), div_le_one npos]; exact hkr
      calc |P - Real.pi| * |2 * (k:ℝ) / n| ≤ 2 * ur * 1 := mul_le_mul (by rw [hP]; exact pi_error) h3 (abs_nonneg _) (by linarith)
        _ = 2 * ur := mul_one _
    have e3 : |(d.val : ℝ) - c.val / n| ≤ 4 * ur + mu := by
      refine d3.trans ?_
      have := mul_le_mul_of_nonneg_left hq2' hu.le
      linarith
    have e4 : (d.val : ℝ) - -2 * Real.pi * k / n =
        (d.val - c.val / n) + (c.val / n - -(P * (2 * k)) / n) + (-(P * (2 * k)) / n - -2 * Real.pi * k / n) := by ring
    rw [e4]
    refine (abs_add_le _ _).trans ?_
    have e5 := abs_add_le ((d.val : ℝ) - c.val / n) (c.val / n - -(P * (2 * k)) / n)
    linarith

theorem exp_lipschitz (a b : ℝ) : ‖Complex.exp (a * Complex.I) - Complex.exp (b * Complex.I)‖ ≤ |a - b| := by
  have h : Complex.exp (a * Complex.I) - Complex.exp (b * Complex.I) =
      Complex.exp (b * Complex.I) * (Complex.exp (Complex.I * ((a - b : ℝ) : ℂ)) - 1) := by
    rw [mul_sub, mul_one, ← Complex.exp_add]
    congr 2
    push_cast
    ring
  rw [h, norm_mul, Complex.norm_exp_ofReal_mul_I, one_mul]
  exact Real.norm_exp_I_mul_ofReal_sub_one_le

theorem twiddle_exact (n k : ℕ) : Verif.Math.Fft.twiddle n k = Complex.exp (((-2 * Real.pi * k / n : ℝ) : ℂ) * Complex.I) := by
  unfold Verif.Math.Fft.twiddle
  congr 1
  apply Complex.ext <;> simp

theorem twiddle_error {T : Trig} {δ : ℝ} (hT : T.Accurate δ) (n k : ℕ) (hn : n ≤ 2 ^ 53) (h0 : 0 < n) (hk : 2 * k ≤ n) :
    ∃ w, twiddle T n k = some w ∧ ‖w.toC - Verif.Math.Fft.twiddle n k‖ ≤ 2 * δ + 11 * ur := by
  obtain ⟨θ, t1, t2⟩ := angle_error n k hn h0 hk
  have hu := ur_pos
  have h1 := ur_le
  have npos : (0:ℝ) < n := by exact_mod_cast h0
  have hkr : 2 * (k:ℝ) ≤ n := by exact_mod_cast hk
  have b : |-2 * Real.pi * k / n| ≤ Real.pi := by
    rw [show -2 * Real.pi * k / n = -(Real.pi * (2 * k / n)) by ring, abs_neg, abs_of_nonneg (by positivity)]
    have : 2 * (k:ℝ) / n ≤ 1 := by rw [div_le_one npos]; exact hkr
    nlinarith [Real.pi_pos]
  have hθ : |(θ.val : ℝ)| ≤ 4 := by
    have := abs_sub_abs_le_abs_sub (θ.val : ℝ) (-2 * Real.pi * k / n)
    have := Real.pi_lt_d2
    linarith
  obtain ⟨c1, c2⟩ := hT θ hθ
  refine ⟨⟨T.cos θ, T.sin θ⟩, by simp [twiddle, t1], ?_⟩
  rw [twiddle_exact]
  have e : C64.toC ⟨T.cos θ, T.sin θ⟩ - Complex.exp (((-2 * Real.pi * k / n : ℝ) : ℂ) * Complex.I) =
      (C64.toC ⟨T.cos θ, T.sin θ⟩ - Complex.exp (((θ.val : ℝ) : ℂ) * Complex.I)) +
        (Complex.exp (((θ.val : ℝ) : ℂ) * Complex.I) - Complex.exp (((-2 * Real.pi * k / n : ℝ) : ℂ) * Complex.I)) := by ring
  rw [e]
  refine (norm_add_le _ _).trans (add_le_add ?_ ((exp_lipschitz _ _).trans t2))
  refine (Complex.norm_le_abs_re_add_abs_im _).trans ?_
  rw [Complex.sub_re, Complex.sub_im, Complex.exp_ofReal_mul_I_re, Complex.exp_ofReal_mul_I_im]
  simp only [C64.toC]
  linarith

theorem split_map {α β : Type} (f : α → β) (i : ℕ) (l : List α) :
    splitFrom i (l.map f) = ((splitFrom i l).1.map f, (splitFrom i l).2.map f) := by
  induction l generalizing i with
  | nil => simp [splitFrom]
  | cons a l ih =>
    simp only [List.map_cons, splitFrom, ih]
    split <;> simp

theorem split_sum {R : Type} [AddCommMonoid R] (f : C64 → R) (i : ℕ) (l : List C64) :
    ((splitFrom i l).1.map f).sum + ((splitFrom i l).2.map f).sum = (l.map f).sum := by
  induction l generalizing i with
  | nil => simp [splitFrom]
  | cons a l ih =>
    have := ih (i + 1)
    simp only [splitFrom, List.map_cons, List.sum_cons]
    rw [← this]
    split <;> simp [_root_.add_assoc, _root_.add_left_comm]

theorem mapM_range {α : Type} (n : ℕ) (f : ℕ → Option α) (h : ∀ k < n, (f k).isSome) :
    ∃ l, (List.range n).mapM f = some l ∧ l.length = n ∧ ∀ k < n, l[k]? = f k := by
  induction n with
  | zero => exact ⟨[], by simp⟩
  | succ n ih =>
    obtain ⟨l, h1, h2, h3⟩ := ih fun k hk => h k (by omega)
    obtain ⟨b, hb⟩ := Option.isSome_iff_exists.1 (h n (by omega))
    refine ⟨l ++ [b], by simp [List.range_succ, List.mapM_append, h1, hb], by simp [h2], fun k hk => ?_⟩
    by_cases hkn : k < n
    · rw [List.getElem?_append_left (by omega), h3 k hkn]
    · have : k = n := by omega
      subst this
      rw [List.getElem?_append_right (by omega), h2, hb]
      simp

/-- The recursion over all levels. -/
theorem run {T : Trig} {δ : ℝ} (hδ0 : 0 ≤ δ) (hδ : δ ≤ 1 / 20) (hT : T.Accurate δ) (m : ℕ) (hm : m ≤ 53) (x : List C64)
    (hx : x.length = 2 ^ m) (hS : (5 / 4) ^ m * total x + 3 ^ m * (4 * mu) ≤ top / 32) :
    ∃ y, calculation T x = some y ∧ y.length = 2 ^ m ∧ ∀ k < 2 ^ m, ∃ z, y[k]? = some z ∧
      ‖(Verif.Math.Fft.calculation Verif.Math.Fft.twiddle (x.map C64.toC)).getD k 0‖ ≤ total x ∧
      ‖z.toC - (Verif.Math.Fft.calculation Verif.Math.Fft.twiddle (x.map C64.toC)).getD k 0‖ ≤
        ((1 + (2 * δ + 20 * ur)) ^ m - 1) * total x + (3 ^ m - 1) * (4 * mu) := by
  have hu := ur_pos
  have hmu := mu_pos
  have h1 := ur_le
  induction m generalizing x with
  | zero =>
    rw [pow_zero] at hx
    obtain ⟨z, rfl⟩ := List.length_eq_one_iff.1 hx
    refine ⟨[z], by rw [calculation, if_pos (by simp)], by simp, fun k hk => ?_⟩
    have : k = 0 := by simpa using hk
    subst this
    rw [Verif.Math.Fft.calculation, if_pos (by simp)]
    exact ⟨z, by simp, by simp [total], by simp⟩
  | succ m ih =>
    have hM : 0 < 2 ^ m := by positivity
    have hx2 : x.length = 2 * 2 ^ m := by rw [hx]; ring
    obtain ⟨l1, l2, ce⟩ := Verif.Math.Fft.calculation_two Verif.Math.Fft.twiddle (x.map C64.toC) (2 ^ m) hM (by simpa using hx2)
    rw [split_map] at l1 l2 ce
    simp only [List.length_map] at l1 l2
    have tot : total (splitFrom 0 x).1 + total (splitFrom 0 x).2 = total x := split_sum _ 0 x
    have t1 : 0 ≤ total (splitFrom 0 x).1 := List.sum_nonneg (by simp)
    have t2 : 0 ≤ total (splitFrom 0 x).2 := List.sum_nonneg (by simp)
    set Se := total (splitFrom 0 x).1
    set So := total (splitFrom 0 x).2
    have p54 : (0:ℝ) < (5 / 4) ^ m := by positivity
    have p3 : (1:ℝ) ≤ 3 ^ m := one_le_pow₀ (by norm_num)
    rw [pow_succ, pow_succ, ← tot] at hS
    have hS1 : (5 / 4 : ℝ) ^ m * (Se + So) + 3 ^ m * (4 * mu) ≤ top / 32 := by
      have := mul_nonneg p54.le (add_nonneg t1 t2)
      have := mul_pos (by linarith : (0:ℝ) < 3 ^ m) hmu
      nlinarith
    have q1 := mul_nonneg p54.le t1
    have q2 := mul_nonneg p54.le t2
    obtain ⟨ye, e1, e2, e3⟩ := ih (by omega) _ l1 (by show _ * Se + _ ≤ _; linarith)
    obtain ⟨yo, o1, o2, o3⟩ := ih (by omega) _ l2 (by show _ * So + _ ≤ _; linarith)
    set η := 2 * δ + 20 * ur with hη
    have hη0 : 0 ≤ η := by linarith
    have hg : 0 ≤ (1 + η) ^ m - 1 := by
      have := one_le_pow₀ (by linarith : 1 ≤ 1 + η) (n := m)
      linarith
    have hg2 : (1 + η) ^ m ≤ (5 / 4) ^ m := pow_le_pow_left₀ (by linarith) (by linarith) m
    have key : ∀ k < 2 ^ m, ∃ e o w t s d, ye[k]? = some e ∧ yo[k]? = some o ∧ twiddle T (2 * 2 ^ m) k = some w ∧
        w.mul o = some t ∧ e.add t = some s ∧ e.sub t = some d ∧
        (let E := (Verif.Math.Fft.calculation Verif.Math.Fft.twiddle ((splitFrom 0 x).1.map C64.toC)).getD k 0
         let O := (Verif.Math.Fft.calculation Verif.Math.Fft.twiddle ((splitFrom 0 x).2.map C64.toC)).getD k 0
         let W := Verif.Math.Fft.twiddle (2 * 2 ^ m) k
         ‖E‖ ≤ Se ∧ ‖W * O‖ ≤ So ∧
         ‖s.toC - (E + W * O)‖ ≤ ((1 + η) ^ (m + 1) - 1) * (Se + So) + (3 ^ (m + 1) - 1) * (4 * mu) ∧
         ‖d.toC - (E - W * O)‖ ≤ ((1 + η) ^ (m + 1) - 1) * (Se + So) + (3 ^ (m + 1) - 1) * (4 * mu)) := by
      intro k hk
      obtain ⟨e, f1, f2, f3⟩ := e3 k hk
      obtain ⟨o, g1, g2, g3⟩ := o3 k hk
      have hpow : 2 * 2 ^ m ≤ 2 ^ 53 := by
        rw [← pow_succ']
        exact Nat.pow_le_pow_right (by norm_num) hm
      obtain ⟨w, w1, w2⟩ := twiddle_error hT (2 * 2 ^ m) k hpow (by omega) (by omega)
      have hW : ‖Verif.Math.Fft.twiddle (2 * 2 ^ m) k‖ = 1 := by
        rw [twiddle_exact, Complex.norm_exp_ofReal_mul_I]
      obtain ⟨t, s, d, b1, b2, b3, b4, b5⟩ := butterfly (τ := 2 * δ + 11 * ur) (g := (1 + η) ^ m - 1)
        (a := (3 ^ m - 1) * (4 * mu)) (Se := Se) (So := So) (by linarith) (by linarith) hW w2 g2 f2 g3 f3 hg
        (mul_nonneg (by linarith) (by linarith)) (by
          have := mul_le_mul_of_nonneg_right hg2 (add_nonneg t1 t2)
          have hh : (1 + ((1 + η) ^ m - 1)) * (Se + So) = (1 + η) ^ m * (Se + So) := by ring
          rw [hh]
          have : (3 ^ m - 1) * (4 * mu) ≤ 3 ^ m * (4 * mu) := mul_le_mul_of_nonneg_right (by linarith) (by linarith)
          linarith)
      have cc : ((1 + (2 * δ + 11 * ur + 9 * ur)) * (1 + ((1 + η) ^ m - 1)) - 1) * (Se + So) +
          (3 * ((3 ^ m - 1) * (4 * mu)) + 7 * mu) ≤ ((1 + η) ^ (m + 1) - 1) * (Se + So) + (3 ^ (m + 1) - 1) * (4 * mu) := by
        rw [show 2 * δ + 11 * ur + 9 * ur = η by rw [hη]; ring, pow_succ, pow_succ]
        have : (1 + η) * (1 + ((1 + η) ^ m - 1)) = (1 + η) ^ m * (1 + η) := by ring
        rw [this]
        linarith
      refine ⟨e, o, w, t, s, d, f1, g1, w1, b1, b2, b3, f2, ?_, b4.trans cc, b5.trans cc⟩
      rw [norm_mul, hW, one_mul]
      exact g2
    obtain ⟨lo, lo1, lo2, lo3⟩ := mapM_range (2 ^ m)
      (fun k => do (← ye[k]?).add (← (← twiddle T (2 * 2 ^ m) k).mul (← yo[k]?))) (fun k hk => by
        obtain ⟨e, o, w, t, s, d, a1, a2, a3, a4, a5, a6, _⟩ := key k hk
        simp [a1, a2, a3, a4, a5])
    obtain ⟨hi, hi1, hi2, hi3⟩ := mapM_range (2 ^ m)
      (fun k => do (← ye[k]?).sub (← (← twiddle T (2 * 2 ^ m) k).mul (← yo[k]?))) (fun k hk => by
        obtain ⟨e, o, w, t, s, d, a1, a2, a3, a4, a5, a6, _⟩ := key k hk
        simp [a1, a2, a3, a4, a6])
    refine ⟨lo ++ hi, ?_, by simp [lo2, hi2]; ring, fun k hk => ?_⟩
    · rw [calculation, if_neg (by omega)]
      simp only [hx2, show 2 * 2 ^ m / 2 = 2 ^ m by omega, e1, o1, Option.bind_eq_bind, Option.bind_some]
      simp only [Option.bind_eq_bind] at lo1 hi1
      rw [lo1, hi1]
      simp only [Option.bind_some, Option.pure_def]
      rw [List.drop_of_length_le (by omega)]
      simp
    · rw [← tot, ce]
      rw [pow_succ] at hk
      by_cases hk' : k < 2 ^ m
      · obtain ⟨e, o, w, t, s, d, a1, a2, a3, a4, a5, a6, a7, a8, a9, a10⟩ := key k hk'
        refine ⟨s, ?_, ?_⟩
        · rw [List.getElem?_append_left (by omega), lo3 k hk']
          simp [a1, a2, a3, a4, a5]
        · rw [List.getD_append _ _ _ _ (by simpa using hk'), List.getD_eq_getElem _ _ (by simpa using hk'), List.getElem_map,
            List.getElem_range]
          exact ⟨(norm_add_le _ _).trans (add_le_add a7 a8), a9⟩
      · obtain ⟨j, rfl⟩ : ∃ j, k = 2 ^ m + j := ⟨k - 2 ^ m, by omega⟩
        have hj : j < 2 ^ m := by omega
        obtain ⟨e, o, w, t, s, d, a1, a2, a3, a4, a5, a6, a7, a8, a9, a10⟩ := key j hj
        refine ⟨d, ?_, ?_⟩
        · rw [List.getElem?_append_right (by omega), lo2, Nat.add_sub_cancel_left, hi3 j hj]
          simp [a1, a2, a3, a4, a6]
        · rw [List.getD_append_right _ _ _ _ (by simp), List.length_map, List.length_range, Nat.add_sub_cancel_left,
            List.getD_eq_getElem _ _ (by simpa using hj), List.getElem_map, List.getElem_range]
          exact ⟨(norm_sub_le _ _).trans (add_le_add a7 a8), a10⟩

end Verif.Float.Fft
