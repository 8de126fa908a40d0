import Verif.Float.FftRun

/-! # C95: the complex Fourier transform in double precision -/

namespace Verif.Float.Fft

open Verif.Math.Fft (splitFrom split_lengths dft)
open Finset (range)

/-- Cosines and sines this accurate exist: round a good enough rational approximation. -/
theorem exists_accurate : ∃ T : Trig, T.Accurate (2 ^ (-51 : ℤ)) ∧ T.ExactAtZero := by
  have near : ∀ r : ℝ, |r| ≤ 1 → ∃ f : F64, |(f.val : ℝ) - r| ≤ 2 ^ (-51 : ℤ) := by
    intro r hr
    obtain ⟨q, q1, q2⟩ := exists_rat_btwn (show r - ur < r + ur by linarith [ur_pos])
    have hu := ur_pos
    have h1 := ur_le
    have hq : |(q : ℝ) - r| ≤ ur := abs_le.2 ⟨by linarith, by linarith⟩
    have hq' : |(q : ℝ)| ≤ 1 + ur := by
      have := abs_sub_abs_le_abs_sub (q : ℝ) r
      linarith
    obtain ⟨f, _, f2⟩ := toF64_total (x := q) (by linarith [top_ge])
    refine ⟨f, ?_⟩
    have := rnd_real q
    rw [← f2] at this
    have h3 := abs_sub_le (f.val : ℝ) q r
    have h4 : ur * |(q : ℝ)| ≤ ur * 2 := mul_le_mul_of_nonneg_left (by linarith) hu.le
    have h5 : (2:ℝ) ^ (-51 : ℤ) = 4 * ur := by unfold ur; norm_num
    linarith [mu_le]
  choose f hf using near
  refine ⟨⟨fun a => if a.val = 0 then (toF64 1).getD F64.zero else f (Real.cos (a.val : ℝ)) (Real.abs_cos_le_one _),
    fun a => if a.val = 0 then F64.zero else f (Real.sin (a.val : ℝ)) (Real.abs_sin_le_one _)⟩, fun a _ => ?_, ?_⟩
  · by_cases h : a.val = 0
    · simp only [h, if_true]
      have h1 : ((toF64 1).getD F64.zero).val = 1 := by decide +kernel
      rw [h1]
      simp [F64.zero]
    · simp only [h, if_false]
      exact ⟨hf _ _, hf _ _⟩
  · have h0 : F64.zero.val = 0 := rfl
    have h1 : ((toF64 1).getD F64.zero).val = 1 := by decide +kernel
    exact ⟨by simp [h0, h1], by simp [h0]⟩

/-- C95: with a cosine and a sine that are off by at most `δ`, the transform of `2^m` numbers whose absolute values sum up to at
most `2^1000` exists, has the same length, and entry `k` differs from the discrete Fourier transform
`∑ x_j exp (-2πi jk / 2^m)` by at most `((1 + 2δ + 2^-48)^m - 1) ∑ |x_j|` and an underflow of `3^m 2^-1073`. -/
theorem C95_fft_error (T : Trig) (δ : ℝ) (hδ0 : 0 ≤ δ) (hδ : δ ≤ 1 / 20) (hT : T.Accurate δ) (m : ℕ) (hm : m ≤ 53) (x : List C64)
    (hx : x.length = 2 ^ m) (hS : total x ≤ 2 ^ 1000) :
    ∃ y, fftComplex T x = some y ∧ y.length = x.length ∧ ∀ (k : ℕ) (z : C64), y[k]? = some z →
      ‖z.toC - ∑ j ∈ range (2 ^ m), (x.map C64.toC).getD j 0 * Complex.exp (-2 * Real.pi * Complex.I * j * k / 2 ^ m)‖ ≤
        ((1 + (2 * δ + 2 ^ (-48 : ℤ))) ^ m - 1) * total x + 3 ^ m * 2 ^ (-1073 : ℤ) := by
  have hu := ur_pos
  have hmu := mu_pos
  have h1 := ur_le
  have ht : 0 ≤ total x := List.sum_nonneg (by simp)
  have hmu4 : 4 * mu = 2 ^ (-1073 : ℤ) := by
    unfold mu
    rw [show (-1073 : ℤ) = 2 + -1075 by norm_num, zpow_add₀ (by norm_num : (2:ℝ) ≠ 0)]
    norm_num
  have htop : (2:ℝ) ^ 18 * 2 ^ 1000 = top / 32 := by
    unfold top
    rw [show (1023:ℕ) = 5 + (18 + 1000) by norm_num, pow_add 2 5, pow_add 2 18]
    generalize (2:ℝ) ^ 1000 = P
    norm_num
  have h54 : (5 / 4 : ℝ) ^ m ≤ 2 ^ 18 - 1 := by
    refine (pow_le_pow_right₀ (by norm_num) hm).trans ?_
    norm_num
  have h3 : (3:ℝ) ^ m * (4 * mu) ≤ 2 ^ 1000 := by
    have a1 : (3:ℝ) ^ m ≤ 3 ^ 53 := pow_le_pow_right₀ (by norm_num) hm
    have a2 : 4 * mu ≤ 1 := by linarith [mu_le]
    have a3 : (3:ℝ) ^ 53 ≤ 2 ^ 1000 := by
      refine le_trans (b := 2 ^ 100) (by norm_num) (pow_le_pow_right₀ (by norm_num) (by norm_num))
    calc (3:ℝ) ^ m * (4 * mu) ≤ 3 ^ 53 * 1 := mul_le_mul a1 a2 (by linarith) (by positivity)
      _ ≤ 2 ^ 1000 := by rw [mul_one]; exact a3
  obtain ⟨y, y1, y2, y3⟩ := run hδ0 hδ hT m hm x hx (by
    rw [← htop]
    have : (5 / 4 : ℝ) ^ m * total x ≤ (2 ^ 18 - 1) * 2 ^ 1000 := mul_le_mul h54 hS ht (by norm_num)
    have e : ((2:ℝ) ^ 18 - 1) * 2 ^ 1000 = 2 ^ 18 * 2 ^ 1000 - 2 ^ 1000 := by rw [sub_mul, one_mul]
    rw [e] at this
    generalize (2:ℝ) ^ 18 * 2 ^ 1000 = A at *
    generalize (2:ℝ) ^ 1000 = B at *
    linarith)
  refine ⟨y, ?_, by rw [y2, hx], fun k z hz => ?_⟩
  · unfold fftComplex
    rw [if_pos (by rw [hx]; exact Verif.Math.Fft.valid_pow m), y1]
  · obtain ⟨hk, _⟩ := List.getElem?_eq_some_iff.1 hz
    rw [y2] at hk
    obtain ⟨z', z1, _, z2⟩ := y3 k hk
    rw [hz] at z1
    cases z1
    rw [Verif.Math.Fft.calculation_dft m _ (by simpa using hx) k hk] at z2
    unfold dft at z2
    rw [List.length_map, hx] at z2
    push_cast at z2
    refine z2.trans (add_le_add ?_ ?_)
    · refine mul_le_mul_of_nonneg_right ?_ ht
      have : 20 * ur ≤ 2 ^ (-48 : ℤ) := by unfold ur; norm_num
      have := pow_le_pow_left₀ (by linarith) (by linarith : 1 + (2 * δ + 20 * ur) ≤ 1 + (2 * δ + 2 ^ (-48 : ℤ))) m
      linarith
    · rw [← hmu4]
      exact mul_le_mul_of_nonneg_right (by linarith) (by linarith)

/-- C95: with a cosine and a sine good to `2^-51`, entry `k` is off by at most `m * 2^-46` of the sum of the absolute values of the
data, plus `2^-980`. -/
theorem C95_fft_relative (T : Trig) (hT : T.Accurate (2 ^ (-51 : ℤ))) (m : ℕ) (hm : m ≤ 53) (x : List C64)
    (hx : x.length = 2 ^ m) (hS : total x ≤ 2 ^ 1000) :
    ∃ y, fftComplex T x = some y ∧ y.length = x.length ∧ ∀ (k : ℕ) (z : C64), y[k]? = some z →
      ‖z.toC - ∑ j ∈ range (2 ^ m), (x.map C64.toC).getD j 0 * Complex.exp (-2 * Real.pi * Complex.I * j * k / 2 ^ m)‖ ≤
        m * 2 ^ (-46 : ℤ) * total x + 2 ^ (-980 : ℤ) := by
  obtain ⟨y, y1, y2, y3⟩ := C95_fft_error T (2 ^ (-51 : ℤ)) (by positivity) (by norm_num) hT m hm x hx hS
  refine ⟨y, y1, y2, fun k z hz => (y3 k z hz).trans (add_le_add ?_ ?_)⟩
  · refine mul_le_mul_of_nonneg_right ?_ (List.sum_nonneg (by simp))
    have step : ∀ j : ℕ, j ≤ 53 → (1 + (2 * (2:ℝ) ^ (-51 : ℤ) + 2 ^ (-48 : ℤ))) ^ j ≤ 1 + j * 2 ^ (-46 : ℤ) := by
      intro j
      induction j with
      | zero => intro _; simp
      | succ j ih =>
        intro hj
        rw [pow_succ]
        have hj' : (j:ℝ) ≤ 53 := by exact_mod_cast (by omega : j ≤ 53)
        refine (mul_le_mul_of_nonneg_right (ih (by omega)) (by positivity)).trans ?_
        push_cast
        norm_num
        linarith
    linarith [step m hm]
  · have a1 : (3:ℝ) ^ m ≤ 3 ^ 53 := pow_le_pow_right₀ (by norm_num) hm
    have a2 : (3:ℝ) ^ 53 ≤ 2 ^ (93 : ℤ) := by norm_num
    calc (3:ℝ) ^ m * 2 ^ (-1073 : ℤ) ≤ 2 ^ (93 : ℤ) * 2 ^ (-1073 : ℤ) :=
          mul_le_mul_of_nonneg_right (a1.trans a2) (by positivity)
      _ = 2 ^ (-980 : ℤ) := by rw [← zpow_add₀ (by norm_num)]; norm_num

/-! ## Whole numbers -/

theorem angle_zero (n : ℕ) (hn : n ≤ 2 ^ 53) (h0 : 0 < n) : angle n 0 = some F64.zero := by
  obtain ⟨a, a1, a2⟩ := toF64_of_rep (q := -2) ⟨-1, 1, by norm_num, by norm_num, by norm_num⟩ (by
    push_cast; rw [abs_neg, abs_of_pos (by norm_num)]; linarith [top_ge])
  have ha : a.val = -2 := by exact_mod_cast a2
  obtain ⟨b, b1, b2⟩ := toF64_of_rep (q := a.val * pi.val) (by
      rw [ha, pi_val]
      exact ⟨-884279719003555, -47, by norm_num, by norm_num, by norm_num⟩) (by
    push_cast; rw [a2, pi_val]; push_cast; norm_num; linarith [top_ge])
  obtain ⟨z, z1, z2⟩ := ofNat_small 0 (by norm_num)
  obtain ⟨nf, n1, n2⟩ := ofNat_small n hn
  have hz : z = F64.zero := F64.ext (by rw [z2]; rfl)
  have b1' : a.mul pi = some b := b1
  have c1 : b.mul z = some F64.zero := by
    have := toF64_val F64.zero
    unfold F64.mul
    rw [z2, Nat.cast_zero, mul_zero]
    exact this
  have d1 : F64.zero.div nf = some F64.zero := by
    have hnv : nf.val ≠ 0 := by rw [n2]; exact_mod_cast h0.ne'
    have := toF64_val F64.zero
    unfold F64.div
    rw [if_neg hnv, show F64.zero.val = 0 from rfl, zero_div]
    exact this
  simp [angle, a1, b1', z1, n1, c1, d1]

theorem mul_one_root {T : Trig} (hT : T.ExactAtZero) (o : C64) : (⟨T.cos F64.zero, T.sin F64.zero⟩ : C64).mul o = some o := by
  obtain ⟨h1, h2⟩ := hT
  have e1 : ∀ f : F64, (T.cos F64.zero).mul f = some f := fun f => by
    unfold F64.mul; rw [h1, one_mul]; exact toF64_val f
  have e2 : ∀ f : F64, (T.sin F64.zero).mul f = some F64.zero := fun f => by
    unfold F64.mul; rw [h2, zero_mul]; exact toF64_val F64.zero
  have e3 : ∀ f : F64, f.sub F64.zero = some f := fun f => by
    unfold F64.sub; rw [show F64.zero.val = 0 from rfl, sub_zero]; exact toF64_val f
  have e4 : ∀ f : F64, f.add F64.zero = some f := fun f => by
    unfold F64.add; rw [show F64.zero.val = 0 from rfl, _root_.add_zero]; exact toF64_val f
  simp [C64.mul, e1, e2, e3, e4]

theorem add_whole {a b s : F64} (ha : ∃ n : ℤ, a.val = n) (hb : ∃ n : ℤ, b.val = n) (h : |a.val| + |b.val| ≤ 2 ^ 53)
    (hs : a.add b = some s) : s.val = a.val + b.val := by
  obtain ⟨p, hp⟩ := ha
  obtain ⟨q, hq⟩ := hb
  rw [toF64_some hs]
  apply rnd_rep
  have := rep_of_le (p + q) 0 (by
    have h' : |(p:ℚ)| + |(q:ℚ)| ≤ 2 ^ 53 := by rw [← hp, ← hq]; exact h
    have h'' : |p| + |q| ≤ 2 ^ 53 := by exact_mod_cast h'
    exact (abs_add_le p q).trans h'') (by norm_num)
  rw [zpow_zero, mul_one] at this
  push_cast at this
  rw [hp, hq]
  exact this

theorem sub_whole {a b s : F64} (ha : ∃ n : ℤ, a.val = n) (hb : ∃ n : ℤ, b.val = n) (h : |a.val| + |b.val| ≤ 2 ^ 53)
    (hs : a.sub b = some s) : s.val = a.val - b.val := by
  obtain ⟨p, hp⟩ := ha
  obtain ⟨q, hq⟩ := hb
  rw [toF64_some hs]
  apply rnd_rep
  have := rep_of_le (p - q) 0 (by
    have h' : |(p:ℚ)| + |(q:ℚ)| ≤ 2 ^ 53 := by rw [← hp, ← hq]; exact h
    have h'' : |p| + |q| ≤ 2 ^ 53 := by exact_mod_cast h'
    exact (abs_sub p q).trans h'') (by norm_num)
  rw [zpow_zero, mul_one] at this
  push_cast at this
  rw [hp, hq]
  exact this

theorem mapM_get {α β : Type} (f : α → Option β) {l : List α} {r : List β} (h : l.mapM f = some r) :
    r.length = l.length ∧ ∀ (i : ℕ) (a : α), l[i]? = some a → ∃ b, f a = some b ∧ r[i]? = some b := by
  induction l generalizing r with
  | nil => simp at h; subst h; simp
  | cons x xs ih =>
    rw [List.mapM_cons] at h
    obtain ⟨y, hy, h⟩ := Option.bind_eq_some_iff.1 h
    obtain ⟨ys, hys, h⟩ := Option.bind_eq_some_iff.1 h
    cases h
    obtain ⟨h1, h2⟩ := ih hys
    refine ⟨by simp [h1], fun i a hi => ?_⟩
    cases i with
    | zero => simp at hi; subst hi; exact ⟨y, hy, by simp⟩
    | succ i => exact h2 i a (by simpa using hi)

/-- The first butterfly of a level. -/
theorem level {T : Trig} (hT : T.ExactAtZero) {m : ℕ} (hm : m + 1 ≤ 53) {x y : List C64} (hx : x.length = 2 ^ (m + 1))
    (h : calculation T x = some y) :
    ∃ ye yo e o s d, calculation T (splitFrom 0 x).1 = some ye ∧ calculation T (splitFrom 0 x).2 = some yo ∧ ye[0]? = some e ∧
      yo[0]? = some o ∧ e.add o = some s ∧ e.sub o = some d ∧ y[0]? = some s ∧ y[2 ^ m]? = some d := by
  have hM : 0 < 2 ^ m := by positivity
  have hx2 : x.length = 2 * 2 ^ m := by rw [hx]; ring
  have hpow : 2 * 2 ^ m ≤ 2 ^ 53 := by
    rw [← pow_succ']
    exact Nat.pow_le_pow_right (by norm_num) hm
  rw [calculation, if_neg (by omega)] at h
  simp only [hx2, show 2 * 2 ^ m / 2 = 2 ^ m by omega] at h
  obtain ⟨ye, e1, h⟩ := Option.bind_eq_some_iff.1 h
  obtain ⟨yo, o1, h⟩ := Option.bind_eq_some_iff.1 h
  obtain ⟨lo, l1, h⟩ := Option.bind_eq_some_iff.1 h
  obtain ⟨hi, i1, h⟩ := Option.bind_eq_some_iff.1 h
  cases h
  have tw : twiddle T (2 * 2 ^ m) 0 = some ⟨T.cos F64.zero, T.sin F64.zero⟩ := by
    simp [twiddle, angle_zero _ hpow (by omega)]
  have r0 : (List.range (2 ^ m))[0]? = some 0 := by rw [List.getElem?_range hM]
  obtain ⟨l2, l3⟩ := mapM_get _ l1
  obtain ⟨i2, i3⟩ := mapM_get _ i1
  obtain ⟨s, s1, s2⟩ := l3 0 0 r0
  obtain ⟨d, d1, d2⟩ := i3 0 0 r0
  obtain ⟨e, a1, s1⟩ := Option.bind_eq_some_iff.1 s1
  rw [tw] at s1 d1
  obtain ⟨w, a2, s1⟩ := Option.bind_eq_some_iff.1 s1
  cases a2
  obtain ⟨o, a3, s1⟩ := Option.bind_eq_some_iff.1 s1
  rw [a1] at d1
  rw [a3] at d1
  simp only [mul_one_root hT, Option.bind_eq_bind, Option.bind_some] at s1 d1
  refine ⟨ye, yo, e, o, s, d, e1, o1, a1, a3, s1, d1, ?_, ?_⟩
  · rw [List.append_assoc, List.getElem?_append_left (by rw [l2, List.length_range]; exact hM), s2]
  · have hl : lo.length = 2 ^ m := by rw [l2, List.length_range]
    rw [List.append_assoc, List.getElem?_append_right (by omega), hl, Nat.sub_self,
      List.getElem?_append_left (by rw [i2, List.length_range]; exact hM), d2]

theorem whole_sum {l : List C64} (f : C64 → ℚ) (h : ∀ z ∈ l, ∃ n : ℤ, f z = n) : ∃ n : ℤ, (l.map f).sum = n := by
  induction l with
  | nil => exact ⟨0, by simp⟩
  | cons a l ih =>
    obtain ⟨n, hn⟩ := ih fun z hz => h z (List.mem_cons_of_mem _ hz)
    obtain ⟨k, hk⟩ := h a List.mem_cons_self
    exact ⟨k + n, by simp [hn, hk]⟩

theorem abs_sum {l : List C64} (f : C64 → ℚ) : |(l.map f).sum| ≤ (l.map fun z => |f z|).sum := by
  induction l with
  | nil => simp
  | cons a l ih =>
    simp only [List.map_cons, List.sum_cons]
    exact (abs_add_le _ _).trans (by linarith)

theorem split_mem {α : Type} (i : ℕ) (l : List α) (a : α) : (a ∈ (splitFrom i l).1 → a ∈ l) ∧ (a ∈ (splitFrom i l).2 → a ∈ l) := by
  induction l generalizing i with
  | nil => simp [splitFrom]
  | cons b l ih =>
    obtain ⟨h1, h2⟩ := ih (i + 1)
    simp only [splitFrom]
    split
    · simp only [List.mem_cons]; tauto
    · simp only [List.mem_cons]; tauto

/-- The data of the exactness theorem, for the whole list and for its halves. -/
structure Data (x : List C64) : Prop where
  whole : ∀ z ∈ x, z.Whole
  re : (x.map fun z => |z.re.val|).sum ≤ 2 ^ 53
  im : (x.map fun z => |z.im.val|).sum ≤ 2 ^ 53

theorem Data.halves {x : List C64} (h : Data x) : Data (splitFrom 0 x).1 ∧ Data (splitFrom 0 x).2 := by
  have n : ∀ (l : List C64) (f : C64 → ℚ), 0 ≤ (l.map fun z => |f z|).sum := fun l f => List.sum_nonneg (by simp)
  have r := split_sum (fun z : C64 => |z.re.val|) 0 x
  have i := split_sum (fun z : C64 => |z.im.val|) 0 x
  have r1 := n (splitFrom 0 x).1 fun z => z.re.val
  have r2 := n (splitFrom 0 x).2 fun z => z.re.val
  have i1 := n (splitFrom 0 x).1 fun z => z.im.val
  have i2 := n (splitFrom 0 x).2 fun z => z.im.val
  have hr := h.re
  have hi := h.im
  exact ⟨⟨fun z hz => h.whole z ((split_mem 0 x z).1 hz), by linarith, by linarith⟩,
    ⟨fun z hz => h.whole z ((split_mem 0 x z).2 hz), by linarith, by linarith⟩⟩

/-- The sums of the halves of the data fit. -/
theorem fits {x : List C64} (f : C64 → ℚ) (h : (x.map fun z => |f z|).sum ≤ 2 ^ 53) :
    |((splitFrom 0 x).1.map f).sum| + |((splitFrom 0 x).2.map f).sum| ≤ 2 ^ 53 := by
  have r := split_sum (fun z : C64 => |f z|) 0 x
  have a1 := abs_sum (l := (splitFrom 0 x).1) f
  have a2 := abs_sum (l := (splitFrom 0 x).2) f
  linarith

theorem first_exact {T : Trig} (hT : T.ExactAtZero) (m : ℕ) (hm : m ≤ 53) (x y : List C64) (hx : x.length = 2 ^ m) (hd : Data x)
    (h : calculation T x = some y) :
    ∃ z, y[0]? = some z ∧ z.re.val = (x.map fun z => z.re.val).sum ∧ z.im.val = (x.map fun z => z.im.val).sum := by
  induction m generalizing x y with
  | zero =>
    obtain ⟨z, rfl⟩ := List.length_eq_one_iff.1 hx
    rw [calculation, if_pos (by simp)] at h
    cases h
    exact ⟨z, by simp⟩
  | succ m ih =>
    obtain ⟨ye, yo, e, o, s, d, c1, c2, c3, c4, c5, c6, c7, c8⟩ := level hT hm hx h
    have hp : 2 ^ (m + 1) = 2 * 2 ^ m := by ring
    obtain ⟨l1, l2⟩ := (split_lengths 0 x).1 rfl
    obtain ⟨d1, d2⟩ := hd.halves
    obtain ⟨e', e1, e2, e3⟩ := ih (by omega) _ ye (by omega) d1 c1
    obtain ⟨o', o1, o2, o3⟩ := ih (by omega) _ yo (by omega) d2 c2
    rw [c3] at e1
    rw [c4] at o1
    cases e1
    cases o1
    unfold C64.add at c5
    obtain ⟨sr, s1, c5⟩ := Option.bind_eq_some_iff.1 c5
    obtain ⟨si, s2, c5⟩ := Option.bind_eq_some_iff.1 c5
    cases c5
    refine ⟨_, c7, ?_, ?_⟩
    · rw [add_whole (by rw [e2]; exact whole_sum _ fun z hz => (d1.whole z hz).1)
        (by rw [o2]; exact whole_sum _ fun z hz => (d2.whole z hz).1) (by rw [e2, o2]; exact fits _ hd.re) s1, e2, o2]
      exact split_sum _ 0 x
    · rw [add_whole (by rw [e3]; exact whole_sum _ fun z hz => (d1.whole z hz).2)
        (by rw [o3]; exact whole_sum _ fun z hz => (d2.whole z hz).2) (by rw [e3, o3]; exact fits _ hd.im) s2, e3, o3]
      exact split_sum _ 0 x

theorem sum_getD (l : List C64) (f : C64 → ℚ) : (l.map f).sum = ∑ j ∈ range l.length, (l.map f).getD j 0 := by
  induction l with
  | nil => simp
  | cons a l ih =>
    rw [List.length_cons, Finset.sum_range_succ', List.map_cons, List.sum_cons, ih, add_comm]
    simp

/-- C95: on whole numbers (parts whose absolute values sum up to at most `2^53`) entry 0 is exactly the sum of the data and entry
`N/2` exactly its alternating sum, provided the library has `cos 0 = 1` and `sin 0 = 0`. -/
theorem C95_whole (T : Trig) (hT : T.ExactAtZero) (m : ℕ) (hm : m + 1 ≤ 53) (x y : List C64) (hx : x.length = 2 ^ (m + 1))
    (hw : ∀ z ∈ x, z.Whole) (hre : (x.map fun z => |z.re.val|).sum ≤ 2 ^ 53) (him : (x.map fun z => |z.im.val|).sum ≤ 2 ^ 53)
    (h : fftComplex T x = some y) :
    (∃ z, y[0]? = some z ∧ z.re.val = (x.map fun z => z.re.val).sum ∧ z.im.val = (x.map fun z => z.im.val).sum) ∧
    ∃ z, y[2 ^ m]? = some z ∧ z.re.val = ∑ j ∈ range x.length, (-1) ^ j * (x.map fun z => z.re.val).getD j 0 ∧
      z.im.val = ∑ j ∈ range x.length, (-1) ^ j * (x.map fun z => z.im.val).getD j 0 := by
  unfold fftComplex at h
  rw [if_pos (by rw [hx]; exact Verif.Math.Fft.valid_pow _)] at h
  have hd : Data x := ⟨hw, hre, him⟩
  refine ⟨first_exact hT (m + 1) hm x y hx hd h, ?_⟩
  obtain ⟨ye, yo, e, o, s, d, c1, c2, c3, c4, c5, c6, c7, c8⟩ := level hT hm hx h
  have hp : 2 ^ (m + 1) = 2 * 2 ^ m := by ring
  obtain ⟨l1, l2⟩ := (split_lengths 0 x).1 rfl
  have l1' : (splitFrom 0 x).1.length = 2 ^ m := by omega
  have l2' : (splitFrom 0 x).2.length = 2 ^ m := by omega
  obtain ⟨d1, d2⟩ := hd.halves
  obtain ⟨e', e1, e2, e3⟩ := first_exact hT m (by omega) _ ye l1' d1 c1
  obtain ⟨o', o1, o2, o3⟩ := first_exact hT m (by omega) _ yo l2' d2 c2
  rw [c3] at e1
  rw [c4] at o1
  cases e1
  cases o1
  unfold C64.sub at c6
  obtain ⟨sr, s1, c6⟩ := Option.bind_eq_some_iff.1 c6
  obtain ⟨si, s2, c6⟩ := Option.bind_eq_some_iff.1 c6
  cases c6
  have alt : ∀ f : C64 → ℚ, ((splitFrom 0 x).1.map f).sum - ((splitFrom 0 x).2.map f).sum =
      ∑ j ∈ range x.length, (-1) ^ j * (x.map f).getD j 0 := by
    intro f
    have hs := split_map f 0 x
    rw [hx, hp, Verif.Math.Fft.sum_even_odd, sum_getD, sum_getD, l1', l2', sub_eq_add_neg, ← Finset.sum_neg_distrib]
    congr 1
    · refine Finset.sum_congr rfl fun j _ => ?_
      rw [← (Verif.Math.Fft.split_getD (x.map f) j 0).1, hs, pow_mul]
      norm_num
    · refine Finset.sum_congr rfl fun j _ => ?_
      rw [← (Verif.Math.Fft.split_getD (x.map f) j 0).2, hs, pow_succ, pow_mul]
      norm_num
  refine ⟨_, c8, ?_, ?_⟩
  · rw [sub_whole (by rw [e2]; exact whole_sum _ fun z hz => (d1.whole z hz).1)
      (by rw [o2]; exact whole_sum _ fun z hz => (d2.whole z hz).1) (by rw [e2, o2]; exact fits _ hd.re) s1, e2, o2]
    exact alt _
  · rw [sub_whole (by rw [e3]; exact whole_sum _ fun z hz => (d1.whole z hz).2)
      (by rw [o3]; exact whole_sum _ fun z hz => (d2.whole z hz).2) (by rw [e3, o3]; exact fits _ hd.im) s2, e3, o3]
    exact alt _

/-! ## Examples -/

/-- A complex literal. -/
def lit (a b : ℚ) : C64 := ⟨(toF64 a).getD F64.zero, (toF64 b).getD F64.zero⟩

theorem lit_whole (a b : ℤ) (ha : |a| ≤ 2 ^ 53) (hb : |b| ≤ 2 ^ 53) : (lit a b).re.val = a ∧ (lit a b).im.val = b := by
  have one : ∀ n : ℤ, |n| ≤ 2 ^ 53 → ((toF64 (n : ℚ)).getD F64.zero).val = n := by
    intro n hn
    have hr := rep_of_le n 0 hn (by norm_num)
    rw [zpow_zero, mul_one] at hr
    obtain ⟨r, h1, h2⟩ := toF64_isSome (x := (n : ℚ)) (by
      rw [rnd_rep hr]
      have : |(n:ℚ)| ≤ 2 ^ 53 := by exact_mod_cast hn
      exact this.trans_lt (pow_lt_pow_right₀ (by norm_num) (by norm_num)))
    rw [h1, Option.getD_some, h2, rnd_rep hr]
  exact ⟨one a ha, one b hb⟩

theorem total_lit (l : List (ℤ × ℤ)) (h : ∀ p ∈ l, |p.1| ≤ 2 ^ 53 ∧ |p.2| ≤ 2 ^ 53) :
    total (l.map fun p => lit p.1 p.2) ≤ (l.map fun p => |p.1| + |p.2|).sum := by
  induction l with
  | nil => simp [total]
  | cons p l ih =>
    obtain ⟨h1, h2⟩ := h p List.mem_cons_self
    obtain ⟨e1, e2⟩ := lit_whole p.1 p.2 h1 h2
    have := ih fun q hq => h q (List.mem_cons_of_mem _ hq)
    unfold total at this ⊢
    simp only [List.map_cons, List.sum_cons]
    push_cast at this ⊢
    refine add_le_add ?_ this
    refine (Complex.norm_le_abs_re_add_abs_im _).trans (le_of_eq ?_)
    simp only [C64.toC, e1, e2]
    push_cast
    rfl

/-- Four complex numbers, with some accurate cosine and sine. -/
example : ∃ T : Trig, ∃ y, fftComplex T ([(1, 0), (2, -1), (3, 7), (-5, 2)].map fun p : ℤ × ℤ => lit p.1 p.2) = some y ∧ y.length = 4 := by
  obtain ⟨T, hT, _⟩ := exists_accurate
  have ht := total_lit [(1, 0), (2, -1), (3, 7), (-5, 2)] (by decide)
  have big : (21:ℝ) ≤ 2 ^ 1000 := le_trans (b := 2 ^ 5) (by norm_num) (pow_le_pow_right₀ (by norm_num) (by norm_num))
  obtain ⟨y, y1, y2, _⟩ := C95_fft_relative T hT 2 (by norm_num)
    ([(1, 0), (2, -1), (3, 7), (-5, 2)].map fun p : ℤ × ℤ => lit p.1 p.2) (by simp) (ht.trans (le_trans (by norm_num) big))
  exact ⟨T, y, y1, by simpa using y2⟩

/-- The same data: the first entry is exactly `1 + 8i`, the third exactly `7 + 6i`. -/
example : ∃ (T : Trig) (y : List C64) (z w : C64),
    fftComplex T ([(1, 0), (2, -1), (3, 7), (-5, 2)].map fun p : ℤ × ℤ => lit p.1 p.2) = some y ∧
      y[0]? = some z ∧ z.re.val = 1 ∧ z.im.val = 8 ∧ y[2]? = some w ∧ w.re.val = 7 ∧ w.im.val = 6 := by
  obtain ⟨T, hT, hT0⟩ := exists_accurate
  have ht := total_lit [(1, 0), (2, -1), (3, 7), (-5, 2)] (by decide)
  have big : (21:ℝ) ≤ 2 ^ 1000 := le_trans (b := 2 ^ 5) (by norm_num) (pow_le_pow_right₀ (by norm_num) (by norm_num))
  obtain ⟨y, y1, y2, _⟩ := C95_fft_relative T hT 2 (by norm_num)
    ([(1, 0), (2, -1), (3, 7), (-5, 2)].map fun p : ℤ × ℤ => lit p.1 p.2) (by simp) (ht.trans (le_trans (by norm_num) big))
  have e1 := lit_whole 1 0 (by norm_num) (by norm_num)
  have e2 := lit_whole 2 (-1) (by norm_num) (by norm_num)
  have e3 := lit_whole 3 7 (by norm_num) (by norm_num)
  have e4 := lit_whole (-5) 2 (by norm_num) (by norm_num)
  push_cast at e1 e2 e3 e4
  obtain ⟨⟨z, z1, z2, z3⟩, w, w1, w2, w3⟩ := C95_whole T hT0 1 (by norm_num) _ y (by simp) (by
      intro z hz
      simp only [List.map_cons, List.map_nil, List.mem_cons, List.not_mem_nil, or_false] at hz
      rcases hz with rfl | rfl | rfl | rfl
      · exact ⟨⟨1, by simp [e1]⟩, ⟨0, by simp [e1]⟩⟩
      · exact ⟨⟨2, by simp [e2]⟩, ⟨-1, by simp [e2]⟩⟩
      · exact ⟨⟨3, by simp [e3]⟩, ⟨7, by simp [e3]⟩⟩
      · exact ⟨⟨-5, by simp [e4]⟩, ⟨2, by simp [e4]⟩⟩)
    (by simp [e1, e2, e3, e4, abs_of_nonneg]; norm_num) (by simp [e1, e2, e3, e4, abs_of_nonneg]; norm_num) y1
  refine ⟨T, y, z, w, y1, z1, ?_, ?_, w1, ?_, ?_⟩
  · rw [z2]; simp [e1, e2, e3, e4]; norm_num
  · rw [z3]; simp [e1, e2, e3, e4]; norm_num
  · rw [w2]; simp [e1, e2, e3, e4, Finset.sum_range_succ]; norm_num
  · rw [w3]; simp [e1, e2, e3, e4, Finset.sum_range_succ]; norm_num

/-! ## Not exact -/

theorem calculation_one (T : Trig) (a : C64) : calculation T [a] = some [a] := by
  rw [calculation, if_pos (by simp)]

theorem calculation_pair {T : Trig} (hT : T.ExactAtZero) (a b : C64) :
    calculation T [a, b] = do let s ← a.add b; let d ← a.sub b; return [s, d] := by
  have tw : twiddle T 2 0 = some ⟨T.cos F64.zero, T.sin F64.zero⟩ := by
    simp [twiddle, angle_zero 2 (by norm_num) (by norm_num)]
  rw [calculation, if_neg (by simp)]
  simp only [splitFrom, calculation_one, List.length_cons, List.length_nil]
  norm_num [List.range_succ, tw, mul_one_root hT, calculation_one]
  cases a.add b <;> cases a.sub b <;> simp

theorem angle_quarter : ∃ θ : F64, angle 4 1 = some θ ∧ θ.val = -(884279719003555 / 562949953421312) := by
  have h : (angle 4 1).map (fun a => a.val) = some (-(884279719003555 / 562949953421312)) := by decide +kernel
  obtain ⟨θ, h1, h2⟩ := Option.map_eq_some_iff.1 h
  exact ⟨θ, h1, h2⟩

/-- C95 (defect): the transform of `0, 1, 0, 0` is not exact although its entries are `1, -i, -1, i`: the root of unity `-i` is
computed as `cos (-π/2) + i sin (-π/2)` with a rounded `π/2`, whose cosine is about `6e-17`. This happens with every cosine
function that is not zero where the cosine is not zero. -/
theorem C95_not_exact (T : Trig) (hT : T.ExactAtZero) (hc : ∀ a : F64, Real.cos (a.val : ℝ) ≠ 0 → (T.cos a).val ≠ 0) :
    dft [0, 1, 0, 0] 1 = -Complex.I ∧
      ∃ (y : List C64) (z : C64), fftComplex T [lit 0 0, lit 1 0, lit 0 0, lit 0 0] = some y ∧ y[1]? = some z ∧ z.re.val ≠ 0 := by
  constructor
  · unfold dft
    simp only [List.length_cons, List.length_nil, Finset.sum_range_succ, Finset.sum_range_zero]
    have : Complex.exp (-2 * Real.pi * Complex.I * 1 * 1 / 4) = -Complex.I := by
      rw [show -2 * (Real.pi : ℂ) * Complex.I * 1 * 1 / 4 = -(Real.pi / 2 * Complex.I) by ring, Complex.exp_neg,
        Complex.exp_pi_div_two_mul_I]
      simp
    norm_num
    norm_num at this
    exact this
  · obtain ⟨θ, t1, t2⟩ := angle_quarter
    have hcos : (T.cos θ).val ≠ 0 := by
      apply hc
      have p1 := Real.pi_gt_d20
      apply ne_of_gt
      apply Real.cos_pos_of_mem_Ioo
      rw [t2]
      push_cast
      norm_num at p1 ⊢
      constructor <;> linarith
    have z0 : ∀ a : F64, a.add F64.zero = some a := fun a => by
      unfold F64.add; rw [show F64.zero.val = 0 from rfl, _root_.add_zero]; exact toF64_val a
    have z1 : ∀ a : F64, F64.zero.add a = some a := fun a => by
      unfold F64.add; rw [show F64.zero.val = 0 from rfl, _root_.zero_add]; exact toF64_val a
    have z2 : ∀ a : F64, a.sub F64.zero = some a := fun a => by
      unfold F64.sub; rw [show F64.zero.val = 0 from rfl, sub_zero]; exact toF64_val a
    have z3 : ∀ a : F64, a.mul F64.zero = some F64.zero := fun a => by
      unfold F64.mul; rw [show F64.zero.val = 0 from rfl, mul_zero]; exact toF64_val F64.zero
    obtain ⟨l0, l0'⟩ := lit_whole 0 0 (by norm_num) (by norm_num)
    obtain ⟨l1, l1'⟩ := lit_whole 1 0 (by norm_num) (by norm_num)
    push_cast at l0 l0' l1 l1'
    set u := lit 1 0 with hu
    have ext : ∀ a b : C64, a.re = b.re → a.im = b.im → a = b := by
      rintro ⟨a1, a2⟩ ⟨b1, b2⟩ h1 h2
      simp only at h1 h2
      rw [h1, h2]
    have e0 : lit 0 0 = ⟨F64.zero, F64.zero⟩ := ext _ _ (F64.ext l0) (F64.ext l0')
    have e1 : u.im = F64.zero := F64.ext l1'
    have m1 : ∀ a : F64, a.mul u.re = some a := fun a => by
      unfold F64.mul; rw [l1, mul_one]; exact toF64_val a
    have tw : twiddle T 4 1 = some ⟨T.cos θ, T.sin θ⟩ := by simp [twiddle, t1]
    have tw0 : twiddle T 4 0 = some ⟨T.cos F64.zero, T.sin F64.zero⟩ := by
      simp [twiddle, angle_zero 4 (by norm_num) (by norm_num)]
    have uv : u = ⟨u.re, F64.zero⟩ := ext _ _ rfl e1
    have wm : (⟨T.cos θ, T.sin θ⟩ : C64).mul u = some ⟨T.cos θ, T.sin θ⟩ := by
      simp [C64.mul, e1, m1, z0, z1, z2, z3]
    have za : ∀ w : C64, (lit 0 0).add w = some w := fun w => by
      rw [e0]; simp [C64.add, z1]
    have p1 : calculation T [lit 0 0, lit 0 0] = some [lit 0 0, lit 0 0] := by
      rw [calculation_pair hT, e0]; simp [C64.add, C64.sub, z0, z2]
    have p2 : calculation T [u, lit 0 0] = some [u, u] := by
      rw [calculation_pair hT, uv, e0]; simp [C64.add, C64.sub, z0, z2]
    have zs : ∀ w : C64, ∃ v, (lit 0 0).sub w = some v := fun w => by
      have n : ∀ a : F64, ∃ b, F64.zero.sub a = some b := fun a => by
        obtain ⟨b, b1, _⟩ := toF64_isSome (x := 0 - a.val) (by rw [zero_sub, rnd_rep (rep_neg a.rep), abs_neg]; exact a.fin)
        exact ⟨b, b1⟩
      obtain ⟨b, hb⟩ := n w.re
      obtain ⟨c, hc⟩ := n w.im
      exact ⟨⟨b, c⟩, by rw [e0]; simp [C64.sub, hb, hc]⟩
    obtain ⟨v1, hv1⟩ := zs u
    obtain ⟨v2, hv2⟩ := zs ⟨T.cos θ, T.sin θ⟩
    refine ⟨[u, ⟨T.cos θ, T.sin θ⟩, v1, v2], ⟨T.cos θ, T.sin θ⟩, ?_, rfl, hcos⟩
    unfold fftComplex
    rw [if_pos (show Verif.Math.Fft.isValidLength [lit 0 0, u, lit 0 0, lit 0 0].length from Verif.Math.Fft.valid_pow 2), calculation,
      if_neg (by simp)]
    simp only [splitFrom]
    norm_num [p1, p2, List.range_succ, tw, tw0, mul_one_root hT, wm, za, hv1, hv2]

open Classical in
/-- A cosine function that is never wrongly zero. -/
example := C95_not_exact ⟨fun a => if Real.cos (a.val : ℝ) = 0 then F64.zero else (toF64 1).getD F64.zero, fun _ => F64.zero⟩
  ⟨by
    have h0 : F64.zero.val = 0 := rfl
    have h1 : ((toF64 1).getD F64.zero).val = 1 := by decide +kernel
    simp [h0, h1], rfl⟩
  (fun a ha => by
    have h1 : ((toF64 1).getD F64.zero).val = 1 := by decide +kernel
    simp [ha, h1])

end Verif.Float.Fft
