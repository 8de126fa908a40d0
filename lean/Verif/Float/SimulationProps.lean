import Verif.Float.SimulationRun

/-!
# C97: simulated paths in double precision

The specification is in `SimulationSpec`: the Euler-Maruyama recursion in exact arithmetic (`euler`), and the recursion for the sum of
the sizes of everything that is added (`size`).
-/

namespace Verif.Float.Sim

open Verif.Float.Fft (ur ur_pos ur_le mu_pos)

/-! ## The times -/

/-- C97: whatever is simulated, the start lies before the end, there are one more times than steps and as many values; the first time
is the start, exactly, the times do not decrease, and time `k` is within `2^-49` of the larger end in size (plus an underflow term) of
`t_0 + k (t_n - t_0) / n`. The first value is the initial value. -/
theorem C97_times (P : Process) (sqrt : F64 → Option F64) (c : Config) (z : ℕ → F64) (times path : List F64)
    (hn : c.nSteps < 2 ^ 53) (h : simulate P sqrt c z = some (times, path)) :
    c.t0.val < c.tn.val ∧ 1 ≤ c.nSteps ∧ times.length = c.nSteps + 1 ∧ path.length = c.nSteps + 1 ∧ path.head? = some c.x0 ∧
    times.head? = some c.t0 ∧ times.Pairwise (fun a b => a.val ≤ b.val) ∧
    ∀ (k : ℕ) (t : F64), times[k]? = some t →
      |t.val - (c.t0.val + k * ((c.tn.val - c.t0.val) / c.nSteps))| ≤
        2 ^ (-49 : ℤ) * max |c.t0.val| |c.tn.val| + (c.nSteps + 1) * 2 ^ (-1073 : ℤ) := by
  unfold simulate at h
  split_ifs at h with hc
  simp only [Option.bind_eq_bind, Option.bind_eq_some_iff, Option.pure_def, Option.some.injEq, Prod.mk.injEq] at h
  obtain ⟨dt, h1, ts, h2, sc, h3, p, h4, rfl, rfl⟩ := h
  have hl : linspace c.t0 c.tn (c.nSteps + 1) = some (some ts) := by
    rw [linspace_eq c hc, h1]; simp only [Option.bind_some, h2]
  obtain ⟨g1, g2, g3, g4, g5⟩ := C88_linspace _ _ _ (by omega) _ hl
  have hp : ∀ (n : ℕ) (p : List F64), runPath P dt sc ts z c.x0 n = some p → p.length = n + 1 ∧ p.head? = some c.x0 := by
    intro n
    induction n with
    | zero => intro p hp; cases hp; exact ⟨rfl, rfl⟩
    | succ n ih =>
      intro p hp
      simp only [runPath, Option.bind_eq_bind, Option.bind_eq_some_iff, Option.pure_def, Option.some.injEq] at hp
      obtain ⟨q, hq, t, ht, x, hx, y, hy, rfl⟩ := hp
      obtain ⟨i1, i2⟩ := ih q hq
      refine ⟨by simp [i1], ?_⟩
      cases q with
      | nil => simp at i1
      | cons a q => simpa using i2
  refine ⟨hc, by omega, g2, (hp _ _ h4).1, (hp _ _ h4).2, g3, g4, fun k t ht => ?_⟩
  have := g5 k t ht
  simp only [Nat.add_sub_cancel] at this
  push_cast at this ⊢
  exact this

/-- C97 (defect): the last time of a simulation need not be the final time asked for. With 49 steps from 0 to 1 it falls short of 1. -/
theorem C97_times_last : ∃ (dt : F64) (times : List F64) (t : F64),
    (⟨lit 1, lit 0, lit 1, 49⟩ : Config).dt = some dt ∧ (⟨lit 1, lit 0, lit 1, 49⟩ : Config).times dt = some times ∧
      times.getLast? = some t ∧ t.val < 1 := by
  obtain ⟨⟨l, y, h1, h2, h3⟩, _⟩ := C88_linspace_last
  have h0 : (lit 0).val < (lit 1).val := by decide +kernel
  have e : ∀ (x a b : F64) (n m : ℕ), n + 1 = m → a.val < b.val → linspace a b m = some (some l) →
      ((Config.mk x a b n).dt.bind fun dt => (Config.mk x a b n).times dt) = some l := by
    intro x a b n m hm h g
    rw [← hm] at g
    exact Option.some.inj ((linspace_eq ⟨x, a, b, n⟩ h).symm.trans g)
  obtain ⟨dt, g1, g2⟩ := Option.bind_eq_some_iff.1 (e (lit 1) (lit 0) (lit 1) 49 50 (by norm_num) h0 h1)
  exact ⟨dt, l, y, g1, g2, h2, h3⟩

/-! ## The Euler-Maruyama scheme -/

/-- C97: for a drift and a diffusion with Lipschitz constants `B` and `S` and sizes at most `B|x| + C` and `S|x| + T`, computed with
relative error `η`, every path comes out finite, and its `k`-th value differs from the exact Euler-Maruyama recursion (exact step
`h = (t_n - t_0)/n`, exact `√h`, the same noise) by at most `(1 + η + 18 * 2^-53)^k - 1` times the sum of the sizes of all terms. -/
theorem C97_euler_error (sqrt : F64 → Option F64) (hsqrt : AccurateSqrt sqrt) (P : Process) (b s : F64 → ℝ → ℝ) (B C S T η : ℝ)
    (hη : 0 ≤ η) (hη1 : η ≤ 1 / 2000) (hd : Computes P.drift b B C η) (hs : Computes P.diffusion s S T η)
    (c : Config) (hc : c.Ordinary) (z : ℕ → F64) (hz : ∀ k < c.nSteps, |F64.real (z k)| ≤ 2 ^ 20)
    (hgrow : (1 + η + 18 * unit) ^ c.nSteps ≤ 2)
    (hsize : size B C S T c.step (√c.step) z (F64.real c.x0) c.nSteps ≤ 2 ^ 899) :
    ∃ times path, simulate P sqrt c z = some (times, path) ∧ path.length = c.nSteps + 1 ∧ ∀ k ≤ c.nSteps, ∃ x, path[k]? = some x ∧
      |F64.real x - euler b s c.step (√c.step) (fun i => times.getD i F64.zero) z (F64.real c.x0) k| ≤
        ((1 + η + 18 * unit) ^ k - 1) * size B C S T c.step (√c.step) z (F64.real c.x0) k := by
  change (1 + η + 18 * ur) ^ c.nSteps ≤ 2 at hgrow
  change ∃ times path, simulate P sqrt c z = some (times, path) ∧ path.length = c.nSteps + 1 ∧ ∀ k ≤ c.nSteps, ∃ x, path[k]? = some x ∧
      |F64.real x - euler b s c.step (√c.step) (fun i => times.getD i F64.zero) z (F64.real c.x0) k| ≤
        ((1 + η + 18 * ur) ^ k - 1) * size B C S T c.step (√c.step) z (F64.real c.x0) k
  obtain ⟨dt, times, h1, h2, h3, h4, h5, h6⟩ := hc.computed
  have hu := ur_pos
  have hu1 : ur ≤ 1 / 10 ^ 6 := by unfold ur; norm_num
  obtain ⟨hdt0, hr⟩ := ratio (δ := 4 * ur) h5 (by positivity) (by linarith) h4 (by nlinarith)
  have hdtv : 0 < dt.val := by unfold F64.real at hdt0; exact_mod_cast hdt0
  obtain ⟨scale, hsc, hsc1⟩ := hsqrt dt hdtv
  change |F64.real scale - √(F64.real dt)| ≤ 2 * ur * √(F64.real dt) at hsc1
  have hs0 : 0 < √c.step := Real.sqrt_pos.2 h5
  have hn1 := sqrt_near h5 hdt0.le h4
  have hscale : |F64.real scale - √c.step| ≤ 6 * ur * √c.step := by
    have e1 := abs_add_le (F64.real scale - √(F64.real dt)) (√(F64.real dt) - √c.step)
    rw [sub_add_sub_cancel] at e1
    have e2 := (abs_le.1 hn1).2
    have e3 : 2 * ur * √(F64.real dt) ≤ 2 * ur * (√c.step + 3 * ur * √c.step) :=
      mul_le_mul_of_nonneg_left (by linarith) (by linarith)
    have e4 : 0 ≤ ur * √c.step := by positivity
    have e5 : ur * (ur * √c.step) ≤ 1 / 10 ^ 6 * (ur * √c.step) := mul_le_mul_of_nonneg_right hu1 e4
    linarith
  obtain ⟨hsc0, hq⟩ := ratio (δ := 7 * ur) hs0 (by positivity) (by linarith) hscale (by nlinarith)
  have hη' : ∀ {r δ : ℝ}, |1 - r| ≤ δ → δ ≤ 7 * ur → η + δ ≤ (η + 8 * ur) * r := by
    intro r δ h hδ
    have := (abs_le.1 (h.trans hδ)).2
    have h7 : (η + 8 * ur) * (1 - 7 * ur) ≤ (η + 8 * ur) * r := mul_le_mul_of_nonneg_left (by linarith) (by positivity)
    have h8 : η * ur ≤ 1 / 2000 * ur := mul_le_mul_of_nonneg_right hη1 hu.le
    have h9 : ur * ur ≤ 1 / 10 ^ 6 * ur := mul_le_mul_of_nonneg_right hu1 hu.le
    linarith
  have t1 := hd.scale hr (by linarith) (hη' hr (by linarith))
  have t2 := hs.scale hq (by linarith) (hη' hq le_rfl)
  have m1 : c.step / F64.real dt * F64.real dt = c.step := div_mul_cancel₀ _ hdt0.ne'
  have m2 : √c.step / F64.real scale * F64.real scale = √c.step := div_mul_cancel₀ _ hsc0.ne'
  have hs19 : √c.step ≤ 2 ^ 19 := by
    rw [Real.sqrt_le_left (by norm_num)]
    exact h6.trans (by norm_num)
  have hdtb : F64.real dt ≤ 2 ^ 20 := by
    have := (abs_le.1 h4).2
    have e : 3 * ur * c.step ≤ 1 * c.step := mul_le_mul_of_nonneg_right (by linarith) h5.le
    norm_num at h6 ⊢
    linarith
  have hscb : F64.real scale ≤ 2 ^ 20 := by
    have := (abs_le.1 hscale).2
    have e : 6 * ur * √c.step ≤ 1 * √c.step := mul_le_mul_of_nonneg_right (by linarith) hs0.le
    norm_num at hs19 ⊢
    linarith
  have eε : 1 + (η + 8 * ur + 10 * ur) = 1 + η + 18 * ur := by ring
  obtain ⟨p, hp1, hp2, hp3⟩ := run_close (η := η + 8 * ur) (x0 := c.x0) (times := times) (z := z) (n := c.nSteps) (by positivity)
    (by linarith) t1 t2 hdt0.le hdtb hsc0.le hscb hz (by omega) (by rw [eε]; exact hgrow)
    (by rw [size_scale m1 m2]; exact hsize) c.nSteps le_rfl
  refine ⟨times, p, ?_, hp2, fun k hk => ?_⟩
  · unfold simulate
    rw [if_pos hc.lt]
    simp only [h1, h2, hsc, hp1, Option.bind_eq_bind, Option.bind_some, Option.pure_def]
  · obtain ⟨x, hx1, hx2, _⟩ := hp3 k hk
    refine ⟨x, hx1, ?_⟩
    rw [euler_scale m1 m2, size_scale m1 m2, eε] at hx2
    exact hx2

/-! ## The processes -/

theorem const_computes {σ : F64 → F64} {C η : ℝ} (hη : 0 ≤ η) (h : ∀ t, |F64.real (σ t)| ≤ C) (hC : C ≤ 2 ^ 899)
    {f : F64 → F64 → Option F64} (hf : ∀ x t, f x t = some (σ t)) : Computes f (fun t _ => F64.real (σ t)) 0 C η := by
  have hC0 : 0 ≤ C := (abs_nonneg _).trans (h F64.zero)
  refine ⟨by norm_num, ⟨hC0, hC⟩, fun t x y => by simp, fun t x => by simpa using h t, fun x t _ => ⟨σ t, hf x t, ?_⟩⟩
  rw [sub_self, abs_zero]
  positivity

theorem linear_computes {σ : F64 → F64} {B : ℝ} (h : ∀ t, |F64.real (σ t)| ≤ B) (hB : B ≤ 2 ^ 19)
    {f : F64 → F64 → Option F64} (hf : ∀ x t, f x t = (σ t).mul x) :
    Computes f (fun t x => F64.real (σ t) * x) B 0 unit := by
  have hB0 : 0 ≤ B := (abs_nonneg _).trans (h F64.zero)
  refine ⟨⟨hB0, hB⟩, ⟨le_rfl, by positivity⟩, fun t x y => ?_, fun t x => ?_, fun x t hx => ?_⟩
  · rw [← mul_sub, abs_mul]
    exact mul_le_mul_of_nonneg_right (h t) (abs_nonneg _)
  · rw [abs_mul, _root_.add_zero]
    exact mul_le_mul_of_nonneg_right (h t) (abs_nonneg _)
  · obtain ⟨r, h1, h2⟩ := mulR' (a := σ t) (b := x) (big_mul ((h t).trans hB) hx (by norm_num))
    refine ⟨r, (hf x t).trans h1, h2.trans ?_⟩
    rw [_root_.add_zero, abs_mul]
    refine add_le_add_left ?_ _
    exact mul_le_mul_of_nonneg_left (mul_le_mul_of_nonneg_right (h t) (abs_nonneg _)) ur_pos.le

/-- The growth of the relative error over up to `2^40` steps. -/
theorem grow_bound {η : ℝ} (hη : 0 ≤ η) (hη1 : η ≤ 4 * unit) (k : ℕ) (hk : k ≤ 2 ^ 40) :
    (1 + η + 18 * unit) ^ k ≤ 1 + k * 2 ^ (-47 : ℤ) := by
  have h0 : ((1 + u) ^ (32 * k) : ℚ) ≤ 1 + (32 * k : ℕ) * 2 ^ (-52 : ℤ) := pow_bound _ (by omega)
  have h1 : ((1 + unit) ^ (32 * k) : ℝ) ≤ 1 + (32 * k : ℕ) * 2 ^ (-52 : ℤ) := by
    have := (Rat.cast_le (K := ℝ)).2 h0
    unfold u at this
    push_cast at this ⊢
    exact this
  have hu : 0 ≤ unit := by unfold unit; positivity
  calc (1 + η + 18 * unit) ^ k ≤ ((1 + unit) ^ 32) ^ k := by
        refine pow_le_pow_left₀ (by positivity) ?_ _
        have := one_add_mul_le_pow (show (-2 : ℝ) ≤ unit by linarith) 32
        push_cast at this
        linarith
    _ = (1 + unit) ^ (32 * k) := (pow_mul _ _ _).symm
    _ ≤ _ := h1
    _ = 1 + k * 2 ^ (-47 : ℤ) := by
      push_cast
      rw [show (-47 : ℤ) = 5 + -52 by norm_num, zpow_add₀ (by norm_num)]
      norm_num
      ring

theorem grow_two {η : ℝ} (hη : 0 ≤ η) (hη1 : η ≤ 4 * unit) (k : ℕ) (hk : k ≤ 2 ^ 40) : (1 + η + 18 * unit) ^ k ≤ 2 := by
  refine (grow_bound hη hη1 k hk).trans ?_
  have : (k : ℝ) ≤ 1099511627776 := le_trans (by exact_mod_cast hk : (k : ℝ) ≤ 2 ^ 40) (by norm_num)
  have h2 : (2 : ℝ) ^ (-47 : ℤ) = 1 / 140737488355328 := by norm_num
  rw [h2]
  linarith

/-- `C97_euler_error` for errors of a few units of rounding. -/
theorem small_error (sqrt : F64 → Option F64) (hsqrt : AccurateSqrt sqrt) (P : Process) (b s : F64 → ℝ → ℝ) (B C S T η : ℝ)
    (hη : 0 ≤ η) (hη1 : η ≤ 4 * unit) (hd : Computes P.drift b B C η) (hs : Computes P.diffusion s S T η)
    (c : Config) (hc : c.Ordinary) (z : ℕ → F64) (hz : ∀ k < c.nSteps, |F64.real (z k)| ≤ 2 ^ 20)
    (hsize : size B C S T c.step (√c.step) z (F64.real c.x0) c.nSteps ≤ 2 ^ 899) :
    ∃ times path, simulate P sqrt c z = some (times, path) ∧ path.length = c.nSteps + 1 ∧ ∀ k ≤ c.nSteps, ∃ x, path[k]? = some x ∧
      |F64.real x - euler b s c.step (√c.step) (fun i => times.getD i F64.zero) z (F64.real c.x0) k| ≤
        k * 2 ^ (-47 : ℤ) * size B C S T c.step (√c.step) z (F64.real c.x0) k := by
  have hu : unit ≤ 1 / 10 ^ 6 := by unfold unit; norm_num
  obtain ⟨times, path, h1, h2, h3⟩ := C97_euler_error sqrt hsqrt P b s B C S T η hη (by linarith) hd hs c hc z hz
    (grow_two hη hη1 _ hc.steps.2) hsize
  refine ⟨times, path, h1, h2, fun k hk => ?_⟩
  obtain ⟨x, hx, hx'⟩ := h3 k hk
  refine ⟨x, hx, hx'.trans (mul_le_mul_of_nonneg_right ?_ ?_)⟩
  · have := grow_bound hη hη1 k (hk.trans hc.steps.2)
    linarith
  · have hst : 0 ≤ c.step := hc.computed.choose_spec.choose_spec.2.2.2.2.1.le
    exact (size_pos hd.slope.1 hd.offset.1 hs.slope.1 hs.offset.1 hst (Real.sqrt_nonneg _) k).le

theorem unit_pos : 0 < unit := by unfold unit; positivity

/-- C97: geometric Brownian motion with `|mu| ≤ M` and `0 ≤ sigma ≤ S`. The `k`-th value is within `k * 2^-47` of
`(|x_0| + 2^-900) Π (1 + M h + S √h |z_i|)` of `x_0 Π (1 + mu h + sigma √h z_i)`. -/
theorem C97_gbm_error (sqrt : F64 → Option F64) (hsqrt : AccurateSqrt sqrt) (mu sigma : F64 → F64) (M S : ℝ)
    (hM : M ≤ 2 ^ 19) (hS : S ≤ 2 ^ 19) (hmu : ∀ t, |F64.real (mu t)| ≤ M) (hsigma : ∀ t, 0 ≤ F64.real (sigma t) ∧ F64.real (sigma t) ≤ S)
    (c : Config) (hc : c.Ordinary) (z : ℕ → F64) (hz : ∀ k < c.nSteps, |F64.real (z k)| ≤ 2 ^ 20)
    (hsize : (|F64.real c.x0| + 2 ^ (-900 : ℤ)) * ∏ i ∈ Finset.range c.nSteps, (1 + M * c.step + S * √c.step * |F64.real (z i)|) ≤ 2 ^ 899) :
    ∃ times path, simulate (gbm mu sigma) sqrt c z = some (times, path) ∧ path.length = c.nSteps + 1 ∧
      ∀ k ≤ c.nSteps, ∃ x, path[k]? = some x ∧
        |F64.real x - F64.real c.x0 * ∏ i ∈ Finset.range k,
          (1 + F64.real (mu (times.getD i F64.zero)) * c.step + F64.real (sigma (times.getD i F64.zero)) * √c.step * F64.real (z i))| ≤
        k * 2 ^ (-47 : ℤ) * ((|F64.real c.x0| + 2 ^ (-900 : ℤ)) * ∏ i ∈ Finset.range k, (1 + M * c.step + S * √c.step * |F64.real (z i)|)) := by
  have hu := unit_pos
  have esize : ∀ k, size M 0 S 0 c.step (√c.step) z (F64.real c.x0) k =
      (|F64.real c.x0| + 2 ^ (-900 : ℤ)) * ∏ i ∈ Finset.range k, (1 + M * c.step + S * √c.step * |F64.real (z i)|) := by
    intro k
    induction k with
    | zero => simp [size]
    | succ k ih => rw [size, ih, Finset.prod_range_succ]; ring
  obtain ⟨times, path, h1, h2, h3⟩ := small_error sqrt hsqrt (gbm mu sigma) (fun t x => F64.real (mu t) * x)
    (fun t x => F64.real (sigma t) * x) M 0 S 0 unit hu.le (by linarith) (linear_computes hmu hM fun x t => rfl)
    (linear_computes (fun t => by rw [abs_of_nonneg (hsigma t).1]; exact (hsigma t).2) hS fun x t => by
      have h := (hsigma t).1
      have : ¬ (sigma t).val < 0 := by unfold F64.real at h; have : (0 : ℚ) ≤ (sigma t).val := by exact_mod_cast h
                                       linarith
      simp only [gbm, if_neg this]) c hc z hz (by rw [esize]; exact hsize)
  refine ⟨times, path, h1, h2, fun k hk => ?_⟩
  obtain ⟨x, hx, hx'⟩ := h3 k hk
  refine ⟨x, hx, ?_⟩
  rw [esize] at hx'
  convert hx' using 3
  clear hx hx' hk h3 h1 h2
  induction k with
  | zero => simp [euler]
  | succ k ih => rw [euler, ← ih, Finset.prod_range_succ]; ring

/-- C97: arithmetic Brownian motion with `|mu| ≤ M` and `0 ≤ sigma ≤ S`. The `k`-th value is within `k * 2^-47` of
`|x_0| + 2^-900 + Σ (M h + S √h |z_i|)` of `x_0 + Σ (mu h + sigma √h z_i)`. -/
theorem C97_abm_error (sqrt : F64 → Option F64) (hsqrt : AccurateSqrt sqrt) (mu sigma : F64 → F64) (M S : ℝ)
    (hM : M ≤ 2 ^ 899) (hS : S ≤ 2 ^ 899) (hmu : ∀ t, |F64.real (mu t)| ≤ M)
    (hsigma : ∀ t, 0 ≤ F64.real (sigma t) ∧ F64.real (sigma t) ≤ S)
    (c : Config) (hc : c.Ordinary) (z : ℕ → F64) (hz : ∀ k < c.nSteps, |F64.real (z k)| ≤ 2 ^ 20)
    (hsize : |F64.real c.x0| + 2 ^ (-900 : ℤ) + ∑ i ∈ Finset.range c.nSteps, (M * c.step + S * √c.step * |F64.real (z i)|) ≤ 2 ^ 899) :
    ∃ times path, simulate (abm mu sigma) sqrt c z = some (times, path) ∧ path.length = c.nSteps + 1 ∧
      ∀ k ≤ c.nSteps, ∃ x, path[k]? = some x ∧
        |F64.real x - (F64.real c.x0 + ∑ i ∈ Finset.range k,
          (F64.real (mu (times.getD i F64.zero)) * c.step + F64.real (sigma (times.getD i F64.zero)) * √c.step * F64.real (z i)))| ≤
        k * 2 ^ (-47 : ℤ) * (|F64.real c.x0| + 2 ^ (-900 : ℤ) + ∑ i ∈ Finset.range k, (M * c.step + S * √c.step * |F64.real (z i)|)) := by
  have hu := unit_pos
  have esize : ∀ k, size 0 M 0 S c.step (√c.step) z (F64.real c.x0) k =
      |F64.real c.x0| + 2 ^ (-900 : ℤ) + ∑ i ∈ Finset.range k, (M * c.step + S * √c.step * |F64.real (z i)|) := by
    intro k
    induction k with
    | zero => simp [size]
    | succ k ih => rw [size, ih, Finset.sum_range_succ]; ring
  obtain ⟨times, path, h1, h2, h3⟩ := small_error sqrt hsqrt (abm mu sigma) (fun t _ => F64.real (mu t))
    (fun t _ => F64.real (sigma t)) 0 M 0 S 0 le_rfl (by linarith) (const_computes le_rfl hmu hM fun x t => rfl)
    (const_computes le_rfl (fun t => by rw [abs_of_nonneg (hsigma t).1]; exact (hsigma t).2) hS fun x t => by
      have h := (hsigma t).1
      have : ¬ (sigma t).val < 0 := by unfold F64.real at h; have : (0 : ℚ) ≤ (sigma t).val := by exact_mod_cast h
                                       linarith
      simp only [abm, if_neg this]) c hc z hz (by rw [esize]; exact hsize)
  refine ⟨times, path, h1, h2, fun k hk => ?_⟩
  obtain ⟨x, hx, hx'⟩ := h3 k hk
  refine ⟨x, hx, ?_⟩
  rw [esize] at hx'
  convert hx' using 3
  clear hx hx' hk h3 h1 h2
  induction k with
  | zero => simp [euler]
  | succ k ih => rw [euler, ← ih, Finset.sum_range_succ]; ring

theorem ou_computes {mu sigma theta : F64 → F64} {M Θ : ℝ} (hM : M ≤ 2 ^ 800) (hΘ : Θ ≤ 2 ^ 19) (hmu : ∀ t, |F64.real (mu t)| ≤ M)
    (htheta : ∀ t, |F64.real (theta t)| ≤ Θ) :
    Computes (ou mu sigma theta).drift (fun t x => F64.real (theta t) * (F64.real (mu t) - x)) Θ (Θ * M) (3 * unit) := by
  have hu := unit_pos
  have hu1 : unit ≤ 1 / 1000 := by unfold unit; norm_num
  have hM0 : 0 ≤ M := (abs_nonneg _).trans (hmu F64.zero)
  have hΘ0 : 0 ≤ Θ := (abs_nonneg _).trans (htheta F64.zero)
  refine ⟨⟨hΘ0, hΘ⟩, ⟨mul_nonneg hΘ0 hM0, ?_⟩, fun t x y => ?_, fun t x => ?_, fun x t hx => ?_⟩
  · calc Θ * M ≤ 2 ^ 19 * 2 ^ 800 := mul_le_mul hΘ hM hM0 (by positivity)
      _ = 2 ^ 819 := by rw [← pow_add]
      _ ≤ 2 ^ 899 := pow_le_pow_right₀ (by norm_num) (by norm_num)
  · rw [← mul_sub, sub_sub_sub_cancel_left, abs_mul, abs_sub_comm y x]
    exact mul_le_mul_of_nonneg_right (htheta t) (abs_nonneg _)
  · rw [abs_mul, ← mul_add]
    exact mul_le_mul (htheta t) ((abs_sub _ _).trans (by linarith [hmu t])) (abs_nonneg _) hΘ0
  · have e0 : |F64.real (mu t) - F64.real x| ≤ M + |F64.real x| := (abs_sub _ _).trans (by linarith [hmu t])
    have hMx : M + |F64.real x| ≤ 2 ^ 901 := by
      have e1 : (2 : ℝ) ^ 800 ≤ 2 ^ 900 := pow_le_pow_right₀ (by norm_num) (by norm_num)
      rw [pow_succ (2 : ℝ) 900, mul_two]
      exact _root_.add_le_add (hM.trans e1) hx
    obtain ⟨d, h1, h2⟩ := subR (a := mu t) (b := x)
      (top_big ((e0.trans hMx).trans (pow_le_pow_right₀ (by norm_num) (by norm_num))))
    change |F64.real d - (F64.real (mu t) - F64.real x)| ≤ unit * |F64.real (mu t) - F64.real x| at h2
    have hW0 : 0 ≤ M + |F64.real x| := by positivity
    have e2 : |F64.real d - (F64.real (mu t) - F64.real x)| ≤ unit * (M + |F64.real x|) :=
      h2.trans (mul_le_mul_of_nonneg_left e0 hu.le)
    have e3 : |F64.real d| ≤ (1 + unit) * (M + |F64.real x|) := by
      have := abs_add_le (F64.real d - (F64.real (mu t) - F64.real x)) (F64.real (mu t) - F64.real x)
      rw [sub_add_cancel] at this
      linarith
    have e4 : |F64.real d| ≤ 2 ^ 902 := by
      rw [pow_succ (2 : ℝ) 901, mul_comm]
      exact e3.trans (mul_le_mul (by linarith) hMx hW0 (by norm_num))
    obtain ⟨p, h3, h4⟩ := mulR' (a := theta t) (b := d) (big_mul ((htheta t).trans hΘ) e4 (by norm_num))
    change |F64.real p - F64.real (theta t) * F64.real d| ≤ unit * |F64.real (theta t) * F64.real d| + nu at h4
    refine ⟨p, by simp only [ou, h1, Option.bind_eq_bind, Option.bind_some, h3], ?_⟩
    change _ ≤ 3 * unit * (Θ * |F64.real x| + Θ * M) + nu
    have e5 : |F64.real (theta t) * (F64.real d - (F64.real (mu t) - F64.real x))| ≤ Θ * (unit * (M + |F64.real x|)) := by
      rw [abs_mul]; exact mul_le_mul (htheta t) e2 (abs_nonneg _) hΘ0
    have e6 : |F64.real (theta t) * F64.real d| ≤ Θ * ((1 + unit) * (M + |F64.real x|)) := by
      rw [abs_mul]; exact mul_le_mul (htheta t) e3 (abs_nonneg _) hΘ0
    have e7 := mul_le_mul_of_nonneg_left e6 hu.le
    have e8 := abs_add_le (F64.real p - F64.real (theta t) * F64.real d)
      (F64.real (theta t) * (F64.real d - (F64.real (mu t) - F64.real x)))
    rw [show F64.real p - F64.real (theta t) * F64.real d + F64.real (theta t) * (F64.real d - (F64.real (mu t) - F64.real x)) =
      F64.real p - F64.real (theta t) * (F64.real (mu t) - F64.real x) by ring] at e8
    have hQ : 0 ≤ unit * (Θ * (M + |F64.real x|)) := by positivity
    have e9 : unit * (unit * (Θ * (M + |F64.real x|))) ≤ 1 / 1000 * (unit * (Θ * (M + |F64.real x|))) :=
      mul_le_mul_of_nonneg_right hu1 hQ
    linarith

/-- C97: Ornstein-Uhlenbeck with `|mu| ≤ M`, `|theta| ≤ Θ` and `0 ≤ sigma ≤ S`: the `k`-th value is within `k * 2^-47` of the sum of
sizes of the exact Euler-Maruyama recursion with drift `theta (mu - x)` and diffusion `sigma`. -/
theorem C97_ou_error (sqrt : F64 → Option F64) (hsqrt : AccurateSqrt sqrt) (mu sigma theta : F64 → F64) (M S Θ : ℝ)
    (hM : M ≤ 2 ^ 800) (hS : S ≤ 2 ^ 899) (hΘ : Θ ≤ 2 ^ 19) (hmu : ∀ t, |F64.real (mu t)| ≤ M) (htheta : ∀ t, |F64.real (theta t)| ≤ Θ)
    (hsigma : ∀ t, 0 ≤ F64.real (sigma t) ∧ F64.real (sigma t) ≤ S)
    (c : Config) (hc : c.Ordinary) (z : ℕ → F64) (hz : ∀ k < c.nSteps, |F64.real (z k)| ≤ 2 ^ 20)
    (hsize : size Θ (Θ * M) 0 S c.step (√c.step) z (F64.real c.x0) c.nSteps ≤ 2 ^ 899) :
    ∃ times path, simulate (ou mu sigma theta) sqrt c z = some (times, path) ∧ path.length = c.nSteps + 1 ∧
      ∀ k ≤ c.nSteps, ∃ x, path[k]? = some x ∧
        |F64.real x - euler (fun t x => F64.real (theta t) * (F64.real (mu t) - x)) (fun t _ => F64.real (sigma t)) c.step (√c.step)
            (fun i => times.getD i F64.zero) z (F64.real c.x0) k| ≤
          k * 2 ^ (-47 : ℤ) * size Θ (Θ * M) 0 S c.step (√c.step) z (F64.real c.x0) k := by
  have hu := unit_pos
  have hu1 : unit ≤ 1 / 1000 := by unfold unit; norm_num
  have hM0 : 0 ≤ M := (abs_nonneg _).trans (hmu F64.zero)
  have hΘ0 : 0 ≤ Θ := (abs_nonneg _).trans (htheta F64.zero)
  refine small_error sqrt hsqrt (ou mu sigma theta) _ _ Θ (Θ * M) 0 S (3 * unit) (by positivity) (by linarith) (ou_computes hM hΘ hmu htheta) ?_ c hc z hz hsize
  · exact const_computes (by positivity) (fun t => by rw [abs_of_nonneg (hsigma t).1]; exact (hsigma t).2) hS fun x t => by
      have h := (hsigma t).1
      have : ¬ (sigma t).val < 0 := by unfold F64.real at h; have : (0 : ℚ) ≤ (sigma t).val := by exact_mod_cast h
                                       linarith
      simp only [ou, if_neg this]

theorem hw_computes {alpha sigma theta : F64 → F64} {A Θ : ℝ} (hA : A ≤ 2 ^ 19) (hΘ : Θ ≤ 2 ^ 899) (halpha : ∀ t, |F64.real (alpha t)| ≤ A)
    (htheta : ∀ t, |F64.real (theta t)| ≤ Θ) :
    Computes (hullWhite alpha sigma theta).drift (fun t x => F64.real (theta t) - F64.real (alpha t) * x) A Θ (3 * unit) := by
  have hu := unit_pos
  have hu1 : unit ≤ 1 / 1000 := by unfold unit; norm_num
  have hA0 : 0 ≤ A := (abs_nonneg _).trans (halpha F64.zero)
  have hΘ0 : 0 ≤ Θ := (abs_nonneg _).trans (htheta F64.zero)
  have bound : ∀ t x, |F64.real (alpha t) * x| ≤ A * |x| := fun t x => by
    rw [abs_mul]; exact mul_le_mul_of_nonneg_right (halpha t) (abs_nonneg _)
  refine ⟨⟨hA0, hA⟩, ⟨hΘ0, hΘ⟩, fun t x y => ?_, fun t x => ?_, fun x t hx => ?_⟩
  · rw [sub_sub_sub_cancel_left, ← mul_sub, abs_sub_comm x y]
    exact bound t _
  · refine (abs_sub _ _).trans ?_
    linarith [bound t x, htheta t]
  · obtain ⟨p, h1, h2⟩ := mulR (a := alpha t) (b := x) (big_mul ((halpha t).trans hA) hx (by norm_num))
    change |F64.real p - F64.real (alpha t) * F64.real x| ≤ unit * |F64.real (alpha t) * F64.real x| + Fft.mu at h2
    have hb := bound t (F64.real x)
    have hX0 : 0 ≤ A * |F64.real x| := by positivity
    have hmu := mu_pos
    have hnu := nu_eq
    have hnu1 := nu_le_one
    have e1 : unit * |F64.real (alpha t) * F64.real x| ≤ unit * (A * |F64.real x|) := mul_le_mul_of_nonneg_left hb hu.le
    have e2 : unit * (A * |F64.real x|) ≤ 1 / 1000 * (A * |F64.real x|) := mul_le_mul_of_nonneg_right hu1 hX0
    have e3 := abs_add_le (F64.real p - F64.real (alpha t) * F64.real x) (F64.real (alpha t) * F64.real x)
    rw [sub_add_cancel] at e3
    have e4 : |F64.real (theta t) - F64.real p| ≤ Θ + 1001 / 1000 * (A * |F64.real x|) + Fft.mu := by
      refine (abs_sub _ _).trans ?_
      linarith [htheta t]
    have e5 : Θ + 1001 / 1000 * (A * |F64.real x|) + Fft.mu ≤ 2 ^ 922 := by
      have f1 : A * |F64.real x| ≤ 2 ^ 919 := by
        rw [show 919 = 19 + 900 by norm_num, pow_add]
        exact mul_le_mul hA hx (abs_nonneg _) (by positivity)
      have f2 : (2 : ℝ) ^ 899 ≤ 2 ^ 919 := pow_le_pow_right₀ (by norm_num) (by norm_num)
      have f3 : (2 : ℝ) ^ 922 = 2 ^ 919 * 8 := by rw [show 922 = 919 + 3 by norm_num, pow_add]; norm_num
      have f4 : (1 : ℝ) ≤ 2 ^ 919 := one_le_pow₀ (by norm_num)
      have f5 := hΘ.trans f2
      rw [f3]
      generalize (2 : ℝ) ^ 919 = q at f1 f4 f5 ⊢
      linarith
    obtain ⟨y, h3, h4⟩ := subR (a := theta t) (b := p)
      (top_big ((e4.trans e5).trans (pow_le_pow_right₀ (by norm_num) (by norm_num))))
    change |F64.real y - (F64.real (theta t) - F64.real p)| ≤ unit * |F64.real (theta t) - F64.real p| at h4
    refine ⟨y, by simp only [hullWhite, h1, Option.bind_eq_bind, Option.bind_some, h3], ?_⟩
    change _ ≤ 3 * unit * (A * |F64.real x| + Θ) + nu
    have e6 := mul_le_mul_of_nonneg_left e4 hu.le
    have e7 : unit * Fft.mu ≤ 1 / 1000 * Fft.mu := mul_le_mul_of_nonneg_right hu1 hmu.le
    have e8 := abs_sub (F64.real y - (F64.real (theta t) - F64.real p)) (F64.real p - F64.real (alpha t) * F64.real x)
    rw [show F64.real y - (F64.real (theta t) - F64.real p) - (F64.real p - F64.real (alpha t) * F64.real x) =
      F64.real y - (F64.real (theta t) - F64.real (alpha t) * F64.real x) by ring] at e8
    have g1 : 0 ≤ unit * (A * |F64.real x|) := by positivity
    have g2 : 0 ≤ unit * Θ := by positivity
    linarith

/-- C97: Hull-White and extended Vasicek with `|alpha| ≤ A`, `|theta| ≤ Θ` and `|sigma| ≤ S`: the `k`-th value is within `k * 2^-47` of
the sum of sizes of the exact Euler-Maruyama recursion with drift `theta - alpha x` and diffusion `sigma`. -/
theorem C97_hull_white_error (sqrt : F64 → Option F64) (hsqrt : AccurateSqrt sqrt) (alpha sigma theta : F64 → F64) (A S Θ : ℝ)
    (hA : A ≤ 2 ^ 19) (hS : S ≤ 2 ^ 899) (hΘ : Θ ≤ 2 ^ 899) (halpha : ∀ t, |F64.real (alpha t)| ≤ A)
    (htheta : ∀ t, |F64.real (theta t)| ≤ Θ) (hsigma : ∀ t, |F64.real (sigma t)| ≤ S)
    (c : Config) (hc : c.Ordinary) (z : ℕ → F64) (hz : ∀ k < c.nSteps, |F64.real (z k)| ≤ 2 ^ 20)
    (hsize : size A Θ 0 S c.step (√c.step) z (F64.real c.x0) c.nSteps ≤ 2 ^ 899) :
    ∃ times path, simulate (hullWhite alpha sigma theta) sqrt c z = some (times, path) ∧ path.length = c.nSteps + 1 ∧
      ∀ k ≤ c.nSteps, ∃ x, path[k]? = some x ∧
        |F64.real x - euler (fun t x => F64.real (theta t) - F64.real (alpha t) * x) (fun t _ => F64.real (sigma t)) c.step (√c.step)
            (fun i => times.getD i F64.zero) z (F64.real c.x0) k| ≤
          k * 2 ^ (-47 : ℤ) * size A Θ 0 S c.step (√c.step) z (F64.real c.x0) k := by
  have hu := unit_pos
  have hu1 : unit ≤ 1 / 1000 := by unfold unit; norm_num
  have hA0 : 0 ≤ A := (abs_nonneg _).trans (halpha F64.zero)
  have hΘ0 : 0 ≤ Θ := (abs_nonneg _).trans (htheta F64.zero)
  refine small_error sqrt hsqrt (hullWhite alpha sigma theta) _ _ A Θ 0 S (3 * unit) (by positivity) (by linarith) (hw_computes hA hΘ halpha htheta)
    (const_computes (by positivity) hsigma hS fun x t => rfl) c hc z hz hsize

/-- C97: Brownian motion. The `k`-th value is within `k * 2^-47` of `|x_0| + 2^-900 + √h Σ |z_i|` of `x_0 + √h Σ z_i`. -/
theorem C97_bm_error (sqrt : F64 → Option F64) (hsqrt : AccurateSqrt sqrt)
    (c : Config) (hc : c.Ordinary) (z : ℕ → F64) (hz : ∀ k < c.nSteps, |F64.real (z k)| ≤ 2 ^ 20)
    (hsize : |F64.real c.x0| + 2 ^ (-900 : ℤ) + √c.step * ∑ i ∈ Finset.range c.nSteps, |F64.real (z i)| ≤ 2 ^ 899) :
    ∃ times path, simulate bm sqrt c z = some (times, path) ∧ path.length = c.nSteps + 1 ∧
      ∀ k ≤ c.nSteps, ∃ x, path[k]? = some x ∧
        |F64.real x - (F64.real c.x0 + √c.step * ∑ i ∈ Finset.range k, F64.real (z i))| ≤
        k * 2 ^ (-47 : ℤ) * (|F64.real c.x0| + 2 ^ (-900 : ℤ) + √c.step * ∑ i ∈ Finset.range k, |F64.real (z i)|) := by
  obtain ⟨one, h1, h2⟩ := toF64_isSome (x := 1) (by rw [rnd_rep rep_one, abs_one]; exact one_lt_pow₀ (by norm_num) (by norm_num))
  have hone : F64.real one = 1 := by unfold F64.real; rw [h2, rnd_rep rep_one]; norm_num
  have hzero : F64.real F64.zero = 0 := by unfold F64.real F64.zero; norm_num
  have hP : bm = abm (fun _ => F64.zero) fun _ => one := by
    have h01 : ¬ one.val < 0 := by rw [h2, rnd_rep rep_one]; norm_num
    unfold bm abm
    rw [h1]
    simp only [h01, if_false]
  rw [hP]
  have e : ∀ k, ∑ i ∈ Finset.range k, (0 * c.step + 1 * √c.step * |F64.real (z i)|) =
      √c.step * ∑ i ∈ Finset.range k, |F64.real (z i)| := by
    intro k; rw [Finset.mul_sum]; simp
  obtain ⟨times, path, g1, g2, g3⟩ := C97_abm_error sqrt hsqrt (fun _ => F64.zero) (fun _ => one) 0 1 (by positivity)
    (one_le_pow₀ (by norm_num)) (fun t => by rw [hzero, abs_zero]) (fun t => by rw [hone]; norm_num) c hc z hz
    (by rw [e]; exact hsize)
  refine ⟨times, path, g1, g2, fun k hk => ?_⟩
  obtain ⟨x, hx, hx'⟩ := g3 k hk
  refine ⟨x, hx, ?_⟩
  rw [e] at hx'
  simpa only [hone, hzero, zero_mul, one_mul, _root_.zero_add, ← Finset.mul_sum] using hx'

/-- C97: Ho-Lee is arithmetic Brownian motion with drift `theta`, which may not be negative: the bound of `C97_abm_error` holds. -/
theorem C97_ho_lee_error (sqrt : F64 → Option F64) (hsqrt : AccurateSqrt sqrt) (theta sigma : F64 → F64) (M S : ℝ)
    (hM : M ≤ 2 ^ 899) (hS : S ≤ 2 ^ 899) (htheta : ∀ t, 0 ≤ F64.real (theta t) ∧ F64.real (theta t) ≤ M)
    (hsigma : ∀ t, 0 ≤ F64.real (sigma t) ∧ F64.real (sigma t) ≤ S)
    (c : Config) (hc : c.Ordinary) (z : ℕ → F64) (hz : ∀ k < c.nSteps, |F64.real (z k)| ≤ 2 ^ 20)
    (hsize : |F64.real c.x0| + 2 ^ (-900 : ℤ) + ∑ i ∈ Finset.range c.nSteps, (M * c.step + S * √c.step * |F64.real (z i)|) ≤ 2 ^ 899) :
    ∃ times path, simulate (hoLee sigma theta) sqrt c z = some (times, path) ∧ path.length = c.nSteps + 1 ∧
      ∀ k ≤ c.nSteps, ∃ x, path[k]? = some x ∧
        |F64.real x - (F64.real c.x0 + ∑ i ∈ Finset.range k,
          (F64.real (theta (times.getD i F64.zero)) * c.step + F64.real (sigma (times.getD i F64.zero)) * √c.step * F64.real (z i)))| ≤
        k * 2 ^ (-47 : ℤ) * (|F64.real c.x0| + 2 ^ (-900 : ℤ) + ∑ i ∈ Finset.range k, (M * c.step + S * √c.step * |F64.real (z i)|)) := by
  have hP : hoLee sigma theta = abm theta sigma := by
    have h0 : ∀ t, ¬ (theta t).val < 0 := fun t => by
      have h := (htheta t).1
      unfold F64.real at h
      have : (0 : ℚ) ≤ (theta t).val := by exact_mod_cast h
      linarith
    unfold hoLee abm
    simp only [h0, if_false]
  rw [hP]
  exact C97_abm_error sqrt hsqrt theta sigma M S hM hS
    (fun t => by rw [abs_of_nonneg (htheta t).1]; exact (htheta t).2) hsigma c hc z hz hsize

/-! ## The hypotheses can be met -/

/-- There are square roots as accurate as asked for. -/
theorem sqrt_exists (a : F64) (ha : 0 < a.val) :
    ∃ r : F64, |F64.real r - √(F64.real a)| ≤ 2 * unit * √(F64.real a) := by
  have hu := unit_pos
  have hu1 : unit ≤ 1 / 1000 := by unfold unit; norm_num
  have haR : 0 < F64.real a := by unfold F64.real; exact_mod_cast ha
  have hs : 0 < √(F64.real a) := Real.sqrt_pos.2 haR
  set s := √(F64.real a) with hsdef
  have hlow : (2 : ℝ) ^ (-537 : ℤ) ≤ s := by
    obtain ⟨n, hn⟩ := rep_grid a.rep
    have hn1 : 1 ≤ n := by
      by_contra hc
      have : (n : ℚ) ≤ 0 := by exact_mod_cast (by omega : n ≤ 0)
      have : (n : ℚ) * 2 ^ (-1074 : ℤ) ≤ 0 := mul_nonpos_of_nonpos_of_nonneg this (by positivity)
      linarith
    have h1 : (2 : ℝ) ^ (-1074 : ℤ) ≤ F64.real a := by
      unfold F64.real
      rw [hn]
      push_cast
      exact le_mul_of_one_le_left (by positivity) (by exact_mod_cast hn1)
    rw [hsdef]
    refine Real.le_sqrt_of_sq_le ?_
    rw [← zpow_natCast, ← zpow_mul]
    norm_num at h1 ⊢
    exact h1
  have hup : s ≤ 2 ^ 512 := by
    rw [hsdef, Real.sqrt_le_left (by positivity), ← pow_mul]
    have h1 : a.val ≤ 2 ^ 1024 := (le_abs_self _).trans a.fin.le
    unfold F64.real
    exact_mod_cast h1
  obtain ⟨q, hq1, hq2⟩ := exists_rat_btwn (show s < (1 + unit / 2) * s by nlinarith)
  have hq0 : 0 < (q : ℝ) := hs.trans hq1
  obtain ⟨r, h1, h2⟩ := Fft.toF64_total (x := q) (by
    rw [abs_of_pos hq0]
    apply top_big
    calc (q : ℝ) ≤ 2 * 2 ^ 512 := hq2.le.trans (mul_le_mul (by linarith) hup hs.le (by norm_num))
      _ = 2 ^ 513 := by rw [pow_succ (2 : ℝ) 512, mul_comm]
      _ ≤ _ := pow_le_pow_right₀ (by norm_num) (by norm_num))
  refine ⟨r, ?_⟩
  have h3 := Fft.rnd_real q
  rw [← h2, abs_of_pos hq0] at h3
  change |F64.real r - q| ≤ unit * q + Fft.mu at h3
  have h4 : Fft.mu ≤ unit * (1 / 4 * s) := by
    calc Fft.mu ≤ unit * (1 / 4 * 2 ^ (-537 : ℤ)) := by
          unfold Fft.mu unit
          rw [show (1 / 4 : ℝ) = 2 ^ (-2 : ℤ) by norm_num, ← zpow_add₀ (by norm_num), ← zpow_add₀ (by norm_num)]
          exact zpow_le_zpow_right₀ (by norm_num) (by norm_num)
      _ ≤ _ := by gcongr
  have h5 := abs_add_le (F64.real r - q) ((q : ℝ) - s)
  rw [sub_add_sub_cancel, abs_of_pos (show (0 : ℝ) < q - s by linarith)] at h5
  have h6 := mul_le_mul_of_nonneg_left hq2.le hu.le
  have h7 : unit * (unit * s) ≤ 1 / 1000 * (unit * s) := mul_le_mul_of_nonneg_right hu1 (by positivity)
  have h8 : 0 < unit * s := by positivity
  linarith

open Classical in
/-- A square root for the examples. -/
noncomputable def someSqrt (a : F64) : Option F64 := if h : 0 < a.val then some (sqrt_exists a h).choose else none

theorem someSqrt_accurate : AccurateSqrt someSqrt := fun a h =>
  ⟨(sqrt_exists a h).choose, by unfold someSqrt; rw [dif_pos h], (sqrt_exists a h).choose_spec⟩

/-- Twelve steps from 0 to 1, from the value 1. -/
def someConfig : Config := ⟨lit 1, lit 0, lit 1, 12⟩

theorem real_one : F64.real (lit 1) = 1 := by
  have : (lit 1).val = 1 := by decide +kernel
  unfold F64.real; rw [this]; norm_num

theorem real_zero : F64.real (lit 0) = 0 := by
  have : (lit 0).val = 0 := by decide +kernel
  unfold F64.real; rw [this]; norm_num

theorem someConfig_ordinary : someConfig.Ordinary := by
  refine ⟨by unfold someConfig; norm_num, ?_, ?_⟩
  · simp only [someConfig, real_zero, real_one]; norm_num
  · simp only [someConfig, real_zero, real_one]
    rw [sub_zero, ← zpow_zero (2 : ℝ)]
    exact zpow_le_zpow_right₀ (by norm_num) (by norm_num)

theorem someConfig_step : someConfig.step = 1 / 12 := by
  simp only [Config.step, someConfig, real_zero, real_one]; norm_num

theorem someConfig_sqrt : √someConfig.step ≤ 1 := by
  rw [someConfig_step, Real.sqrt_le_left (by norm_num)]; norm_num

/-- Its sizes are small for coefficients up to 1. -/
theorem someConfig_size {B C S T : ℝ} (hB : 0 ≤ B ∧ B ≤ 1) (hC : 0 ≤ C ∧ C ≤ 1) (hS : 0 ≤ S ∧ S ≤ 1) (hT : 0 ≤ T ∧ T ≤ 1) :
    size B C S T someConfig.step (√someConfig.step) (fun _ => lit 1) (F64.real someConfig.x0) someConfig.nSteps ≤ 2 ^ 899 := by
  have hq := someConfig_sqrt
  have hq0 := Real.sqrt_nonneg someConfig.step
  have hstep : someConfig.step ≤ 1 := by rw [someConfig_step]; norm_num
  have hstep0 : 0 ≤ someConfig.step := by rw [someConfig_step]; norm_num
  have e1 : (2 : ℝ) ^ (-900 : ℤ) ≤ 1 := by
    rw [← zpow_zero (2 : ℝ)]; exact zpow_le_zpow_right₀ (by norm_num) (by norm_num)
  have key : ∀ k, size B C S T someConfig.step (√someConfig.step) (fun _ => lit 1) (F64.real someConfig.x0) k + 1 ≤ 3 ^ k * 3 := by
    intro k
    induction k with
    | zero =>
      have : F64.real someConfig.x0 = 1 := real_one
      simp only [size, this, abs_one]
      linarith
    | succ k ih =>
      have h0 := (size_pos (x0 := F64.real someConfig.x0) (z := fun _ => lit 1) hB.1 hC.1 hS.1 hT.1 hstep0 hq0 k).le
      simp only [size, real_one, abs_one, mul_one]
      set M := size B C S T someConfig.step (√someConfig.step) (fun _ => lit 1) (F64.real someConfig.x0) k
      have f1 : (B * M + C) * someConfig.step ≤ (M + 1) * 1 := by
        refine mul_le_mul ?_ hstep hstep0 (by linarith)
        have := mul_le_mul_of_nonneg_right hB.2 h0
        linarith [hC.2]
      have f2 : (S * M + T) * √someConfig.step ≤ (M + 1) * 1 := by
        refine mul_le_mul ?_ hq hq0 (by linarith)
        have := mul_le_mul_of_nonneg_right hS.2 h0
        linarith [hT.2]
      rw [pow_succ]
      linarith
  have h := key 12
  calc _ ≤ (3 : ℝ) ^ 12 * 3 := by change size B C S T _ _ _ _ 12 ≤ _; linarith
    _ ≤ 2 ^ 30 := by norm_num
    _ ≤ 2 ^ 899 := pow_le_pow_right₀ (by norm_num) (by norm_num)

theorem noise_small : ∀ k < someConfig.nSteps, |F64.real ((fun _ => lit 1 : ℕ → F64) k)| ≤ 2 ^ 20 := fun _ _ => by
  simp only [real_one]; norm_num

theorem lit_one_le (t : F64) : |F64.real ((fun _ => lit 1 : F64 → F64) t)| ≤ 1 := by simp only [real_one, abs_one, le_refl]

theorem lit_one_in (t : F64) : 0 ≤ F64.real ((fun _ => lit 1 : F64 → F64) t) ∧ F64.real ((fun _ => lit 1 : F64 → F64) t) ≤ 1 := by
  simp only [real_one]; norm_num

/-- Twelve steps of geometric Brownian motion meet the hypotheses of `C97_gbm_error`, and those of `C97_times`. -/
example : ∃ times path, simulate (gbm (fun _ => lit 1) fun _ => lit 1) someSqrt someConfig (fun _ => lit 1) = some (times, path) ∧
    path.length = 13 ∧ times.head? = some someConfig.t0 := by
  obtain ⟨times, path, h1, h2, _⟩ := C97_gbm_error someSqrt someSqrt_accurate (fun _ => lit 1) (fun _ => lit 1) 1 1 (by norm_num)
    (by norm_num) lit_one_le lit_one_in someConfig someConfig_ordinary (fun _ => lit 1) noise_small (by
      have hq := someConfig_sqrt
      have hq0 := Real.sqrt_nonneg someConfig.step
      have e1 : (2 : ℝ) ^ (-900 : ℤ) ≤ 1 := by
        rw [← zpow_zero (2 : ℝ)]; exact zpow_le_zpow_right₀ (by norm_num) (by norm_num)
      have hx : |F64.real someConfig.x0| = 1 := by change |F64.real (lit 1)| = 1; rw [real_one, abs_one]
      have e2 : (1 + 1 * someConfig.step + 1 * √someConfig.step * |(1 : ℝ)|) ^ 12 ≤ 4 ^ 12 := by
        refine pow_le_pow_left₀ (by rw [someConfig_step] at *; positivity) ?_ _
        rw [abs_one, someConfig_step] at *; linarith
      have e0 : 0 ≤ (1 + 1 * someConfig.step + 1 * √someConfig.step * |(1 : ℝ)|) ^ 12 := by
        rw [someConfig_step]; positivity
      simp only [real_one, Finset.prod_const, Finset.card_range]
      rw [hx, show someConfig.nSteps = 12 from rfl]
      calc _ ≤ (2 : ℝ) * 4 ^ 12 := mul_le_mul (by linarith) e2 e0 (by norm_num)
        _ ≤ 2 ^ 30 := by norm_num
        _ ≤ 2 ^ 899 := pow_le_pow_right₀ (by norm_num) (by norm_num))
  exact ⟨times, path, h1, h2, (C97_times _ _ _ _ _ _ (by unfold someConfig; norm_num) h1).2.2.2.2.2.1⟩

/-- Twelve steps of Ornstein-Uhlenbeck meet the hypotheses of `C97_ou_error`. -/
example : ∃ times path, simulate (ou (fun _ => lit 1) (fun _ => lit 1) fun _ => lit 1) someSqrt someConfig (fun _ => lit 1) =
    some (times, path) := by
  obtain ⟨times, path, h1, _⟩ := C97_ou_error someSqrt someSqrt_accurate (fun _ => lit 1) (fun _ => lit 1) (fun _ => lit 1) 1 1 1
    (one_le_pow₀ (by norm_num)) (one_le_pow₀ (by norm_num)) (one_le_pow₀ (by norm_num)) lit_one_le lit_one_le lit_one_in
    someConfig someConfig_ordinary (fun _ => lit 1) noise_small (someConfig_size (by norm_num) (by norm_num) (by norm_num) (by norm_num))
  exact ⟨times, path, h1⟩

/-- Twelve steps of Hull-White meet the hypotheses of `C97_hull_white_error`. -/
example : ∃ times path, simulate (hullWhite (fun _ => lit 1) (fun _ => lit 1) fun _ => lit 1) someSqrt someConfig (fun _ => lit 1) =
    some (times, path) := by
  obtain ⟨times, path, h1, _⟩ := C97_hull_white_error someSqrt someSqrt_accurate (fun _ => lit 1) (fun _ => lit 1) (fun _ => lit 1) 1 1 1
    (one_le_pow₀ (by norm_num)) (one_le_pow₀ (by norm_num)) (one_le_pow₀ (by norm_num)) lit_one_le lit_one_le lit_one_le
    someConfig someConfig_ordinary (fun _ => lit 1) noise_small (someConfig_size (by norm_num) (by norm_num) (by norm_num) (by norm_num))
  exact ⟨times, path, h1⟩

/-- The hypotheses of `C97_abm_error` and `C97_ho_lee_error` are met by twelve steps with unit coefficients. -/
theorem someConfig_sum : |F64.real someConfig.x0| + 2 ^ (-900 : ℤ) +
    ∑ i ∈ Finset.range someConfig.nSteps, (1 * someConfig.step + 1 * √someConfig.step * |F64.real ((fun _ => lit 1 : ℕ → F64) i)|) ≤ 2 ^ 899 := by
  have hq := someConfig_sqrt
  have e1 : (2 : ℝ) ^ (-900 : ℤ) ≤ 1 := by
    rw [← zpow_zero (2 : ℝ)]; exact zpow_le_zpow_right₀ (by norm_num) (by norm_num)
  have hx : |F64.real someConfig.x0| = 1 := by change |F64.real (lit 1)| = 1; rw [real_one, abs_one]
  refine le_trans ?_ (pow_le_pow_right₀ (by norm_num) (by norm_num : 30 ≤ 899))
  simp only [real_one, Finset.sum_const, Finset.card_range, abs_one]
  rw [hx, show someConfig.nSteps = 12 from rfl, nsmul_eq_mul]
  have key : ∀ a q : ℝ, a ≤ 1 → q ≤ 1 → 1 + a + ((12 : ℕ) : ℝ) * (1 * (1 / 12) + 1 * q * 1) ≤ 2 ^ 30 := by
    intro a q h1 h2; norm_num; linarith
  rw [someConfig_step] at *
  exact key _ _ e1 hq

example : ∃ times path, simulate (abm (fun _ => lit 1) fun _ => lit 1) someSqrt someConfig (fun _ => lit 1) = some (times, path) := by
  obtain ⟨times, path, h1, _⟩ := C97_abm_error someSqrt someSqrt_accurate (fun _ => lit 1) (fun _ => lit 1) 1 1
    (one_le_pow₀ (by norm_num)) (one_le_pow₀ (by norm_num)) lit_one_le lit_one_in someConfig someConfig_ordinary (fun _ => lit 1)
    noise_small someConfig_sum
  exact ⟨times, path, h1⟩

example : ∃ times path, simulate (hoLee (fun _ => lit 1) fun _ => lit 1) someSqrt someConfig (fun _ => lit 1) = some (times, path) := by
  obtain ⟨times, path, h1, _⟩ := C97_ho_lee_error someSqrt someSqrt_accurate (fun _ => lit 1) (fun _ => lit 1) 1 1
    (one_le_pow₀ (by norm_num)) (one_le_pow₀ (by norm_num)) lit_one_in lit_one_in someConfig someConfig_ordinary (fun _ => lit 1)
    noise_small someConfig_sum
  exact ⟨times, path, h1⟩

/-- Twelve steps of Brownian motion meet the hypotheses of `C97_bm_error`. -/
example : ∃ times path, simulate bm someSqrt someConfig (fun _ => lit 1) = some (times, path) := by
  obtain ⟨times, path, h1, _⟩ := C97_bm_error someSqrt someSqrt_accurate someConfig someConfig_ordinary (fun _ => lit 1) noise_small (by
    refine le_trans ?_ someConfig_sum
    rw [Finset.mul_sum]
    refine add_le_add_right ?_ _
    refine Finset.sum_le_sum fun i _ => ?_
    have : 0 ≤ someConfig.step := by rw [someConfig_step]; norm_num
    linarith)
  exact ⟨times, path, h1⟩

end Verif.Float.Sim
