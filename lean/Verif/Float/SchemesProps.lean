import Verif.Float.SchemesRun
import Verif.Float.SchemesMilstein

/-!
# C115: the Milstein and Strang-splitting schemes in double precision

The specification is in `SchemesSpec` (and `SimulationSpec`): the exact Strang-splitting recursion (`strangExact`), the recursion for the
sum of the sizes of everything that is added (`strangSize`), and the rounded Euler-Maruyama step without scaling of the noise
(`unscaledStep`).
-/

namespace Verif.Float.Sim

open Verif.Float.Fft (ur ur_pos ur_le mu mu_pos)

/-! ## The times -/

/-- C115: whatever is simulated with either scheme, the start lies before the end, there are one more times than steps and as many values;
the first time is the start, exactly, the times do not decrease, and time `k` is within `2^-49` of the larger end in size (plus an underflow
term) of `t_0 + k (t_n - t_0) / n`. The first value is the initial value. -/
theorem C115_times (step : F64 → F64 → F64 → F64 → Option F64) (c : Config) (z : ℕ → F64) (times path : List F64)
    (hn : c.nSteps < 2 ^ 53) (h : simulateWith step c z = some (times, path)) :
    c.t0.val < c.tn.val ∧ 1 ≤ c.nSteps ∧ times.length = c.nSteps + 1 ∧ path.length = c.nSteps + 1 ∧ path.head? = some c.x0 ∧
    times.head? = some c.t0 ∧ times.Pairwise (fun a b => a.val ≤ b.val) ∧
    ∀ (k : ℕ) (t : F64), times[k]? = some t →
      |t.val - (c.t0.val + k * ((c.tn.val - c.t0.val) / c.nSteps))| ≤
        2 ^ (-49 : ℤ) * max |c.t0.val| |c.tn.val| + (c.nSteps + 1) * 2 ^ (-1073 : ℤ) := by
  unfold simulateWith at h
  split_ifs at h with hc
  simp only [Option.bind_eq_bind, Option.bind_eq_some_iff, Option.pure_def, Option.some.injEq, Prod.mk.injEq] at h
  obtain ⟨dt, h1, ts, h2, p, h4, rfl, rfl⟩ := h
  have hl : linspace c.t0 c.tn (c.nSteps + 1) = some (some ts) := by
    rw [linspace_eq c hc, h1]; simp only [Option.bind_some, h2]
  obtain ⟨g1, g2, g3, g4, g5⟩ := C88_linspace _ _ _ (by omega) _ hl
  have hp : ∀ (n : ℕ) (p : List F64), runWith (step dt) ts z c.x0 n = some p → p.length = n + 1 ∧ p.head? = some c.x0 := by
    intro n
    induction n with
    | zero => intro p hp; cases hp; exact ⟨rfl, rfl⟩
    | succ n ih =>
      intro p hp
      simp only [runWith, Option.bind_eq_bind, Option.bind_eq_some_iff, Option.pure_def, Option.some.injEq] at hp
      obtain ⟨q, hq, t, ht, x, hx, y, hy, rfl⟩ := hp
      obtain ⟨i1, i2⟩ := ih q hq
      refine ⟨by simp [i1], ?_⟩
      cases q with
      | nil => simp at i1
      | cons a q => simpa using i2
  refine ⟨hc, by omega, g2, (hp _ _ h4).1, (hp _ _ h4).2, g3, g4, fun k t ht => ?_⟩
  have := g5 k t ht
  simp only [Nat.add_sub_cancel] at this
  push_cast at this ⊢
  exact this

/-- The time of the middle of a step. -/
theorem mid_close {c : Config} (hc : c.Ordinary) {dt : F64} {times : List F64} (h1 : c.dt = some dt) (h2 : c.times dt = some times)
    (h4 : |F64.real dt - c.step| ≤ 3 * ur * c.step) (h5 : 0 < c.step) (h6 : c.step ≤ 2 ^ 19) (k : ℕ) (hk : k < c.nSteps) :
    ∃ m, midTime dt (times.getD k F64.zero) = some m ∧
      |F64.real m - (F64.real c.t0 + (k + 1 / 2) * c.step)| ≤ 2 ^ (-30 : ℤ) := by
  have hl : linspace c.t0 c.tn (c.nSteps + 1) = some (some times) := by
    rw [linspace_eq c hc.lt, h1]; simp only [Option.bind_some, h2]
  obtain ⟨g1, g2, g3, g4, g5⟩ := C88_linspace _ _ _ (by have := hc.steps.2; omega) _ hl
  have htk : times[k]? = some (times.getD k F64.zero) := by
    rw [List.getElem?_eq_getElem (by omega), List.getD_eq_getElem?_getD, List.getElem?_eq_getElem (by omega)]; rfl
  have g6 := g5 k _ htk
  generalize times.getD k F64.zero = t at g6 ⊢
  simp only [Nat.add_sub_cancel] at g6
  have hnR : (0 : ℝ) < c.nSteps := by exact_mod_cast hc.steps.1
  have b0 := hc.ends.1
  have b1 := hc.ends.2
  have e1 : |F64.real t - (F64.real c.t0 + k * c.step)| ≤ 2 ^ (-31 : ℤ) + 2 ^ (-60 : ℤ) := by
    have h := (Rat.cast_le (K := ℝ)).2 g6
    push_cast at h
    have h' : |F64.real t - (F64.real c.t0 + k * c.step)| ≤
        2 ^ (-49 : ℤ) * max |F64.real c.t0| |F64.real c.tn| + (c.nSteps + 1) * 2 ^ (-1073 : ℤ) := h
    refine h'.trans (_root_.add_le_add ?_ ?_)
    · have : max |F64.real c.t0| |F64.real c.tn| ≤ 2 ^ (18 : ℤ) := max_le (by exact_mod_cast b0) (by exact_mod_cast b1)
      calc (2 : ℝ) ^ (-49 : ℤ) * max |F64.real c.t0| |F64.real c.tn| ≤ 2 ^ (-49 : ℤ) * 2 ^ (18 : ℤ) :=
            mul_le_mul_of_nonneg_left this (by positivity)
        _ = 2 ^ (-31 : ℤ) := by rw [← zpow_add₀ (by norm_num)]; norm_num
    · have hn : (c.nSteps : ℝ) + 1 ≤ 2 ^ (41 : ℤ) := by
        have : (c.nSteps : ℝ) ≤ 2 ^ 40 := by exact_mod_cast hc.steps.2
        have e : (2 : ℝ) ^ (41 : ℤ) = 2 * 2 ^ 40 := by norm_num
        rw [e]
        generalize (c.nSteps : ℝ) = n at this
        norm_num at this ⊢
        linarith
      calc ((c.nSteps : ℝ) + 1) * 2 ^ (-1073 : ℤ) ≤ 2 ^ (41 : ℤ) * 2 ^ (-1073 : ℤ) := mul_le_mul_of_nonneg_right hn (by positivity)
        _ = 2 ^ (-1032 : ℤ) := by rw [← zpow_add₀ (by norm_num)]; norm_num
        _ ≤ 2 ^ (-60 : ℤ) := zpow_le_zpow_right₀ (by norm_num) (by norm_num)
  have hu : ur = 1 / 9007199254740992 := by unfold ur; norm_num
  have hmu : mu ≤ 1 / 2 ^ 60 := by
    have : mu ≤ 2 ^ (-60 : ℤ) := by unfold mu; exact zpow_le_zpow_right₀ (by norm_num) (by norm_num)
    exact this.trans (by norm_num)
  have hk1 : (k : ℝ) * c.step ≤ F64.real c.tn - F64.real c.t0 := by
    unfold Config.step
    rw [mul_div_assoc', div_le_iff₀ hnR, mul_comm]
    have hp : 0 ≤ F64.real c.tn - F64.real c.t0 := le_trans (by positivity) hc.period
    exact mul_le_mul_of_nonneg_left (by exact_mod_cast hk.le) hp
  have hk0 : 0 ≤ (k : ℝ) * c.step := by positivity
  obtain ⟨hf, hhf, hhf1⟩ := half_real
  have hdt := abs_le.1 h4
  have hd0 : 0 ≤ F64.real dt := by
    have : 3 * ur * c.step ≤ 1 * c.step := mul_le_mul_of_nonneg_right (by rw [hu]; norm_num) h5.le
    linarith
  have hd1 : F64.real dt ≤ 2 ^ 20 := by
    have : 3 * ur * c.step ≤ 1 * c.step := mul_le_mul_of_nonneg_right (by rw [hu]; norm_num) h5.le
    norm_num at h6 ⊢
    linarith
  obtain ⟨hd, hhd, hhd1⟩ := mulR (a := hf) (b := dt) (big_mul (i := 0) (by rw [hhf1]; norm_num)
    (by rw [abs_of_nonneg hd0]; exact hd1) (by norm_num))
  rw [hhf1, abs_of_nonneg (show 0 ≤ 1 / 2 * F64.real dt by linarith)] at hhd1
  norm_num at b0 b1 h6 hd1 e1 hmu
  rw [hu] at hhd1 hdt
  have b0' := abs_le.1 b0
  have b1' := abs_le.1 b1
  have e1' := abs_le.1 e1
  have hhd2 := abs_le.1 hhd1
  have hs1 : |F64.real t + F64.real hd| ≤ 2 ^ 20 := by
    rw [abs_le]; norm_num; constructor <;> linarith
  obtain ⟨m, hm, hm1⟩ := addR (a := t) (b := hd) (hs1.trans (top_big (pow_le_pow_right₀ (by norm_num) (by norm_num))))
  refine ⟨m, ?_, ?_⟩
  · unfold midTime
    simp only [hhf, hhd, hm, Option.bind_eq_bind, Option.bind_some]
  · have h7 := hm1.trans (mul_le_mul_of_nonneg_left hs1 ur_pos.le)
    rw [hu] at h7
    have h8 := abs_le.1 h7
    rw [abs_le]
    norm_num at h8 ⊢
    constructor <;> linarith

/-! ## The Strang-splitting scheme -/

/-- C115: for a drift and a diffusion with Lipschitz constants `B` and `S` and sizes at most `B|x| + C` and `S|x| + T`, computed with
relative error `η`, every Strang-splitting path comes out finite, and its `k`-th value differs from the exact recursion
`x + b h + s(x + b h / 2) z` (exact step `h = (t_n - t_0)/n`, the same noise, which is not scaled) by at most `(1 + 3η + 40 * 2^-53)^k - 1`
times the sum of the sizes of all terms. The diffusion is taken at times within `2^-30` of the middle of the steps. -/
theorem C115_strang_error (P : Process) (b s : F64 → ℝ → ℝ) (B C S T η : ℝ)
    (hη : 0 ≤ η) (hη1 : η ≤ 1 / 20000) (hd : Computes P.drift b B C η) (hs : Computes P.diffusion s S T η)
    (c : Config) (hc : c.Ordinary) (z : ℕ → F64) (hz : ∀ k < c.nSteps, |F64.real (z k)| ≤ 2 ^ 20)
    (hgrow : (1 + 3 * η + 40 * unit) ^ c.nSteps ≤ 2)
    (hsize : strangSize B C S T c.step z (F64.real c.x0) c.nSteps ≤ 2 ^ 898) :
    ∃ times path, ∃ mid : ℕ → F64, strang P c z = some (times, path) ∧ path.length = c.nSteps + 1 ∧
      (∀ k < c.nSteps, |F64.real (mid k) - (F64.real c.t0 + (k + 1 / 2) * c.step)| ≤ 2 ^ (-30 : ℤ)) ∧
      ∀ k ≤ c.nSteps, ∃ x, path[k]? = some x ∧
        |F64.real x - strangExact b s c.step (fun i => times.getD i F64.zero) mid z (F64.real c.x0) k| ≤
          ((1 + 3 * η + 40 * unit) ^ k - 1) * strangSize B C S T c.step z (F64.real c.x0) k := by
  change (1 + 3 * η + 40 * ur) ^ c.nSteps ≤ 2 at hgrow
  obtain ⟨dt, times, h1, h2, h3, h4, h5, h6⟩ := hc.computed
  have hu := ur_pos
  have hu1 : ur ≤ 1 / 10 ^ 6 := by unfold ur; norm_num
  obtain ⟨hdt0, hr⟩ := ratio (δ := 4 * ur) h5 (by positivity) (by linarith) h4 (by nlinarith)
  have hη' : η + 4 * ur ≤ (η + 8 * ur) * (c.step / F64.real dt) := by
    have := (abs_le.1 hr).2
    have h7 : (η + 8 * ur) * (1 - 4 * ur) ≤ (η + 8 * ur) * (c.step / F64.real dt) :=
      mul_le_mul_of_nonneg_left (by linarith) (by positivity)
    have h8 : η * ur ≤ 1 / 2000 * ur := mul_le_mul_of_nonneg_right (by linarith) hu.le
    have h9 : ur * ur ≤ 1 / 10 ^ 6 * ur := mul_le_mul_of_nonneg_right hu1 hu.le
    linarith
  have t1 := hd.scale hr (by linarith) hη'
  have t2 := hs.tracks (show η ≤ η + 8 * ur by linarith)
  have m1 : c.step / F64.real dt * F64.real dt = c.step := div_mul_cancel₀ _ hdt0.ne'
  have hdtb : F64.real dt ≤ 2 ^ 20 := by
    have := (abs_le.1 h4).2
    have e : 3 * ur * c.step ≤ 1 * c.step := mul_le_mul_of_nonneg_right (by linarith) h5.le
    norm_num at h6 ⊢
    linarith
  have eε : 1 + (3 * (η + 8 * ur) + 16 * ur) = 1 + 3 * η + 40 * ur := by ring
  have hmid : ∀ k, ∃ m, k < c.nSteps → midTime dt (times.getD k F64.zero) = some m ∧
      |F64.real m - (F64.real c.t0 + (k + 1 / 2) * c.step)| ≤ 2 ^ (-30 : ℤ) := fun k => by
    by_cases hk : k < c.nSteps
    · obtain ⟨m, hm⟩ := mid_close hc h1 h2 h4 h5 h6 k hk
      exact ⟨m, fun _ => hm⟩
    · exact ⟨F64.zero, fun h => absurd h hk⟩
  choose mid hmid using hmid
  have hmid1 := fun k hk => (hmid k hk).1
  have hmid2 := fun k hk => (hmid k hk).2
  obtain ⟨p, hp1, hp2, hp3⟩ := strang_run (η := η + 8 * ur) (x0 := c.x0) (times := times) (z := z) (n := c.nSteps) (by positivity)
    (by linarith) t1 t2 hdt0.le hdtb hmid1 hz (by omega) (by rw [eε]; exact hgrow)
    (by rw [strangSize_scale m1]; exact hsize)
  refine ⟨times, p, mid, ?_, hp2, hmid2, fun k hk => ?_⟩
  · unfold strang simulateWith
    rw [if_pos hc.lt]
    simp only [h1, h2, hp1, Option.bind_eq_bind, Option.bind_some, Option.pure_def]
  · obtain ⟨x, hx1, hx2⟩ := hp3 k hk
    refine ⟨x, hx1, ?_⟩
    rw [strangExact_scale m1, strangSize_scale m1, eε] at hx2
    exact hx2

theorem strang_grow_bound {η : ℝ} (hη : 0 ≤ η) (hη1 : η ≤ 4 * unit) (k : ℕ) (hk : k ≤ 2 ^ 40) :
    (1 + 3 * η + 40 * unit) ^ k ≤ 1 + k * 2 ^ (-46 : ℤ) := by
  have h0 : ((1 + u) ^ (64 * k) : ℚ) ≤ 1 + (64 * k : ℕ) * 2 ^ (-52 : ℤ) := pow_bound _ (by omega)
  have h1 : ((1 + unit) ^ (64 * k) : ℝ) ≤ 1 + (64 * k : ℕ) * 2 ^ (-52 : ℤ) := by
    have := (Rat.cast_le (K := ℝ)).2 h0
    unfold u at this
    push_cast at this ⊢
    exact this
  have hu : 0 ≤ unit := by unfold unit; positivity
  calc (1 + 3 * η + 40 * unit) ^ k ≤ ((1 + unit) ^ 64) ^ k := by
        refine pow_le_pow_left₀ (by positivity) ?_ _
        have := one_add_mul_le_pow (show (-2 : ℝ) ≤ unit by linarith) 64
        push_cast at this
        linarith
    _ = (1 + unit) ^ (64 * k) := (pow_mul _ _ _).symm
    _ ≤ _ := h1
    _ = 1 + k * 2 ^ (-46 : ℤ) := by
      push_cast
      rw [show (-46 : ℤ) = 6 + -52 by norm_num, zpow_add₀ (by norm_num)]
      norm_num
      ring

theorem strang_grow_two {η : ℝ} (hη : 0 ≤ η) (hη1 : η ≤ 4 * unit) (k : ℕ) (hk : k ≤ 2 ^ 40) : (1 + 3 * η + 40 * unit) ^ k ≤ 2 := by
  refine (strang_grow_bound hη hη1 k hk).trans ?_
  have : (k : ℝ) ≤ 1099511627776 := le_trans (by exact_mod_cast hk : (k : ℝ) ≤ 2 ^ 40) (by norm_num)
  have h2 : (2 : ℝ) ^ (-46 : ℤ) = 1 / 70368744177664 := by norm_num
  rw [h2]
  linarith

/-- `C115_strang_error` for errors of a few units of rounding. -/
theorem strang_small (P : Process) (b s : F64 → ℝ → ℝ) (B C S T η : ℝ)
    (hη : 0 ≤ η) (hη1 : η ≤ 4 * unit) (hd : Computes P.drift b B C η) (hs : Computes P.diffusion s S T η)
    (c : Config) (hc : c.Ordinary) (z : ℕ → F64) (hz : ∀ k < c.nSteps, |F64.real (z k)| ≤ 2 ^ 20)
    (hsize : strangSize B C S T c.step z (F64.real c.x0) c.nSteps ≤ 2 ^ 898) :
    ∃ times path, ∃ mid : ℕ → F64, strang P c z = some (times, path) ∧ path.length = c.nSteps + 1 ∧
      (∀ k < c.nSteps, |F64.real (mid k) - (F64.real c.t0 + (k + 1 / 2) * c.step)| ≤ 2 ^ (-30 : ℤ)) ∧
      ∀ k ≤ c.nSteps, ∃ x, path[k]? = some x ∧
        |F64.real x - strangExact b s c.step (fun i => times.getD i F64.zero) mid z (F64.real c.x0) k| ≤
          k * 2 ^ (-46 : ℤ) * strangSize B C S T c.step z (F64.real c.x0) k := by
  have hu : unit ≤ 1 / 10 ^ 6 := by unfold unit; norm_num
  obtain ⟨times, path, mid, h1, h2, h3, h4⟩ := C115_strang_error P b s B C S T η hη (by linarith) hd hs c hc z hz
    (strang_grow_two hη hη1 _ hc.steps.2) hsize
  refine ⟨times, path, mid, h1, h2, h3, fun k hk => ?_⟩
  obtain ⟨x, hx, hx'⟩ := h4 k hk
  refine ⟨x, hx, hx'.trans (mul_le_mul_of_nonneg_right ?_ ?_)⟩
  · have := strang_grow_bound hη hη1 k (hk.trans hc.steps.2)
    linarith
  · have hst : 0 ≤ c.step := hc.computed.choose_spec.choose_spec.2.2.2.2.1.le
    exact (strangSize_pos hd.slope.1 hd.offset.1 hs.slope.1 hs.offset.1 hst k).le

theorem not_neg_of_real {a : F64} (h : 0 ≤ F64.real a) : ¬ a.val < 0 := by
  unfold F64.real at h
  have : (0 : ℚ) ≤ a.val := by exact_mod_cast h
  linarith

/-- C115: geometric Brownian motion by Strang splitting, with `|mu| ≤ M` and `0 ≤ sigma ≤ S`. The `k`-th value is within `k * 2^-46` of
`(|x_0| + 2^-900) Π (1 + M h + S (1 + M h / 2) |z_i|)` of `x_0 Π (1 + mu h + sigma (1 + mu h / 2) z_i)`. -/
theorem C115_strang_gbm_error (mu sigma : F64 → F64) (M S : ℝ)
    (hM : M ≤ 2 ^ 19) (hS : S ≤ 2 ^ 19) (hmu : ∀ t, |F64.real (mu t)| ≤ M) (hsigma : ∀ t, 0 ≤ F64.real (sigma t) ∧ F64.real (sigma t) ≤ S)
    (c : Config) (hc : c.Ordinary) (z : ℕ → F64) (hz : ∀ k < c.nSteps, |F64.real (z k)| ≤ 2 ^ 20)
    (hsize : (|F64.real c.x0| + 2 ^ (-900 : ℤ)) *
      ∏ i ∈ Finset.range c.nSteps, (1 + M * c.step + S * (1 + M * c.step / 2) * |F64.real (z i)|) ≤ 2 ^ 898) :
    ∃ times path, ∃ mid : ℕ → F64, strang (gbm mu sigma) c z = some (times, path) ∧ path.length = c.nSteps + 1 ∧
      (∀ k < c.nSteps, |F64.real (mid k) - (F64.real c.t0 + (k + 1 / 2) * c.step)| ≤ 2 ^ (-30 : ℤ)) ∧
      ∀ k ≤ c.nSteps, ∃ x, path[k]? = some x ∧
        |F64.real x - F64.real c.x0 * ∏ i ∈ Finset.range k, (1 + F64.real (mu (times.getD i F64.zero)) * c.step +
          F64.real (sigma (mid i)) * (1 + F64.real (mu (times.getD i F64.zero)) * c.step / 2) * F64.real (z i))| ≤
        k * 2 ^ (-46 : ℤ) * ((|F64.real c.x0| + 2 ^ (-900 : ℤ)) *
          ∏ i ∈ Finset.range k, (1 + M * c.step + S * (1 + M * c.step / 2) * |F64.real (z i)|)) := by
  have hu := unit_pos
  have esize : ∀ k, strangSize M 0 S 0 c.step z (F64.real c.x0) k = (|F64.real c.x0| + 2 ^ (-900 : ℤ)) *
      ∏ i ∈ Finset.range k, (1 + M * c.step + S * (1 + M * c.step / 2) * |F64.real (z i)|) := by
    intro k
    induction k with
    | zero => simp [strangSize]
    | succ k ih => simp only [strangSize]; rw [ih, Finset.prod_range_succ]; ring
  obtain ⟨times, path, mid, h1, h2, h3, h4⟩ := strang_small (gbm mu sigma) (fun t x => F64.real (mu t) * x)
    (fun t x => F64.real (sigma t) * x) M 0 S 0 unit hu.le (by linarith) (linear_computes hmu hM fun x t => rfl)
    (linear_computes (fun t => by rw [abs_of_nonneg (hsigma t).1]; exact (hsigma t).2) hS fun x t => by
      simp only [gbm, if_neg (not_neg_of_real (hsigma t).1)]) c hc z hz (by rw [esize]; exact hsize)
  refine ⟨times, path, mid, h1, h2, h3, fun k hk => ?_⟩
  obtain ⟨x, hx, hx'⟩ := h4 k hk
  refine ⟨x, hx, ?_⟩
  rw [esize] at hx'
  convert hx' using 3
  clear hx hx' hk h4 h1 h2
  induction k with
  | zero => simp [strangExact]
  | succ k ih => simp only [strangExact]; rw [← ih, Finset.prod_range_succ]; ring

/-- C115: arithmetic Brownian motion by Strang splitting, with `|mu| ≤ M` and `0 ≤ sigma ≤ S`. The `k`-th value is within `k * 2^-46` of
`|x_0| + 2^-900 + Σ (M h + S |z_i|)` of `x_0 + Σ (mu h + sigma z_i)`. -/
theorem C115_strang_abm_error (mu sigma : F64 → F64) (M S : ℝ)
    (hM : M ≤ 2 ^ 899) (hS : S ≤ 2 ^ 899) (hmu : ∀ t, |F64.real (mu t)| ≤ M)
    (hsigma : ∀ t, 0 ≤ F64.real (sigma t) ∧ F64.real (sigma t) ≤ S)
    (c : Config) (hc : c.Ordinary) (z : ℕ → F64) (hz : ∀ k < c.nSteps, |F64.real (z k)| ≤ 2 ^ 20)
    (hsize : |F64.real c.x0| + 2 ^ (-900 : ℤ) + ∑ i ∈ Finset.range c.nSteps, (M * c.step + S * |F64.real (z i)|) ≤ 2 ^ 898) :
    ∃ times path, ∃ mid : ℕ → F64, strang (abm mu sigma) c z = some (times, path) ∧ path.length = c.nSteps + 1 ∧
      (∀ k < c.nSteps, |F64.real (mid k) - (F64.real c.t0 + (k + 1 / 2) * c.step)| ≤ 2 ^ (-30 : ℤ)) ∧
      ∀ k ≤ c.nSteps, ∃ x, path[k]? = some x ∧
        |F64.real x - (F64.real c.x0 + ∑ i ∈ Finset.range k,
          (F64.real (mu (times.getD i F64.zero)) * c.step + F64.real (sigma (mid i)) * F64.real (z i)))| ≤
        k * 2 ^ (-46 : ℤ) * (|F64.real c.x0| + 2 ^ (-900 : ℤ) + ∑ i ∈ Finset.range k, (M * c.step + S * |F64.real (z i)|)) := by
  have hu := unit_pos
  have esize : ∀ k, strangSize 0 M 0 S c.step z (F64.real c.x0) k =
      |F64.real c.x0| + 2 ^ (-900 : ℤ) + ∑ i ∈ Finset.range k, (M * c.step + S * |F64.real (z i)|) := by
    intro k
    induction k with
    | zero => simp [strangSize]
    | succ k ih => simp only [strangSize]; rw [ih, Finset.sum_range_succ]; ring
  obtain ⟨times, path, mid, h1, h2, h3, h4⟩ := strang_small (abm mu sigma) (fun t _ => F64.real (mu t))
    (fun t _ => F64.real (sigma t)) 0 M 0 S 0 le_rfl (by linarith) (const_computes le_rfl hmu hM fun x t => rfl)
    (const_computes le_rfl (fun t => by rw [abs_of_nonneg (hsigma t).1]; exact (hsigma t).2) hS fun x t => by
      simp only [abm, if_neg (not_neg_of_real (hsigma t).1)]) c hc z hz (by rw [esize]; exact hsize)
  refine ⟨times, path, mid, h1, h2, h3, fun k hk => ?_⟩
  obtain ⟨x, hx, hx'⟩ := h4 k hk
  refine ⟨x, hx, ?_⟩
  rw [esize] at hx'
  convert hx' using 3
  clear hx hx' hk h4 h1 h2
  induction k with
  | zero => simp [strangExact]
  | succ k ih => simp only [strangExact]; rw [← ih, Finset.sum_range_succ]; ring

/-! ## The Milstein scheme -/

theorem dt_nonneg {c : Config} {dt : F64} (h : c.t0.val < c.tn.val) (hdt : c.dt = some dt) : 0 ≤ dt.val := by
  simp only [Config.dt, Option.bind_eq_bind, Option.bind_eq_some_iff] at hdt
  obtain ⟨d, h1, n, h2, h3⟩ := hdt
  unfold F64.div at h3
  split_ifs at h3
  have hn : 0 ≤ n.val := by rw [toF64_some h2]; exact rnd_nonneg (by positivity)
  have hd : 0 ≤ d.val := by rw [toF64_some h1]; exact rnd_nonneg (by linarith)
  rw [toF64_some h3]
  exact rnd_nonneg (div_nonneg hd hn)

/-- C115 (defect): if the diffusion does not depend on the value, or the value is `2^38` or more in size, the Milstein correction is exactly
zero: the step is, bit for bit, the Euler-Maruyama step with noise that is not scaled by the square root of the time step. For large values
`x + 1e-5` and `x - 1e-5` both round to `x`, whatever the diffusion. -/
theorem C115_milstein_step (P : Process) (dt t dw x : F64) (hdt : 0 ≤ dt.val) (hdw : |dw.val| ≤ 2 ^ 500)
    (h : Additive P ∨ 2 ^ 38 ≤ |x.val|) : milsteinStep P dt t dw x = unscaledStep P dt t dw x := by
  refine milstein_plain hdt hdw fun e a he ha => ?_
  rcases h with h | h
  · exact h _ _ _
  · obtain ⟨e', he', p1, p2⟩ := tiny_some
    rw [he] at he'
    cases he'
    obtain ⟨a1, a2⟩ := add_absorb (x := x) (e := e) (by exact_mod_cast h) (by rw [abs_of_pos p1]; exact p2)
    rcases ha with ha | ha
    · rw [a1] at ha; cases ha; rfl
    · rw [a2] at ha; cases ha; rfl

/-- C115 (defect): if the diffusion does not depend on the value, a Milstein path is, bit for bit, the Euler-Maruyama path with noise that
is not scaled by the square root of the time step; one panics exactly if the other does. -/
theorem C115_milstein_additive (P : Process) (h : Additive P) (c : Config) (z : ℕ → F64)
    (hz : ∀ k < c.nSteps, |(z k).val| ≤ 2 ^ 500) : milstein P c z = simulateWith (unscaledStep P) c z := by
  unfold milstein simulateWith
  split_ifs with hc
  · cases hdt : c.dt with
    | none => rfl
    | some dt =>
      simp only [Option.bind_eq_bind, Option.bind_some]
      congr 1
      funext times
      rw [runWith_congr fun k hk t x => C115_milstein_step P dt t (z k) x (dt_nonneg hc hdt) (hz k hk) (Or.inl h)]
  · rfl

/-- C115: a Milstein path of a process whose diffusion does not depend on the value comes out finite, and its `k`-th value differs from the
exact Euler-Maruyama recursion with unscaled noise by at most `(1 + η + 18 * 2^-53)^k - 1` times the sum of the sizes of all terms. -/
theorem C115_milstein_error (P : Process) (hP : Additive P) (b s : F64 → ℝ → ℝ) (B C S T η : ℝ)
    (hη : 0 ≤ η) (hη1 : η ≤ 1 / 2000) (hd : Computes P.drift b B C η) (hs : Computes P.diffusion s S T η)
    (c : Config) (hc : c.Ordinary) (z : ℕ → F64) (hz : ∀ k < c.nSteps, |F64.real (z k)| ≤ 2 ^ 20)
    (hgrow : (1 + η + 18 * unit) ^ c.nSteps ≤ 2)
    (hsize : size B C S T c.step 1 z (F64.real c.x0) c.nSteps ≤ 2 ^ 899) :
    ∃ times path, milstein P c z = some (times, path) ∧ path.length = c.nSteps + 1 ∧ ∀ k ≤ c.nSteps, ∃ x, path[k]? = some x ∧
      |F64.real x - euler b s c.step 1 (fun i => times.getD i F64.zero) z (F64.real c.x0) k| ≤
        ((1 + η + 18 * unit) ^ k - 1) * size B C S T c.step 1 z (F64.real c.x0) k := by
  change (1 + η + 18 * ur) ^ c.nSteps ≤ 2 at hgrow
  obtain ⟨dt, times, h1, h2, h3, h4, h5, h6⟩ := hc.computed
  obtain ⟨one, _, hone⟩ := one_some
  have hone' : F64.real one = 1 := by unfold F64.real; rw [hone]; norm_num
  have hu := ur_pos
  have hu1 : ur ≤ 1 / 10 ^ 6 := by unfold ur; norm_num
  obtain ⟨hdt0, hr⟩ := ratio (δ := 4 * ur) h5 (by positivity) (by linarith) h4 (by nlinarith)
  have hη' : η + 4 * ur ≤ (η + 8 * ur) * (c.step / F64.real dt) := by
    have := (abs_le.1 hr).2
    have h7 : (η + 8 * ur) * (1 - 4 * ur) ≤ (η + 8 * ur) * (c.step / F64.real dt) :=
      mul_le_mul_of_nonneg_left (by linarith) (by positivity)
    have h8 : η * ur ≤ 1 / 2000 * ur := mul_le_mul_of_nonneg_right hη1 hu.le
    have h9 : ur * ur ≤ 1 / 10 ^ 6 * ur := mul_le_mul_of_nonneg_right hu1 hu.le
    linarith
  have t1 := hd.scale hr (by linarith) hη'
  have t2 := hs.scale (r := 1) (δ := 0) (η' := η + 8 * ur) (by norm_num) (by norm_num) (by linarith)
  have m1 : c.step / F64.real dt * F64.real dt = c.step := div_mul_cancel₀ _ hdt0.ne'
  have m2 : (1 : ℝ) * F64.real one = 1 := by rw [hone', mul_one]
  have hdtb : F64.real dt ≤ 2 ^ 20 := by
    have := (abs_le.1 h4).2
    have e : 3 * ur * c.step ≤ 1 * c.step := mul_le_mul_of_nonneg_right (by linarith) h5.le
    norm_num at h6 ⊢
    linarith
  have eε : 1 + (η + 8 * ur + 10 * ur) = 1 + η + 18 * ur := by ring
  obtain ⟨p, hp1, hp2, hp3⟩ := run_close (η := η + 8 * ur) (x0 := c.x0) (times := times) (z := z) (n := c.nSteps) (scale := one)
    (by positivity) (by linarith) t1 t2 hdt0.le hdtb (by rw [hone']; norm_num) (by rw [hone']; norm_num) hz (by omega)
    (by rw [eε]; exact hgrow) (by rw [size_scale m1 m2]; exact hsize) c.nSteps le_rfl
  have hz' : ∀ k < c.nSteps, |(z k).val| ≤ 2 ^ 500 := fun k hk => by
    have h7 : |(z k).val| ≤ 2 ^ 20 := by have := hz k hk; unfold F64.real at this; exact_mod_cast this
    exact h7.trans (pow_le_pow_right₀ (by norm_num) (by norm_num))
  refine ⟨times, p, ?_, hp2, fun k hk => ?_⟩
  · rw [C115_milstein_additive P hP c z hz']
    unfold simulateWith
    rw [if_pos hc.lt]
    simp only [h1, h2, runWith_unscaled hone, hp1, Option.bind_eq_bind, Option.bind_some, Option.pure_def]
  · obtain ⟨x, hx1, hx2, _⟩ := hp3 k hk
    refine ⟨x, hx1, ?_⟩
    rw [euler_scale m1 m2, size_scale m1 m2, eε] at hx2
    exact hx2

/-- C115: each value of a Milstein path up to `2^200` in size is followed by the exact Milstein step as the code writes it (`milsteinExact`,
with a time step within `3 * 2^-53` of the exact one), up to `7 η + 38 * 2^-53` of the sizes of everything that is added. Unlike the bounds
on whole paths this holds for diffusions that depend on the value. -/
theorem C115_milstein_local (P : Process) (b s : F64 → ℝ → ℝ) (B C S T η : ℝ) (hη : 0 ≤ η) (hη1 : η ≤ 1 / 2000)
    (hd : Computes P.drift b B C η) (hs : Computes P.diffusion s S T η) (hC : C ≤ 2 ^ 200) (hT : T ≤ 2 ^ 200)
    (c : Config) (hc : c.Ordinary) (z : ℕ → F64) (hz : ∀ k < c.nSteps, |F64.real (z k)| ≤ 2 ^ 20) (times path : List F64)
    (h : milstein P c z = some (times, path)) :
    path.length = c.nSteps + 1 ∧ ∃ h : ℝ, |h - c.step| ≤ 3 * unit * c.step ∧
      ∀ k < c.nSteps, ∀ t x y, times[k]? = some t → path[k]? = some x → path[k + 1]? = some y → |F64.real x| ≤ 2 ^ 200 →
        |F64.real y - milsteinExact b s h (F64.real (z k)) t (F64.real x)| ≤
          (7 * η + 38 * unit) * milsteinSize B C S T h (F64.real (z k)) (F64.real x) := by
  obtain ⟨dt, times', h1, h2, h3, h4, h5, h6⟩ := hc.computed
  have hu := ur_pos
  have hu1 : ur ≤ 1 / 10 ^ 6 := by unfold ur; norm_num
  have e : 3 * ur * c.step ≤ 1 / 10 * c.step := mul_le_mul_of_nonneg_right (by linarith) h5.le
  have hdt0 : 0 ≤ F64.real dt := by
    have := (abs_le.1 h4).1
    linarith
  have hdt1 : F64.real dt ≤ 2 ^ 20 := by
    have := (abs_le.1 h4).2
    norm_num at h6 ⊢
    linarith
  unfold milstein simulateWith at h
  rw [if_pos hc.lt] at h
  simp only [h1, h2, Option.bind_eq_bind, Option.bind_some, Option.bind_eq_some_iff, Option.pure_def, Option.some.injEq,
    Prod.mk.injEq] at h
  obtain ⟨p, hp, rfl, rfl⟩ := h
  obtain ⟨g1, g2⟩ := runWith_next _ hp
  refine ⟨g1, F64.real dt, h4, fun k hk t x y ht hx hy hxb => ?_⟩
  obtain ⟨y', y1, y2⟩ := milstein_near hη hη1 hd hs hC hT t hdt0 hdt1 (hz k hk) hxb
  rw [g2 k hk t x y ht hx hy] at y1
  cases y1
  exact y2

/-- C115 (defect): one Milstein step of geometric Brownian motion comes out finite, and it is `x + mu x h + sigma x z + 10^-10 *
sigma^2 x (z^2 - h) / 2` up to `2^-47` of the sizes of the terms: the correction of the Milstein scheme is too small by a factor of
`10^10`. -/
theorem C115_milstein_gbm_step (mu sigma : F64 → F64) (M S : ℝ)
    (hM : M ≤ 2 ^ 19) (hS : S ≤ 2 ^ 19) (hmu : ∀ t, |F64.real (mu t)| ≤ M) (hsigma : ∀ t, 0 ≤ F64.real (sigma t) ∧ F64.real (sigma t) ≤ S)
    (h t z x : F64) (hh : 0 ≤ F64.real h ∧ F64.real h ≤ 2 ^ 20) (hz : |F64.real z| ≤ 2 ^ 20) (hx : |F64.real x| ≤ 2 ^ 200) :
    ∃ y, milsteinStep (gbm mu sigma) h t z x = some y ∧
      |F64.real y - (F64.real x + F64.real (mu t) * F64.real x * F64.real h + F64.real (sigma t) * F64.real x * F64.real z +
        1 / 10 ^ 10 * (F64.real (sigma t) ^ 2 * F64.real x * (F64.real z ^ 2 - F64.real h) / 2))| ≤
      2 ^ (-47 : ℤ) * milsteinSize M 0 S 0 (F64.real h) (F64.real z) (F64.real x) := by
  have hu := ur_pos
  have hM0 : 0 ≤ M := (abs_nonneg _).trans (hmu t)
  have hS0 : 0 ≤ S := (hsigma t).1.trans (hsigma t).2
  obtain ⟨y, y1, y2⟩ := milstein_near (P := gbm mu sigma) (b := fun t x => F64.real (mu t) * x) (s := fun t x => F64.real (sigma t) * x)
    (B := M) (C := 0) (S := S) (T := 0) (η := unit) unit_pos.le (by change ur ≤ _; unfold ur; norm_num)
    (linear_computes hmu hM fun x t => rfl)
    (linear_computes (fun t => by rw [abs_of_nonneg (hsigma t).1]; exact (hsigma t).2) hS fun x t => by
      simp only [gbm, if_neg (not_neg_of_real (hsigma t).1)]) (by positivity) (by positivity) t hh.1 hh.2 hz hx
  refine ⟨y, y1, ?_⟩
  have e : milsteinExact (fun t x => F64.real (mu t) * x) (fun t x => F64.real (sigma t) * x) (F64.real h) (F64.real z) t (F64.real x) =
      F64.real x + F64.real (mu t) * F64.real x * F64.real h + F64.real (sigma t) * F64.real x * F64.real z +
        1 / 10 ^ 10 * (F64.real (sigma t) ^ 2 * F64.real x * (F64.real z ^ 2 - F64.real h) / 2) := by
    unfold milsteinExact; ring
  rw [e] at y2
  refine y2.trans (mul_le_mul_of_nonneg_right ?_ ?_)
  · change 7 * ur + 38 * ur ≤ _
    unfold ur; norm_num
  · unfold milsteinSize
    have := hh.1
    have := mul_self_nonneg (F64.real z)
    positivity

/-- C115: arithmetic Brownian motion by the Milstein scheme, with `|mu| ≤ M` and `0 ≤ sigma ≤ S`. The `k`-th value is within `k * 2^-47` of
`|x_0| + 2^-900 + Σ (M h + S |z_i|)` of `x_0 + Σ (mu h + sigma z_i)`. -/
theorem C115_milstein_abm_error (mu sigma : F64 → F64) (M S : ℝ)
    (hM : M ≤ 2 ^ 899) (hS : S ≤ 2 ^ 899) (hmu : ∀ t, |F64.real (mu t)| ≤ M)
    (hsigma : ∀ t, 0 ≤ F64.real (sigma t) ∧ F64.real (sigma t) ≤ S)
    (c : Config) (hc : c.Ordinary) (z : ℕ → F64) (hz : ∀ k < c.nSteps, |F64.real (z k)| ≤ 2 ^ 20)
    (hsize : |F64.real c.x0| + 2 ^ (-900 : ℤ) + ∑ i ∈ Finset.range c.nSteps, (M * c.step + S * |F64.real (z i)|) ≤ 2 ^ 899) :
    ∃ times path, milstein (abm mu sigma) c z = some (times, path) ∧ path.length = c.nSteps + 1 ∧
      ∀ k ≤ c.nSteps, ∃ x, path[k]? = some x ∧
        |F64.real x - (F64.real c.x0 + ∑ i ∈ Finset.range k,
          (F64.real (mu (times.getD i F64.zero)) * c.step + F64.real (sigma (times.getD i F64.zero)) * F64.real (z i)))| ≤
        k * 2 ^ (-47 : ℤ) * (|F64.real c.x0| + 2 ^ (-900 : ℤ) + ∑ i ∈ Finset.range k, (M * c.step + S * |F64.real (z i)|)) := by
  have hu := unit_pos
  have esize : ∀ k, size 0 M 0 S c.step 1 z (F64.real c.x0) k =
      |F64.real c.x0| + 2 ^ (-900 : ℤ) + ∑ i ∈ Finset.range k, (M * c.step + S * |F64.real (z i)|) := by
    intro k
    induction k with
    | zero => simp [size]
    | succ k ih => rw [size, ih, Finset.sum_range_succ]; ring
  obtain ⟨times, path, h1, h2, h3⟩ := C115_milstein_error (abm mu sigma) (fun x y t => rfl) (fun t _ => F64.real (mu t))
    (fun t _ => F64.real (sigma t)) 0 M 0 S 0 le_rfl (by norm_num) (const_computes le_rfl hmu hM fun x t => rfl)
    (const_computes le_rfl (fun t => by rw [abs_of_nonneg (hsigma t).1]; exact (hsigma t).2) hS fun x t => by
      simp only [abm, if_neg (not_neg_of_real (hsigma t).1)]) c hc z hz (grow_two le_rfl (by linarith) _ hc.steps.2)
    (by rw [esize]; exact hsize)
  refine ⟨times, path, h1, h2, fun k hk => ?_⟩
  obtain ⟨x, hx, hx'⟩ := h3 k hk
  refine ⟨x, hx, ?_⟩
  rw [esize] at hx'
  have hst : 0 ≤ c.step := hc.computed.choose_spec.choose_spec.2.2.2.2.1.le
  have hM0 : 0 ≤ M := (abs_nonneg _).trans (hmu F64.zero)
  have hS0 : 0 ≤ S := (hsigma F64.zero).1.trans (hsigma F64.zero).2
  have hpos : 0 ≤ |F64.real c.x0| + 2 ^ (-900 : ℤ) + ∑ i ∈ Finset.range k, (M * c.step + S * |F64.real (z i)|) := by
    have : 0 ≤ ∑ i ∈ Finset.range k, (M * c.step + S * |F64.real (z i)|) :=
      Finset.sum_nonneg fun i _ => by have := abs_nonneg (F64.real (z i)); positivity
    positivity
  have hb := grow_bound le_rfl (by linarith : (0 : ℝ) ≤ 4 * unit) k (hk.trans hc.steps.2)
  have hx'' := hx'.trans (mul_le_mul_of_nonneg_right (show _ ≤ (k : ℝ) * 2 ^ (-47 : ℤ) by linarith) hpos)
  have eul : ∀ k, euler (fun t _ => F64.real (mu t)) (fun t _ => F64.real (sigma t)) c.step 1 (fun i => times.getD i F64.zero) z
      (F64.real c.x0) k = F64.real c.x0 + ∑ i ∈ Finset.range k,
        (F64.real (mu (times.getD i F64.zero)) * c.step + F64.real (sigma (times.getD i F64.zero)) * F64.real (z i)) := by
    intro k
    induction k with
    | zero => simp [euler]
    | succ k ih => rw [euler, ih, Finset.sum_range_succ]; ring
  rw [eul] at hx''
  exact hx''

/-! ## The time step has no influence -/

/-- C115 (defect): Brownian motion under either scheme does not depend on the period: whatever the start, the end and the time step, each
value is the one before plus the noise, rounded once. The standard deviation of the last value is that of a sum of `n` normal variables,
not the square root of the period. -/
theorem C115_brownian_without_time (c : Config) (z : ℕ → F64) (times path : List F64)
    (hz : ∀ k < c.nSteps, |(z k).val| ≤ 2 ^ 500)
    (h : strang bm c z = some (times, path) ∨ milstein bm c z = some (times, path)) (k : ℕ) (hk : k < c.nSteps) :
    ∃ x y, path[k]? = some x ∧ path[k + 1]? = some y ∧ x.add (z k) = some y := by
  obtain ⟨one, hone1, hone⟩ := one_some
  have hz0 : F64.zero.val = 0 := rfl
  have m1 : ∀ a : F64, one.mul a = some a := fun a => by unfold F64.mul; rw [hone, one_mul]; exact toF64_val a
  have m0 : ∀ a : F64, F64.zero.mul a = some F64.zero := fun a => zero_exact (by rw [hz0, zero_mul])
  have key : ∀ (step : F64 → F64 → F64 → F64 → Option F64),
      (∀ dt t x y, 0 ≤ dt.val → ∀ k < c.nSteps, step dt t (z k) x = some y → x.add (z k) = some y) →
      simulateWith step c z = some (times, path) → ∃ x y, path[k]? = some x ∧ path[k + 1]? = some y ∧ x.add (z k) = some y := by
    intro step hstep h
    unfold simulateWith at h
    split_ifs at h with hc
    simp only [Option.bind_eq_bind, Option.bind_eq_some_iff, Option.pure_def, Option.some.injEq, Prod.mk.injEq] at h
    obtain ⟨dt, h1, ts, h2, p, h4, rfl, rfl⟩ := h
    have hdt := dt_nonneg hc h1
    have run : ∀ n ≤ c.nSteps, ∀ p, runWith (step dt) ts z c.x0 n = some p → p.length = n + 1 ∧
        ∀ k < n, ∃ x y, p[k]? = some x ∧ p[k + 1]? = some y ∧ x.add (z k) = some y := by
      intro n
      induction n with
      | zero => intro _ p hp; cases hp; exact ⟨rfl, fun k hk => absurd hk (by omega)⟩
      | succ n ih =>
        intro hn p hp
        simp only [runWith, Option.bind_eq_bind, Option.bind_eq_some_iff, Option.pure_def, Option.some.injEq] at hp
        obtain ⟨q, hq, t, ht, x, hx, y, hy, rfl⟩ := hp
        obtain ⟨i1, i2⟩ := ih (by omega) q hq
        refine ⟨by simp [i1], fun k hk => ?_⟩
        rcases Nat.lt_or_ge k n with hkn | hkn
        · obtain ⟨x', y', a, b, e⟩ := i2 k hkn
          exact ⟨x', y', by rw [List.getElem?_append_left (by omega)]; exact a,
            by rw [List.getElem?_append_left (by omega)]; exact b, e⟩
        · have hkn : k = n := by omega
          subst hkn
          refine ⟨x, y, by rw [List.getElem?_append_left (by omega)]; exact hx, ?_, hstep dt t x y hdt k (by omega) hy⟩
          rw [List.getElem?_append_right (by omega), i1]; simp
    exact (run _ le_rfl _ h4).2 k hk
  have hun : ∀ dt t z x y : F64, unscaledStep bm dt t z x = some y → x.add z = some y := by
    intro dt t z x y h
    simpa only [unscaledStep, bm, hone1, m0, m1, add_zero_some, Option.bind_eq_bind, Option.bind_some] using h
  rcases h with h | h
  · refine key _ (fun dt t x y _ k _ h => ?_) h
    obtain ⟨hf, hhf, _⟩ := half_real
    have hh : halfDrift bm dt t x = some F64.zero := by
      unfold halfDrift
      have : hf.mul F64.zero = some F64.zero := zero_exact (by rw [hz0, mul_zero])
      simp only [bm, hhf, this, m0, Option.bind_eq_bind, Option.bind_some]
    unfold strangStep at h
    simp only [hh, add_zero_some, Option.bind_eq_bind, Option.bind_some] at h
    simp only [bm, hone1, m1, Option.bind_some] at h
    cases hm : midTime dt t with
    | none => rw [hm] at h; simp at h
    | some m =>
      rw [hm] at h
      simp only [Option.bind_some] at h
      cases ha : x.add (z k) with
      | none => rw [ha] at h; simp at h
      | some w => rw [ha] at h; simpa only [Option.bind_some, add_zero_some] using h
  · refine key _ (fun dt t x y hdt k hk h => ?_) h
    rw [C115_milstein_step bm dt t (z k) x hdt (hz k hk) (Or.inl fun _ _ _ => rfl)] at h
    exact hun dt t (z k) x y h

/-! ## The hypotheses can be met -/

/-- Its sizes are small for coefficients up to 1. -/
theorem someConfig_strangSize {B C S T : ℝ} (hB : 0 ≤ B ∧ B ≤ 1) (hC : 0 ≤ C ∧ C ≤ 1) (hS : 0 ≤ S ∧ S ≤ 1) (hT : 0 ≤ T ∧ T ≤ 1) :
    strangSize B C S T someConfig.step (fun _ => lit 1) (F64.real someConfig.x0) someConfig.nSteps ≤ 2 ^ 898 := by
  have hstep : someConfig.step ≤ 1 := by rw [someConfig_step]; norm_num
  have hstep0 : 0 ≤ someConfig.step := by rw [someConfig_step]; norm_num
  have e1 : (2 : ℝ) ^ (-900 : ℤ) ≤ 1 := by
    rw [← zpow_zero (2 : ℝ)]; exact zpow_le_zpow_right₀ (by norm_num) (by norm_num)
  have key : ∀ k, strangSize B C S T someConfig.step (fun _ => lit 1) (F64.real someConfig.x0) k + 1 ≤ 4 ^ k * 3 := by
    intro k
    induction k with
    | zero =>
      have : F64.real someConfig.x0 = 1 := real_one
      simp only [strangSize, this, abs_one]
      linarith
    | succ k ih =>
      have h0 := (strangSize_pos (x0 := F64.real someConfig.x0) (z := fun _ => lit 1) hB.1 hC.1 hS.1 hT.1 hstep0 k).le
      simp only [strangSize, real_one, abs_one, mul_one]
      set M := strangSize B C S T someConfig.step (fun _ => lit 1) (F64.real someConfig.x0) k
      have f1 : (B * M + C) * someConfig.step ≤ (M + 1) * 1 := by
        refine mul_le_mul ?_ hstep hstep0 (by linarith)
        have := mul_le_mul_of_nonneg_right hB.2 h0
        linarith [hC.2]
      have f0 : 0 ≤ (B * M + C) * someConfig.step := mul_nonneg (add_nonneg (mul_nonneg hB.1 h0) hC.1) hstep0
      have f2 : S * (M + (B * M + C) * someConfig.step / 2) ≤ 1 * (M + (B * M + C) * someConfig.step / 2) :=
        mul_le_mul_of_nonneg_right hS.2 (by linarith)
      rw [pow_succ]
      linarith [hT.2]
  have h := key 12
  calc _ ≤ (4 : ℝ) ^ 12 * 3 := by change strangSize B C S T _ _ _ 12 ≤ _; linarith
    _ ≤ 2 ^ 30 := by norm_num
    _ ≤ 2 ^ 898 := pow_le_pow_right₀ (by norm_num) (by norm_num)

/-- Twelve Strang-splitting steps of a process with drift 1 and diffusion 1 meet the hypotheses of `C115_strang_error` and `C115_times`. -/
example : ∃ times path, strang (abm (fun _ => lit 1) fun _ => lit 1) someConfig (fun _ => lit 1) = some (times, path) ∧
    path.length = 13 ∧ times.head? = some someConfig.t0 := by
  obtain ⟨times, path, _, h1, h2, _⟩ := strang_small (abm (fun _ => lit 1) fun _ => lit 1) (fun t _ => F64.real (lit 1))
    (fun t _ => F64.real (lit 1)) 0 1 0 1 0 le_rfl (by have := unit_pos; linarith)
    (const_computes le_rfl lit_one_le (one_le_pow₀ (by norm_num)) fun x t => rfl)
    (const_computes le_rfl lit_one_le (one_le_pow₀ (by norm_num)) fun x t => by
      simp only [abm, if_neg (not_neg_of_real (lit_one_in t).1)])
    someConfig someConfig_ordinary (fun _ => lit 1) noise_small
    (someConfig_strangSize (by norm_num) (by norm_num) (by norm_num) (by norm_num))
  exact ⟨times, path, h1, h2, (C115_times _ _ _ _ _ (by unfold someConfig; norm_num) h1).2.2.2.2.2.1⟩

/-- Twelve Strang-splitting steps of geometric Brownian motion meet the hypotheses of `C115_strang_gbm_error`. -/
example : ∃ times path, strang (gbm (fun _ => lit 1) fun _ => lit 1) someConfig (fun _ => lit 1) = some (times, path) := by
  obtain ⟨times, path, _, h1, _⟩ := C115_strang_gbm_error (fun _ => lit 1) (fun _ => lit 1) 1 1 (by norm_num) (by norm_num) lit_one_le
    lit_one_in someConfig someConfig_ordinary (fun _ => lit 1) noise_small (by
      have hx : |F64.real someConfig.x0| = 1 := by change |F64.real (lit 1)| = 1; rw [real_one, abs_one]
      have e1 : (2 : ℝ) ^ (-900 : ℤ) ≤ 1 := by
        rw [← zpow_zero (2 : ℝ)]; exact zpow_le_zpow_right₀ (by norm_num) (by norm_num)
      simp only [real_one, Finset.prod_const, Finset.card_range]
      rw [hx, someConfig_step, show someConfig.nSteps = 12 from rfl]
      refine le_trans (mul_le_mul_of_nonneg_right (show _ ≤ (2 : ℝ) by linarith) (by positivity)) ?_
      exact le_trans (by norm_num) (pow_le_pow_right₀ (by norm_num) (by norm_num : 30 ≤ 898)))
  exact ⟨times, path, h1⟩

theorem someConfig_abm_sum : |F64.real someConfig.x0| + 2 ^ (-900 : ℤ) +
    ∑ i ∈ Finset.range someConfig.nSteps, (1 * someConfig.step + 1 * |F64.real ((fun _ => lit 1 : ℕ → F64) i)|) ≤ 2 ^ 898 := by
  have e1 : (2 : ℝ) ^ (-900 : ℤ) ≤ 1 := by
    rw [← zpow_zero (2 : ℝ)]; exact zpow_le_zpow_right₀ (by norm_num) (by norm_num)
  have hx : |F64.real someConfig.x0| = 1 := by change |F64.real (lit 1)| = 1; rw [real_one, abs_one]
  refine le_trans ?_ (pow_le_pow_right₀ (by norm_num) (by norm_num : 30 ≤ 898))
  simp only [real_one, Finset.sum_const, Finset.card_range, abs_one]
  rw [hx, someConfig_step, show someConfig.nSteps = 12 from rfl, nsmul_eq_mul]
  generalize (2 : ℝ) ^ (-900 : ℤ) = a at e1
  norm_num
  linarith

/-- Twelve steps of arithmetic Brownian motion meet the hypotheses of `C115_strang_abm_error` and `C115_milstein_abm_error` (hence of
`C115_milstein_error`, `C115_milstein_additive` and `C115_milstein_step`). -/
example : (∃ times path, strang (abm (fun _ => lit 1) fun _ => lit 1) someConfig (fun _ => lit 1) = some (times, path)) ∧
    ∃ times path, milstein (abm (fun _ => lit 1) fun _ => lit 1) someConfig (fun _ => lit 1) = some (times, path) := by
  obtain ⟨times, path, _, h1, _⟩ := C115_strang_abm_error (fun _ => lit 1) (fun _ => lit 1) 1 1
    (one_le_pow₀ (by norm_num)) (one_le_pow₀ (by norm_num)) lit_one_le lit_one_in someConfig someConfig_ordinary (fun _ => lit 1)
    noise_small someConfig_abm_sum
  obtain ⟨times', path', h2, _⟩ := C115_milstein_abm_error (fun _ => lit 1) (fun _ => lit 1) 1 1
    (one_le_pow₀ (by norm_num)) (one_le_pow₀ (by norm_num)) lit_one_le lit_one_in someConfig someConfig_ordinary (fun _ => lit 1)
    noise_small (someConfig_abm_sum.trans (pow_le_pow_right₀ (by norm_num) (by norm_num)))
  exact ⟨⟨times, path, h1⟩, times', path', h2⟩

/-- The Milstein step of geometric Brownian motion from 2^40, in either direction: no correction. -/
example : milsteinStep (gbm (fun _ => lit 1) fun _ => lit 1) (lit (1 / 4)) (lit 0) (lit 2) (lit (2 ^ 40)) =
    unscaledStep (gbm (fun _ => lit 1) fun _ => lit 1) (lit (1 / 4)) (lit 0) (lit 2) (lit (2 ^ 40)) :=
  C115_milstein_step _ _ _ _ _ (by decide +kernel) (le_trans (by decide +kernel : |(lit 2).val| ≤ 2) (le_self_pow₀ (by norm_num) (by norm_num)))
    (Or.inr (by decide +kernel))

/-- Brownian motion over twelve steps is simulated by both schemes, so `C115_brownian_without_time` says something about it. -/
example : (∃ times path, strang bm someConfig (fun _ => lit 1) = some (times, path)) ∧
    ∃ times path, milstein bm someConfig (fun _ => lit 1) = some (times, path) := by
  have hP : bm = abm (fun _ => F64.zero) fun _ => lit 1 := by
    obtain ⟨one, h1, h2⟩ := one_some
    have h3 : lit 1 = one := by unfold lit; rw [h1]; rfl
    have h01 : ¬ one.val < 0 := by rw [h2]; norm_num
    unfold bm abm
    rw [h1, h3]
    simp only [h01, if_false]
  have hzero : F64.real F64.zero = 0 := by unfold F64.real F64.zero; norm_num
  rw [hP]
  obtain ⟨times, path, _, h1, _⟩ := C115_strang_abm_error (fun _ => F64.zero) (fun _ => lit 1) 1 1
    (one_le_pow₀ (by norm_num)) (one_le_pow₀ (by norm_num)) (fun _ => by rw [hzero, abs_zero]; norm_num) lit_one_in someConfig
    someConfig_ordinary (fun _ => lit 1) noise_small someConfig_abm_sum
  obtain ⟨times', path', h2, _⟩ := C115_milstein_abm_error (fun _ => F64.zero) (fun _ => lit 1) 1 1
    (one_le_pow₀ (by norm_num)) (one_le_pow₀ (by norm_num)) (fun _ => by rw [hzero, abs_zero]; norm_num) lit_one_in someConfig
    someConfig_ordinary (fun _ => lit 1)
    noise_small (someConfig_abm_sum.trans (pow_le_pow_right₀ (by norm_num) (by norm_num)))
  exact ⟨⟨times, path, h1⟩, times', path', h2⟩

/-- A Milstein step of geometric Brownian motion from 1 meets the hypotheses of `C115_milstein_gbm_step`. -/
example : ∃ y, milsteinStep (gbm (fun _ => lit 1) fun _ => lit 1) (lit 1) (lit 1) (lit 1) (lit 1) = some y := by
  have h1 : F64.real (lit 1) = 1 := real_one
  obtain ⟨y, hy, _⟩ := C115_milstein_gbm_step (fun _ => lit 1) (fun _ => lit 1) 1 1 (by norm_num) (by norm_num) lit_one_le lit_one_in
    (lit 1) (lit 1) (lit 1) (lit 1) (by rw [h1]; norm_num) (by rw [h1]; norm_num) (by rw [h1]; norm_num)
  exact ⟨y, hy⟩

/-- One Milstein step of geometric Brownian motion from 1 meets the hypotheses of `C115_milstein_local`. -/
example : ∃ times path, milstein (gbm (fun _ => lit 1) fun _ => lit 1) ⟨lit 1, lit 0, lit 1, 1⟩ (fun _ => lit 1) = some (times, path) ∧
    path.length = 2 := by
  have h0 : (milstein (gbm (fun _ => lit 1) fun _ => lit 1) ⟨lit 1, lit 0, lit 1, 1⟩ (fun _ => lit 1)).isSome = true := by
    decide +kernel
  obtain ⟨⟨times, path⟩, h1⟩ := Option.isSome_iff_exists.1 h0
  have hl0 : F64.real (lit 0) = 0 := by
    have : (lit 0).val = 0 := by decide +kernel
    unfold F64.real; rw [this]; norm_num
  have hc : Config.Ordinary ⟨lit 1, lit 0, lit 1, 1⟩ := by
    refine ⟨by norm_num, ⟨?_, ?_⟩, ?_⟩
    · simp only [hl0, abs_zero]; norm_num
    · simp only [real_one, abs_one]; norm_num
    · have h2 : (2 : ℝ) ^ (-900 : ℤ) ≤ 2 ^ (0 : ℤ) := zpow_le_zpow_right₀ (by norm_num) (by norm_num)
      rw [zpow_zero] at h2
      refine h2.trans (le_of_eq ?_)
      simp only [real_one, hl0, sub_zero]
  exact ⟨times, path, h1, (C115_milstein_local _ (fun t x => F64.real (lit 1) * x) (fun t x => F64.real (lit 1) * x) 1 0 1 0 unit
    unit_pos.le (by change Verif.Float.Fft.ur ≤ _; unfold Verif.Float.Fft.ur; norm_num)
    (linear_computes (σ := fun _ => lit 1) lit_one_le (by norm_num) fun x t => rfl)
    (linear_computes (σ := fun _ => lit 1) lit_one_le (by norm_num) fun x t => by
      simp only [gbm, if_neg (not_neg_of_real (lit_one_in t).1)])
    (by positivity) (by positivity) _ hc (fun _ => lit 1) (fun k _ => by rw [real_one]; norm_num) times path h1).1⟩

end Verif.Float.Sim
