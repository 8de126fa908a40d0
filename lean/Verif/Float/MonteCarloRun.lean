import Verif.Float.MonteCarloProps
import Verif.Float.SimulationProps
import Verif.Float.BlackScholesProps

/-!
# C101: Monte-Carlo prices from the start value and the noise
-/

namespace Verif.Float.Mc

open Verif.Float.Sim
open Verif.Float.Mean (gain max_lipschitz)
open Verif.Options (TypeFlag BarrierType BinaryType)
open Verif.Float.Fft (ur mu top rnd_real toF64_total ur_pos mu_pos ur_le mu_le)

theorem euler_le_size {b s : F64 → ℝ → ℝ} {B C S T dt scale x0 : ℝ} {time z : ℕ → F64} (hB : 0 ≤ B) (hS : 0 ≤ S)
    (hb : ∀ t x, |b t x| ≤ B * |x| + C) (hs : ∀ t x, |s t x| ≤ S * |x| + T) (hdt : 0 ≤ dt) (hsc : 0 ≤ scale) (k : ℕ) :
    |euler b s dt scale time z x0 k| ≤ size B C S T dt scale z x0 k := by
  induction k with
  | zero => simp only [euler, size]; linarith [show (0 : ℝ) < 2 ^ (-900 : ℤ) by positivity]
  | succ k ih =>
    simp only [euler, size]
    set e := euler b s dt scale time z x0 k
    refine (abs_add_le _ _).trans (_root_.add_le_add ((abs_add_le _ _).trans (_root_.add_le_add ih ?_)) ?_)
    · rw [abs_mul, abs_of_nonneg hdt]
      exact mul_le_mul_of_nonneg_right ((hb _ _).trans (by gcongr)) hdt
    · rw [abs_mul, abs_mul, abs_of_nonneg hsc]
      exact mul_le_mul_of_nonneg_right (mul_le_mul_of_nonneg_right ((hs _ _).trans (by gcongr)) hsc) (abs_nonneg _)

theorem gain_lipschitz (flag : TypeFlag) (a b k : ℝ) : |gain flag a k - gain flag b k| ≤ |a - b| := by
  cases flag
  · refine (max_lipschitz _ _).trans (le_of_eq ?_)
    congr 1; ring
  · refine (max_lipschitz _ _).trans (le_of_eq ?_)
    rw [abs_sub_comm a b]
    congr 1; ring

theorem simulate_times {P : Process} {sqrt : F64 → Option F64} {c : Config} {z : ℕ → F64} {times path : List F64}
    (h : simulate P sqrt c z = some (times, path)) : c.dt.bind c.times = some times := by
  unfold simulate at h
  split_ifs at h
  simp only [Option.bind_eq_bind, Option.bind_eq_some_iff, Option.pure_def, Option.some.injEq, Prod.mk.injEq] at h
  obtain ⟨dt, h1, ts, h2, sc, h3, p, h4, rfl, rfl⟩ := h
  rw [h1, Option.bind_some, h2]

/-- C101: the price of a European option under a simulated process (drift and diffusion as in C97, computed within four units), from start value
and noise. It differs from the discounted mean payoff of the exact Euler-Maruyama paths with the same noise by at most twice the tolerance,
relative to that mean, plus `steps * 2^-46` of the discounted mean of the sizes of the paths. -/
theorem C101_simulated {exp sqrt : F64 → Option F64} {δ : ℝ} (hsqrt : AccurateSqrt sqrt) (P : Process) (b s : F64 → ℝ → ℝ) (B C S T η : ℝ)
    (hη : 0 ≤ η) (hη1 : η ≤ 4 * unit) (hd : Computes P.drift b B C η) (hs : Computes P.diffusion s S T η)
    (c : Config) (hc : c.Ordinary) (noise : List (ℕ → F64)) (hz : ∀ z ∈ noise, ∀ k < c.nSteps, |F64.real (z k)| ≤ 2 ^ 20)
    (hsize : ∀ z ∈ noise, size B C S T c.step (√c.step) z (F64.real c.x0) c.nSteps ≤ 2 ^ 400)
    (rate strike : F64) (hK : |F64.real strike| ≤ 2 ^ 400) (flag : TypeFlag) (ho : Ordinary exp δ rate c.t0 c.tn noise.length) :
    ∃ times v, c.dt.bind c.times = some times ∧ priceMonteCarlo exp sqrt (european strike flag) rate P c noise = some v ∧
      |F64.real v - factor rate c.t0 c.tn * avg (fun z => gain flag
          (euler b s c.step (√c.step) (fun i => times.getD i F64.zero) z (F64.real c.x0) c.nSteps) (F64.real strike)) noise| ≤
        factor rate c.t0 c.tn * (2 * tolerance δ noise.length rate c.t0 c.tn * avg (fun z => gain flag
            (euler b s c.step (√c.step) (fun i => times.getD i F64.zero) z (F64.real c.x0) c.nSteps) (F64.real strike)) noise +
          c.nSteps * 2 ^ (-46 : ℤ) * avg (fun z => size B C S T c.step (√c.step) z (F64.real c.x0) c.nSteps) noise) +
        2 ^ (-1073 : ℤ) := by
  obtain ⟨dt, times, g1, g2, -, -, g5, -⟩ := hc.computed
  have htimes : c.dt.bind c.times = some times := by rw [g1, Option.bind_some, g2]
  have hu := ur_pos
  have hu1 := ur_le
  have hn : (c.nSteps : ℝ) ≤ 2 ^ 40 := by exact_mod_cast hc.steps.2
  set M : (ℕ → F64) → ℝ := fun z => size B C S T c.step (√c.step) z (F64.real c.x0) c.nSteps with hM
  set X : (ℕ → F64) → ℝ := fun z => euler b s c.step (√c.step) (fun i => times.getD i F64.zero) z (F64.real c.x0) c.nSteps with hX
  set K := F64.real strike with hKd
  have hM0 : ∀ z, 0 < M z := fun z => size_pos hd.slope.1 hd.offset.1 hs.slope.1 hs.offset.1 g5.le (Real.sqrt_nonneg _) _
  have hXM : ∀ z, |X z| ≤ M z := fun z => euler_le_size hd.slope.1 hs.slope.1 hd.growth hs.growth g5.le
    (Real.sqrt_nonneg _) _
  set e : ℝ := c.nSteps * 2 ^ (-47 : ℤ) with he
  have he0 : 0 ≤ e := by positivity
  have he1 : e ≤ 1 / 100 := by
    calc e ≤ 2 ^ 40 * 2 ^ (-47 : ℤ) := by rw [he]; gcongr
      _ ≤ _ := by norm_num
  have hstep : ∀ z ∈ noise, ∃ path p, (do return (← simulate P sqrt c z).2) = some path ∧ european strike flag path = some p ∧
      |F64.real p - gain flag (X z) K| ≤ ur * gain flag (X z) K + (1 + ur) * (e * M z) := by
    intro z hzn
    obtain ⟨ts, path, h1, h2, h3⟩ := small_error sqrt hsqrt P b s B C S T η hη hη1 hd hs c hc z (hz z hzn)
      ((hsize z hzn).trans (pow_le_pow_right₀ (by norm_num) (by norm_num)))
    have : ts = times := by
      have := simulate_times h1
      rw [htimes] at this
      exact (Option.some.inj this).symm
    subst this
    obtain ⟨x, hx, hxe⟩ := h3 c.nSteps le_rfl
    have hxe : |F64.real x - X z| ≤ e * M z := hxe
    have hl : lastPoint path = x := by
      unfold lastPoint
      rw [List.getLast?_eq_getElem?, h2, Nat.add_sub_cancel, hx]; rfl
    have hMz := hM0 z
    have hxK : |F64.real x - K| ≤ 2 ^ 1000 := by
      have h4 : |F64.real x| ≤ 2 * M z := by
        have := abs_add_le (F64.real x - X z) (X z)
        rw [sub_add_cancel] at this
        have h5 := hXM z
        have h6 : e * M z ≤ 1 / 100 * M z := mul_le_mul_of_nonneg_right he1 hMz.le
        linarith
      have h5 : |F64.real x - K| ≤ 2 * 2 ^ 400 + 2 ^ 400 :=
        (abs_sub _ _).trans (_root_.add_le_add (h4.trans (mul_le_mul_of_nonneg_left (hsize z hzn) (by norm_num))) hK)
      refine h5.trans ?_
      calc (2 : ℝ) * 2 ^ 400 + 2 ^ 400 = 3 * 2 ^ 400 := by generalize (2 : ℝ) ^ 400 = w; ring
        _ ≤ 2 ^ 2 * 2 ^ 400 := by gcongr; norm_num
        _ = 2 ^ 402 := by rw [← pow_add]
        _ ≤ 2 ^ 1000 := pow_le_pow_right₀ (by norm_num) (by norm_num)
    obtain ⟨p, p1, p2⟩ := vanilla_close strike x flag hxK
    refine ⟨path, p, ?_, by unfold european; rw [hl]; exact p1, ?_⟩
    · simp only [Option.bind_eq_bind, h1, Option.bind_some, Option.pure_def]
    · clear hxK h3
      have h4 := gain_lipschitz flag (F64.real x) (X z) K
      have h5 := abs_sub_le (F64.real p) (gain flag (F64.real x) K) (gain flag (X z) K)
      have h6 : gain flag (F64.real x) K ≤ gain flag (X z) K + e * M z := by have := (abs_le.1 h4).2; linarith
      have h7 := mul_le_mul_of_nonneg_left h6 hu.le
      have p2 : |F64.real p - gain flag (F64.real x) K| ≤ ur * gain flag (F64.real x) K := p2
      linarith
  have hG0 : ∀ z, 0 ≤ gain flag (X z) K := fun z => gain_nonneg _ _ _
  have hbig : (noise.map fun z => |gain flag (X z) K|).sum + (noise.map fun z => ur * gain flag (X z) K + (1 + ur) * (e * M z)).sum ≤ 2 ^ 500 := by
    rw [← List.sum_map_add]
    refine (List.sum_le_card_nsmul _ (2 ^ 3 * 2 ^ 400) ?_).trans ?_
    · intro y hy
      simp only [List.mem_map] at hy
      obtain ⟨z, hzn, rfl⟩ := hy
      have h1 : gain flag (X z) K ≤ M z + |K| := (gain_le _ _ _).trans ((abs_sub _ _).trans (by linarith [hXM z]))
      have h2 := hsize z hzn
      have h3 := hM0 z
      rw [abs_of_nonneg (hG0 z)]
      change M z ≤ _ at h2
      generalize (2 : ℝ) ^ 400 = w at *
      have h4 : e * M z ≤ 1 / 100 * M z := mul_le_mul_of_nonneg_right he1 h3.le
      have h5 : (1 + ur) * (e * M z) ≤ 2 * (e * M z) := mul_le_mul_of_nonneg_right (by linarith) (by positivity)
      have h6 : ur * gain flag (X z) K ≤ 1 * gain flag (X z) K := mul_le_mul_of_nonneg_right (by linarith) (hG0 z)
      linarith
    · rw [List.length_map, nsmul_eq_mul, ← pow_add]
      have : (noise.length : ℝ) ≤ 2 ^ 40 := by exact_mod_cast ho.paths.2
      calc (noise.length : ℝ) * 2 ^ 403 ≤ 2 ^ 40 * 2 ^ 403 := by gcongr
        _ = 2 ^ 443 := by rw [← pow_add]
        _ ≤ 2 ^ 500 := pow_le_pow_right₀ (by norm_num) (by norm_num)
  obtain ⟨paths, v, h1, h2, h3⟩ := price_close noise (fun z => do return (← simulate P sqrt c z).2) (european strike flag)
    (fun z => gain flag (X z) K) (fun z => ur * gain flag (X z) K + (1 + ur) * (e * M z)) ho hstep hbig
  refine ⟨times, v, htimes, ?_, ?_⟩
  · unfold priceMonteCarlo generate
    rw [h1]
    exact h2
  · change |F64.real v - factor rate c.t0 c.tn * avg (fun z => gain flag (X z) K) noise| ≤
      factor rate c.t0 c.tn * (2 * tolerance δ noise.length rate c.t0 c.tn * avg (fun z => gain flag (X z) K) noise +
        c.nSteps * 2 ^ (-46 : ℤ) * avg M noise) + 2 ^ (-1073 : ℤ)
    have ee : (c.nSteps : ℝ) * 2 ^ (-46 : ℤ) = 2 * e := by
      rw [he, show (2 : ℝ) ^ (-46 : ℤ) = 2 * 2 ^ (-47 : ℤ) by norm_num]; ring
    have eE : avg (fun z => ur * gain flag (X z) K + (1 + ur) * (e * M z)) noise =
        ur * avg (fun z => gain flag (X z) K) noise + (1 + ur) * (e * avg M noise) := by
      rw [← avg_add, avg_mul, avg_mul, avg_mul]
    have eabs : (fun z => |gain flag (X z) K|) = fun z => gain flag (X z) K := funext fun z => abs_of_nonneg (hG0 z)
    rw [eE, eabs] at h3
    refine h3.trans ?_
    rw [ee]
    obtain ⟨t1, t2⟩ := tolerance_range ho
    set τ := tolerance δ noise.length rate c.t0 c.tn
    set G := avg (fun z => gain flag (X z) K) noise
    set A := avg M noise
    have hG : 0 ≤ G := avg_nonneg fun z _ => hG0 z
    have hA : 0 ≤ A := avg_nonneg fun z _ => (hM0 z).le
    have hD : 0 < factor rate c.t0 c.tn := Real.exp_pos _
    have hY : 0 ≤ e * A := by positivity
    generalize (2 : ℝ) ^ (-1073 : ℤ) = m
    clear h3 hbig hsize hK hstep
    have k1 : ur + τ * (1 + ur) ≤ 2 * τ := by nlinarith
    have k2 : (1 + ur) * (1 + τ) ≤ 2 := by nlinarith
    have k3 := mul_le_mul_of_nonneg_right k1 hG
    have k4 := mul_le_mul_of_nonneg_right k2 hY
    have k5 : ur * G + (1 + ur) * (e * A) + τ * (G + (ur * G + (1 + ur) * (e * A))) ≤ 2 * τ * G + 2 * e * A := by linarith
    have := mul_le_mul_of_nonneg_left k5 hD.le
    linarith

/-- C101: geometric Brownian motion. The price of a European option is close to the discounted mean payoff of the exact values
`x_0 Π (1 + mu h + sigma √h z_k)`. -/
theorem C101_gbm {exp sqrt : F64 → Option F64} {δ : ℝ} (hsqrt : AccurateSqrt sqrt) (mu sigma : F64 → F64) (M S : ℝ)
    (hM : M ≤ 2 ^ 19) (hS : S ≤ 2 ^ 19) (hmu : ∀ t, |F64.real (mu t)| ≤ M) (hsigma : ∀ t, 0 ≤ F64.real (sigma t) ∧ F64.real (sigma t) ≤ S)
    (c : Config) (hc : c.Ordinary) (noise : List (ℕ → F64)) (hz : ∀ z ∈ noise, ∀ k < c.nSteps, |F64.real (z k)| ≤ 2 ^ 20)
    (hsize : ∀ z ∈ noise,
      (|F64.real c.x0| + 2 ^ (-900 : ℤ)) * ∏ i ∈ Finset.range c.nSteps, (1 + M * c.step + S * √c.step * |F64.real (z i)|) ≤ 2 ^ 400)
    (rate strike : F64) (hK : |F64.real strike| ≤ 2 ^ 400) (flag : TypeFlag) (ho : Ordinary exp δ rate c.t0 c.tn noise.length) :
    ∃ times v, c.dt.bind c.times = some times ∧ priceMonteCarlo exp sqrt (european strike flag) rate (gbm mu sigma) c noise = some v ∧
      |F64.real v - factor rate c.t0 c.tn * avg (fun z => gain flag (F64.real c.x0 * ∏ i ∈ Finset.range c.nSteps,
          (1 + F64.real (mu (times.getD i F64.zero)) * c.step + F64.real (sigma (times.getD i F64.zero)) * √c.step * F64.real (z i)))
          (F64.real strike)) noise| ≤
        factor rate c.t0 c.tn * (2 * tolerance δ noise.length rate c.t0 c.tn * avg (fun z => gain flag (F64.real c.x0 *
            ∏ i ∈ Finset.range c.nSteps,
            (1 + F64.real (mu (times.getD i F64.zero)) * c.step + F64.real (sigma (times.getD i F64.zero)) * √c.step * F64.real (z i)))
            (F64.real strike)) noise +
          c.nSteps * 2 ^ (-46 : ℤ) * avg (fun z => (|F64.real c.x0| + 2 ^ (-900 : ℤ)) *
            ∏ i ∈ Finset.range c.nSteps, (1 + M * c.step + S * √c.step * |F64.real (z i)|)) noise) +
        2 ^ (-1073 : ℤ) := by
  have hu := unit_pos
  have esize : ∀ z k, size M 0 S 0 c.step (√c.step) z (F64.real c.x0) k =
      (|F64.real c.x0| + 2 ^ (-900 : ℤ)) * ∏ i ∈ Finset.range k, (1 + M * c.step + S * √c.step * |F64.real (z i)|) := by
    intro z k
    induction k with
    | zero => simp [size]
    | succ k ih => rw [size, ih, Finset.prod_range_succ]; ring
  obtain ⟨times, v, h1, h2, h3⟩ := C101_simulated hsqrt (gbm mu sigma) (fun t x => F64.real (mu t) * x)
    (fun t x => F64.real (sigma t) * x) M 0 S 0 unit hu.le (by linarith) (linear_computes hmu hM fun x t => rfl)
    (linear_computes (fun t => by rw [abs_of_nonneg (hsigma t).1]; exact (hsigma t).2) hS fun x t => by
      have h := (hsigma t).1
      have : ¬ (sigma t).val < 0 := by unfold F64.real at h; have : (0 : ℚ) ≤ (sigma t).val := by exact_mod_cast h
                                       linarith
      simp only [gbm, if_neg this]) c hc noise hz (fun z hzn => by rw [esize]; exact hsize z hzn) rate strike hK flag ho
  have eeul : ∀ z k, euler (fun t x => F64.real (mu t) * x) (fun t x => F64.real (sigma t) * x) c.step (√c.step)
      (fun i => times.getD i F64.zero) z (F64.real c.x0) k = F64.real c.x0 * ∏ i ∈ Finset.range k,
        (1 + F64.real (mu (times.getD i F64.zero)) * c.step + F64.real (sigma (times.getD i F64.zero)) * √c.step * F64.real (z i)) := by
    intro z k
    induction k with
    | zero => simp [euler]
    | succ k ih => rw [euler, ih, Finset.prod_range_succ]; ring
  refine ⟨times, v, h1, h2, ?_⟩
  simp only [esize, eeul] at h3
  exact h3

/-! ### Binary and Asian options -/

/-- What a binary option pays. -/
noncomputable def binaryGain (kind : BinaryType) (strike : F64) (flag : TypeFlag) (s : F64) : ℝ :=
  match flag, kind with
  | .call, .cashOrNothing => if F64.real strike < F64.real s then F64.real strike else 0
  | .call, .assetOrNothing => if F64.real strike < F64.real s then F64.real s else 0
  | .put, .cashOrNothing => if F64.real s < F64.real strike then F64.real strike else 0
  | .put, .assetOrNothing => if F64.real s < F64.real strike then F64.real s else 0

theorem binary_exact (kind : BinaryType) (strike : F64) (flag : TypeFlag) (path : List F64) :
    ∃ p, binary kind strike flag path = some p ∧ F64.real p = binaryGain kind strike flag (lastPoint path) := by
  have h0 : F64.real F64.zero = 0 := by simp [F64.real, F64.zero]
  have e : ∀ a b : F64, a.val < b.val ↔ F64.real a < F64.real b := fun a b => by unfold F64.real; exact Rat.cast_lt.symm
  refine ⟨_, rfl, ?_⟩
  cases flag <;> cases kind <;> simp only [binaryGain, decide_eq_true_eq, ← e] <;> split_ifs <;> simp [h0]

/-- C101: a binary option pays exactly what it should on each path, so its price is within the tolerance. -/
theorem C101_binary {exp : F64 → Option F64} {δ : ℝ} {rate t0 tn : F64} (paths : List (List F64)) (kind : BinaryType) (strike : F64)
    (flag : TypeFlag) (ho : Ordinary exp δ rate t0 tn paths.length) (hK : |F64.real strike| ≤ 2 ^ 400)
    (h : ∀ path ∈ paths, |F64.real (lastPoint path)| ≤ 2 ^ 400) :
    ∃ v, price exp (binary kind strike flag) rate t0 tn paths = some v ∧
      |F64.real v - factor rate t0 tn * avg (fun path => binaryGain kind strike flag (lastPoint path)) paths| ≤
        tolerance δ paths.length rate t0 tn *
          (factor rate t0 tn * avg (fun path => |binaryGain kind strike flag (lastPoint path)|) paths) + 2 ^ (-1073 : ℤ) := by
  have hb : ∀ path ∈ paths, |binaryGain kind strike flag (lastPoint path)| ≤ 2 ^ 400 := by
    intro path hp
    have h1 := h path hp
    have h2 : |(0 : ℝ)| ≤ 2 ^ 400 := by rw [abs_zero]; positivity
    cases flag <;> cases kind <;> simp only [binaryGain] <;> split_ifs <;> assumption
  have e0 : (paths.map fun _ : List F64 => (0 : ℝ)).sum = 0 := by simp
  obtain ⟨v, h1, h2⟩ := C101_price_error paths (binary kind strike flag) (fun path => binaryGain kind strike flag (lastPoint path))
    (fun _ => 0) ho (fun path _ => by
      obtain ⟨p, p1, p2⟩ := binary_exact kind strike flag path
      exact ⟨p, p1, by rw [p2, sub_self, abs_zero]⟩) (by
      rw [e0, _root_.add_zero]
      refine (List.sum_le_card_nsmul _ (2 ^ 400) ?_).trans ?_
      · intro x hx
        simp only [List.mem_map] at hx
        obtain ⟨path, hp, rfl⟩ := hx
        exact hb path hp
      · rw [List.length_map, nsmul_eq_mul]
        have : (paths.length : ℝ) ≤ 2 ^ 40 := by exact_mod_cast ho.paths.2
        calc (paths.length : ℝ) * 2 ^ 400 ≤ 2 ^ 40 * 2 ^ 400 := by gcongr
          _ = 2 ^ 440 := by rw [← pow_add]
          _ ≤ 2 ^ 500 := pow_le_pow_right₀ (by norm_num) (by norm_num))
  refine ⟨v, h1, h2.trans (le_of_eq ?_)⟩
  have : avg (fun _ : List F64 => (0 : ℝ)) paths = 0 := by unfold avg; rw [e0, zero_div]
  rw [this]
  ring

/-- C101: Asian options on the arithmetic average of prices that are not negative, on paths with at most `L ≤ 2^40` points: a relative error of
twice the tolerance, plus `3 L 2^-52` of the discounted mean of the averages. -/
theorem C101_asian {exp : F64 → Option F64} {δ : ℝ} {rate t0 tn : F64} (pow : X64 → X64 → X64) (paths : List (List F64)) (L : ℕ) (hL : L ≤ 2 ^ 40)
    (h : ∀ path ∈ paths, path ≠ [] ∧ path.length ≤ L ∧ ∀ x ∈ path, 0 ≤ F64.real x ∧ F64.real x ≤ 2 ^ 400)
    (f : TypeFlag) (s : Options.StrikeFlag) (k : Option F64) (hk : 0 ≤ F64.real (k.getD F64.zero) ∧ F64.real (k.getD F64.zero) ≤ 2 ^ 400)
    (ho : Ordinary exp δ rate t0 tn paths.length) :
    ∃ v, price exp (asian pow ⟨f, some s, .arithmeticDiscrete, k⟩) rate t0 tn paths = some v ∧
      |F64.real v - factor rate t0 tn * avg (fun path => Mean.asianGain f s (Mean.amean path) (F64.real (lastPoint path))
          (F64.real (k.getD F64.zero))) paths| ≤
        factor rate t0 tn * (2 * tolerance δ paths.length rate t0 tn * avg (fun path => Mean.asianGain f s (Mean.amean path)
            (F64.real (lastPoint path)) (F64.real (k.getD F64.zero))) paths +
          3 * L * 2 ^ (-52 : ℤ) * avg Mean.amean paths + 2 ^ (-1073 : ℤ)) + 2 ^ (-1073 : ℤ) := by
  have hu := ur_pos
  have hu1 := ur_le
  have hm := mu_pos
  have hm1 : mu ≤ 1 / 1000 := mu_le.trans hu1
  have hL1 : (L : ℝ) ≤ 2 ^ 40 := by exact_mod_cast hL
  set K := F64.real (k.getD F64.zero) with hK
  set G : List F64 → ℝ := fun path => Mean.asianGain f s (Mean.amean path) (F64.real (lastPoint path)) K with hG
  set l : ℝ := L * 2 ^ (-52 : ℤ) with hl
  have hl0 : 0 ≤ l := by positivity
  have hl1 : l ≤ 1 / 100 := by
    calc l ≤ 2 ^ 40 * 2 ^ (-52 : ℤ) := by rw [hl]; gcongr
      _ ≤ _ := by norm_num
  have hG0 : ∀ path, 0 ≤ G path := fun path => by
    simp only [hG, Mean.asianGain]; cases s <;> exact gain_nonneg _ _ _
  have hA : ∀ path ∈ paths, 0 ≤ Mean.amean path ∧ Mean.amean path ≤ 2 ^ 400 := by
    intro path hp
    obtain ⟨h1, h2, h3⟩ := h path hp
    have hn : (0 : ℝ) < path.length := by exact_mod_cast List.length_pos_iff.2 h1
    unfold Mean.amean
    refine ⟨div_nonneg (List.sum_nonneg ?_) hn.le, ?_⟩
    · intro x hx
      simp only [List.mem_map] at hx
      obtain ⟨y, hy, rfl⟩ := hx
      exact (h3 y hy).1
    · rw [div_le_iff₀ hn]
      refine (List.sum_le_card_nsmul _ (2 ^ 400) ?_).trans ?_
      · intro x hx
        simp only [List.mem_map] at hx
        obtain ⟨y, hy, rfl⟩ := hx
        exact (h3 y hy).2
      · rw [List.length_map, nsmul_eq_mul, mul_comm]
  have hGb : ∀ path ∈ paths, G path ≤ 2 * 2 ^ 400 := by
    intro path hp
    obtain ⟨a1, a2⟩ := hA path hp
    obtain ⟨h1, h2, h3⟩ := h path hp
    have hS : 0 ≤ F64.real (lastPoint path) ∧ F64.real (lastPoint path) ≤ 2 ^ 400 := by
      obtain ⟨t, ht⟩ : ∃ t, path.getLast? = some t := by
        rw [← Option.isSome_iff_exists, List.getLast?_isSome]; exact h1
      rw [lastPoint_of ht]
      exact h3 t (List.mem_of_getLast? ht)
    have key : ∀ a b w : ℝ, 0 ≤ a → a ≤ w → 0 ≤ b → b ≤ w → ∀ f, gain f a b ≤ 2 * w := by
      intro a b w h1 h2 h3 h4 f
      refine (gain_le f a b).trans ?_
      rw [abs_le]; constructor <;> linarith
    simp only [hG, Mean.asianGain]
    cases s
    · exact key _ _ _ a1 a2 hk.1 hk.2 f
    · exact key _ _ _ hS.1 hS.2 a1 a2 f
  obtain ⟨v, v1, v2⟩ := C101_price_error paths (asian pow ⟨f, some s, .arithmeticDiscrete, k⟩) G
    (fun path => 2 * (l * Mean.amean path) + 2 * mu + ur * G path) ho (fun path hp => by
      obtain ⟨h1, h2, h3⟩ := h path hp
      obtain ⟨t, ht⟩ : ∃ t, path.getLast? = some t := by
        rw [← Option.isSome_iff_exists, List.getLast?_isSome]; exact h1
      obtain ⟨p, p1, -, p2⟩ := Mean.C100_asian_arithmetic pow path (by omega) (fun x hx => by
          have := (h3 x hx).1; unfold F64.real at this; exact_mod_cast this) (by
          have hb : ∀ y ∈ path.map F64.val, y ≤ 2 ^ 400 := by
            intro y hy
            simp only [List.mem_map] at hy
            obtain ⟨x, hx, rfl⟩ := hy
            have := (h3 x hx).2
            unfold F64.real at this
            exact_mod_cast this
          refine (List.sum_le_card_nsmul _ (2 ^ 400) hb).trans_lt ?_
          rw [List.length_map, nsmul_eq_mul]
          have : (path.length : ℚ) ≤ 2 ^ 40 := by exact_mod_cast h2.trans hL
          calc (path.length : ℚ) * 2 ^ 400 ≤ 2 ^ 40 * 2 ^ 400 := by gcongr
            _ = 2 ^ 440 := by rw [← pow_add]
            _ < 2 ^ 1023 := pow_lt_pow_right₀ (by norm_num) (by norm_num)) t ht f s k (by
          have := hk.1; rw [hK] at this; unfold F64.real at this; exact_mod_cast this)
      refine ⟨p, ?_, ?_⟩
      · unfold asian; simp only [Option.bind_eq_bind, p1, Option.bind_some]
      · rw [← lastPoint_of ht] at p2
        refine p2.trans ?_
        change 2 * (path.length * 2 ^ (-52 : ℤ) * Mean.amean path + mu) + ur * G path ≤ _
        have h4 : (path.length : ℝ) * 2 ^ (-52 : ℤ) ≤ l := by
          rw [hl]
          have : (path.length : ℝ) ≤ L := by exact_mod_cast h2
          gcongr
        have := mul_le_mul_of_nonneg_right h4 (hA path hp).1
        linarith) (by
      rw [← List.sum_map_add]
      refine (List.sum_le_card_nsmul _ (2 ^ 3 * 2 ^ 400) ?_).trans ?_
      · intro y hy
        simp only [List.mem_map] at hy
        obtain ⟨path, hp, rfl⟩ := hy
        obtain ⟨a1, a2⟩ := hA path hp
        have a3 := hGb path hp
        have a4 : (1 : ℝ) ≤ 2 ^ 400 := one_le_pow₀ (by norm_num)
        rw [abs_of_nonneg (hG0 path)]
        have a5 := hG0 path
        generalize (2 : ℝ) ^ 400 = w at *
        have a6 : l * Mean.amean path ≤ 1 / 100 * Mean.amean path := mul_le_mul_of_nonneg_right hl1 a1
        have a7 : ur * G path ≤ 1 / 1000 * G path := mul_le_mul_of_nonneg_right hu1 a5
        linarith
      · rw [List.length_map, nsmul_eq_mul, ← pow_add]
        have : (paths.length : ℝ) ≤ 2 ^ 40 := by exact_mod_cast ho.paths.2
        calc (paths.length : ℝ) * 2 ^ 403 ≤ 2 ^ 40 * 2 ^ 403 := by gcongr
          _ = 2 ^ 443 := by rw [← pow_add]
          _ ≤ 2 ^ 500 := pow_le_pow_right₀ (by norm_num) (by norm_num))
  refine ⟨v, v1, v2.trans ?_⟩
  have hN : (paths.length : ℝ) ≠ 0 := by exact_mod_cast ho.paths.1.ne'
  have eE : avg (fun path => 2 * (l * Mean.amean path) + 2 * mu + ur * G path) paths =
      2 * (l * avg Mean.amean paths) + 2 * mu + ur * avg G paths := by
    rw [← avg_add, ← avg_add, avg_mul 2 (fun path => l * Mean.amean path), avg_mul l, avg_mul ur]
    congr 2
    unfold avg
    rw [List.map_const', List.sum_replicate, nsmul_eq_mul]
    field_simp
  have eabs : (fun z => |G z|) = G := funext fun z => abs_of_nonneg (hG0 z)
  rw [eE, eabs, four_mu, show 3 * (L : ℝ) * 2 ^ (-52 : ℤ) = 3 * l by rw [hl]; ring]
  obtain ⟨t1, t2⟩ := tolerance_range ho
  set τ := tolerance δ paths.length rate t0 tn
  set g := avg G paths
  set A := avg Mean.amean paths
  have hg : 0 ≤ g := avg_nonneg fun z _ => hG0 z
  have hA0 : 0 ≤ A := avg_nonneg fun z hz => (hA z hz).1
  have hD : 0 < factor rate t0 tn := Real.exp_pos _
  have hY : 0 ≤ l * A := by positivity
  clear hGb hA hk v2
  have k1 : ur + τ * (1 + ur) ≤ 2 * τ := by nlinarith
  have k3 := mul_le_mul_of_nonneg_right k1 hg
  have k4 : τ * (l * A) ≤ 1 / 30 * (l * A) := mul_le_mul_of_nonneg_right t2 hY
  have k6 : τ * mu ≤ 1 / 30 * mu := mul_le_mul_of_nonneg_right t2 hm.le
  have k5 : 2 * (l * A) + 2 * mu + ur * g + τ * (g + (2 * (l * A) + 2 * mu + ur * g)) ≤ 2 * τ * g + 3 * l * A + 4 * mu := by nlinarith
  have := mul_le_mul_of_nonneg_left k5 hD.le
  linarith

/-! ### Cases that meet the hypotheses -/

theorem someExp_ordinary (n : ℕ) (hn : 0 < n ∧ n ≤ 2 ^ 40) : Ordinary Bsm.someLibm.exp (2 ^ (-50 : ℤ)) (lit (1 / 20)) (lit 0) (lit 1) n where
  exp := Bsm.someLibm_accurate.exp
  error := by norm_num
  exponent := by
    have h : |F64.real (lit (1 / 20))| ≤ 1 := by
      unfold F64.real
      have : |(lit (1 / 20)).val| ≤ 1 := by decide +kernel
      exact_mod_cast this
    rw [real_zero, real_one, sub_zero, mul_one]
    linarith
  period := by
    rw [real_zero, real_one, abs_zero, abs_one]
    exact ⟨by positivity, one_le_pow₀ (by norm_num)⟩
  paths := hn

/-- Two paths from 100, and the strike 105. -/
def somePaths : List (List F64) := [[lit 100, lit 110, lit 121], [lit 100, lit 95, lit (181 / 2)]]

theorem real_lit_le {q : ℚ} {b : ℕ} (h : |(lit q).val| ≤ b) (hb : b ≤ 2 ^ 399) : |F64.real (lit q)| ≤ 2 ^ 399 := by
  have h1 : |F64.real (lit q)| ≤ b := by unfold F64.real; exact_mod_cast h
  have h2 : (b : ℝ) ≤ 2 ^ 399 := by exact_mod_cast hb
  exact h1.trans h2

theorem somePaths_points : ∀ path ∈ somePaths, path ≠ [] ∧ ∀ x ∈ path, 0 ≤ F64.real x ∧ |F64.real x| ≤ 2 ^ 399 := by
  have e : (1000 : ℕ) ≤ 2 ^ 399 := le_trans (by norm_num) (Nat.pow_le_pow_right (by norm_num) (show 10 ≤ 399 by norm_num))
  have h : ∀ q : ℚ, 0 ≤ (lit q).val → |(lit q).val| ≤ (1000 : ℕ) → 0 ≤ F64.real (lit q) ∧ |F64.real (lit q)| ≤ 2 ^ 399 := fun q h1 h2 =>
    ⟨by unfold F64.real; exact_mod_cast h1, real_lit_le h2 e⟩
  intro path hp
  simp only [somePaths, List.mem_cons, List.not_mem_nil, or_false] at hp
  rcases hp with rfl | rfl <;> refine ⟨by simp, fun x hx => ?_⟩ <;> simp only [List.mem_cons, List.not_mem_nil, or_false] at hx <;>
    rcases hx with rfl | rfl | rfl <;> exact h _ (by decide +kernel) (by decide +kernel)

theorem someStrike : 0 ≤ F64.real (lit 105) ∧ |F64.real (lit 105)| ≤ 2 ^ 399 := by
  refine ⟨?_, real_lit_le (b := 1000) (by decide +kernel)
    (le_trans (by norm_num) (Nat.pow_le_pow_right (by norm_num) (show 10 ≤ 399 by norm_num)))⟩
  have : 0 ≤ (lit 105).val := by decide +kernel
  unfold F64.real; exact_mod_cast this

theorem somePaths_near : ∀ path ∈ somePaths, path ≠ [] ∧ |F64.real (lastPoint path) - F64.real (lit 105)| ≤ 2 ^ 400 := by
  intro path hp
  obtain ⟨h1, h2⟩ := somePaths_points path hp
  refine ⟨h1, ?_⟩
  obtain ⟨t, ht⟩ : ∃ t, path.getLast? = some t := by
    rw [← Option.isSome_iff_exists, List.getLast?_isSome]; exact h1
  rw [lastPoint_of ht, show (2 : ℝ) ^ 400 = 2 ^ 399 + 2 ^ 399 from (pow_succ (2 : ℝ) 399).trans (mul_two _)]
  exact (abs_sub _ _).trans (_root_.add_le_add (h2 t (List.mem_of_getLast? ht)).2 someStrike.2)

theorem le_400 {x : ℝ} (h : |x| ≤ 2 ^ 399) : |x| ≤ 2 ^ 400 := h.trans (pow_le_pow_right₀ (by norm_num) (by norm_num))

example := C101_european somePaths (lit 105) .call (someExp_ordinary 2 (by norm_num)) fun path hp => (somePaths_near path hp).2

example := C101_parity somePaths (lit 105) (someExp_ordinary 2 (by norm_num)) fun path hp => (somePaths_near path hp).2

example := C101_barrier somePaths .downAndOut (lit 92) (lit 105) .put (someExp_ordinary 2 (by norm_num)) somePaths_near

example := C101_in_out somePaths .upAndIn .upAndOut (Or.inl ⟨rfl, rfl⟩) (lit 115) (lit 105) .call (someExp_ordinary 2 (by norm_num))
  somePaths_near

example := C101_binary somePaths .assetOrNothing (lit 105) .call (someExp_ordinary 2 (by norm_num)) (le_400 someStrike.2) fun path hp => by
  obtain ⟨h1, h2⟩ := somePaths_points path hp
  obtain ⟨t, ht⟩ : ∃ t, path.getLast? = some t := by
    rw [← Option.isSome_iff_exists, List.getLast?_isSome]; exact h1
  rw [lastPoint_of ht]
  exact le_400 (h2 t (List.mem_of_getLast? ht)).2

example := C101_asian Mean.somePow somePaths 3 (by norm_num) (fun path hp => by
    refine ⟨(somePaths_points path hp).1, ?_, fun x hx => ?_⟩
    · simp only [somePaths, List.mem_cons, List.not_mem_nil, or_false] at hp
      rcases hp with rfl | rfl <;> simp
    · obtain ⟨h1, h2⟩ := (somePaths_points path hp).2 x hx
      exact ⟨h1, (le_abs_self _).trans (le_400 h2)⟩)
  .call .fixed (some (lit 105)) ⟨someStrike.1, (le_abs_self _).trans (le_400 someStrike.2)⟩ (someExp_ordinary 2 (by norm_num))

/-- Two paths of twelve steps of geometric Brownian motion meet the hypotheses of `C101_gbm` (and so those of `C101_simulated`). -/
example : ∃ v, priceMonteCarlo Bsm.someLibm.exp someSqrt (european (lit 1) .call) (lit (1 / 20)) (gbm (fun _ => lit 1) fun _ => lit 1) someConfig
    [fun _ => lit 1, fun _ => lit 1] = some v := by
  have hsz : (|F64.real someConfig.x0| + 2 ^ (-900 : ℤ)) * ∏ i ∈ Finset.range someConfig.nSteps,
      (1 + 1 * someConfig.step + 1 * √someConfig.step * |F64.real ((fun _ => lit 1 : ℕ → F64) i)|) ≤ 2 ^ 400 := by
    have h1 := someConfig_sqrt
    have h2 : (2 : ℝ) ^ (-900 : ℤ) ≤ 1 := by
      rw [← zpow_zero (2 : ℝ)]; exact zpow_le_zpow_right₀ (by norm_num) (by norm_num)
    have h3 : F64.real someConfig.x0 = 1 := real_one
    have h4 := Real.sqrt_nonneg someConfig.step
    simp only [real_one, abs_one, mul_one, one_mul, Finset.prod_const, Finset.card_range, h3]
    have h5 : (1 + someConfig.step + √someConfig.step) ^ 12 ≤ 3 ^ 12 := by
      rw [someConfig_step] at *
      refine pow_le_pow_left₀ (by positivity) ?_ _
      linarith
    have h6 : (1 + someConfig.step + √someConfig.step) ^ someConfig.nSteps ≤ 3 ^ 12 := h5
    calc (1 + (2 : ℝ) ^ (-900 : ℤ)) * (1 + someConfig.step + √someConfig.step) ^ someConfig.nSteps ≤ 2 * 3 ^ 12 := by
          refine mul_le_mul (by linarith) h6 ?_ (by norm_num)
          rw [someConfig_step]; positivity
      _ ≤ 2 ^ 30 := by norm_num
      _ ≤ 2 ^ 400 := pow_le_pow_right₀ (by norm_num) (by norm_num)
  have ho : Ordinary Bsm.someLibm.exp (2 ^ (-50 : ℤ)) (lit (1 / 20)) someConfig.t0 someConfig.tn
      (List.length [(fun _ => lit 1 : ℕ → F64), fun _ => lit 1]) := by
    simp only [someConfig, List.length_cons, List.length_nil]
    exact someExp_ordinary 2 (by norm_num)
  obtain ⟨times, v, -, h, -⟩ := C101_gbm (exp := Bsm.someLibm.exp) someSqrt_accurate (fun _ => lit 1) (fun _ => lit 1) 1 1 (by norm_num)
    (by norm_num) lit_one_le lit_one_in someConfig someConfig_ordinary [fun _ => lit 1, fun _ => lit 1]
    (fun z hz => by
      have : z = fun _ => lit 1 := by simpa using hz
      rw [this]; exact noise_small)
    (fun z hz => by
      have : z = fun _ => lit 1 := by simpa using hz
      rw [this]; exact hsz)
    (lit (1 / 20)) (lit 1) (by rw [real_one, abs_one]; exact one_le_pow₀ (by norm_num)) .call ho
  exact ⟨v, h⟩

/-- Two calls whose prices are in the exact order. -/
example : ∃ v w, price (fun _ => some (lit 1)) (european (lit 105) .call) (lit (1 / 20)) (lit 0) (lit 1) somePaths = some v ∧ v.val = 8 ∧
    price (fun _ => some (lit 1)) (european (lit 111) .call) (lit (1 / 20)) (lit 0) (lit 1) somePaths = some w ∧ w.val ≤ v.val := by
  have h : (price (fun _ => some (lit 1)) (european (lit 105) .call) (lit (1 / 20)) (lit 0) (lit 1) somePaths).map F64.val = some 8 := by
    decide +kernel
  have g : (price (fun _ => some (lit 1)) (european (lit 111) .call) (lit (1 / 20)) (lit 0) (lit 1) somePaths).map F64.val = some 5 := by
    decide +kernel
  have h0 : 0 ≤ (lit 1).val := by decide +kernel
  have hk : (lit 105).val ≤ (lit 111).val := by decide +kernel
  obtain ⟨v, h1, h2⟩ := Option.map_eq_some_iff.1 h
  obtain ⟨w, g1, g2⟩ := Option.map_eq_some_iff.1 g
  refine ⟨v, w, h1, h2, g1, ?_⟩
  revert h1 g1 h0 hk
  generalize lit 1 = one
  generalize lit 105 = k
  generalize lit 111 = k'
  intro h0 hk h1 g1
  exact (C101_order (fun _ => some one) (fun x y h => by rw [← Option.some.inj h]; exact h0) _ _ _ somePaths k).2.1 k' v w hk h1 g1

end Verif.Float.Mc
