import Verif.Float.JumpsLemmas
import Verif.Float.SchemesProps

/-!
# C116: paths with jumps in double precision

The specification is in `JumpsSpec` (and `SimulationSpec`): the jump of a step (`jumpOf`), the exact recursion (`eulerJumps`) and the sum of
the sizes of everything that is added (`sizeJumps`).
-/

namespace Verif.Float.Sim

open Verif.Float.Fft (ur ur_pos ur_le mu mu_pos)

/-! ## The times -/

/-- C116: whatever is simulated, the start lies before the end, there are one more times than steps and as many values; the first time is
the start, exactly, the times do not decrease, and time `k` is within `2^-49` of the larger end in size (plus an underflow term) of
`t_0 + k (t_n - t_0) / n`. The first value is the initial value. -/
theorem C116_times (P : Process) (sqrt : F64 → Option F64) (c : Config) (jumps : List F64) (z : ℕ → F64) (sizes : ℕ → Option F64)
    (times path : List F64) (hn : c.nSteps < 2 ^ 53) (h : simulateJumps P sqrt c jumps z sizes = some (times, path)) :
    c.t0.val < c.tn.val ∧ 1 ≤ c.nSteps ∧ times.length = c.nSteps + 1 ∧ path.length = c.nSteps + 1 ∧ path.head? = some c.x0 ∧
    times.head? = some c.t0 ∧ times.Pairwise (fun a b => a.val ≤ b.val) ∧
    ∀ (k : ℕ) (t : F64), times[k]? = some t →
      |t.val - (c.t0.val + k * ((c.tn.val - c.t0.val) / c.nSteps))| ≤
        2 ^ (-49 : ℤ) * max |c.t0.val| |c.tn.val| + (c.nSteps + 1) * 2 ^ (-1073 : ℤ) := by
  unfold simulateJumps at h
  split_ifs at h with hc
  simp only [Option.bind_eq_bind, Option.bind_eq_some_iff, Option.pure_def, Option.some.injEq, Prod.mk.injEq] at h
  obtain ⟨dt, h1, ts, h2, sc, _, p, h4, rfl, rfl⟩ := h
  have hl : linspace c.t0 c.tn (c.nSteps + 1) = some (some ts) := by
    rw [linspace_eq c hc, h1]; simp only [Option.bind_some, h2]
  obtain ⟨g1, g2, g3, g4, g5⟩ := C88_linspace _ _ _ (by omega) _ hl
  have hp : ∀ (n : ℕ) (p : List F64), jumpPath P dt sc ts jumps z sizes c.x0 n = some p → p.length = n + 1 ∧ p.head? = some c.x0 := by
    intro n
    induction n with
    | zero => intro p hp; cases hp; exact ⟨rfl, rfl⟩
    | succ n ih =>
      intro p hp
      simp only [jumpPath, Option.bind_eq_bind, Option.bind_eq_some_iff, Option.pure_def, Option.some.injEq] at hp
      obtain ⟨q, hq, t, ht, j, hj, x, hx, y, hy, rfl⟩ := hp
      obtain ⟨i1, i2⟩ := ih q hq
      refine ⟨by simp [i1], ?_⟩
      cases q with
      | nil => simp at i1
      | cons a q => simpa using i2
  refine ⟨hc, by omega, g2, (hp _ _ h4).1, (hp _ _ h4).2, g3, g4, fun k t ht => ?_⟩
  have := g5 k t ht
  simp only [Nat.add_sub_cancel] at this
  push_cast at this ⊢
  exact this

/-! ## Jumps in the exact recursion and in the rounded one -/

theorem jumpTerm_of {counts : List F64} {sizes : ℕ → F64} {n k : ℕ} (hn : n ≤ counts.length) (hk : k < n) :
    ∃ j, jumpTerm counts (fun i => some (sizes i)) k = some j ∧ F64.real j = jumpOf counts sizes k := by
  have hne : counts.isEmpty = false := by
    cases counts with
    | nil => simp at hn; omega
    | cons a l => rfl
  have hck : counts[k]? = some counts[k] := List.getElem?_eq_getElem (by omega)
  unfold jumpTerm jumpOf
  rw [hne, hck]
  refine ⟨_, rfl, ?_⟩
  have h0 : (0 < (counts[k]).val) ↔ 0 < F64.real counts[k] := by
    unfold F64.real; exact_mod_cast Iff.rfl
  simp only [calculateJump]
  split_ifs with h1 h2 h2
  · rfl
  · exact absurd (h0.1 h1) h2
  · exact absurd (h0.2 h2) h1
  · exact zero_real

/-- C116: for a drift and a diffusion with Lipschitz constants `B` and `S` and sizes at most `B|x| + C` and `S|x| + T`, computed with
relative error `η`, and whatever the sampled numbers and sizes of jumps, every path comes out finite, and its `k`-th value differs from the
exact recursion (exact step `h = (t_n - t_0)/n`, exact `√h`, the same noise, the same jumps) by at most `(1 + η + 20 * 2^-53)^k - 1` times
the sum of the sizes of all terms. -/
theorem C116_jump_error (sqrt : F64 → Option F64) (hsqrt : AccurateSqrt sqrt) (P : Process) (b s : F64 → ℝ → ℝ) (B C S T η : ℝ)
    (hη : 0 ≤ η) (hη1 : η ≤ 1 / 2000) (hd : Computes P.drift b B C η) (hs : Computes P.diffusion s S T η)
    (c : Config) (hc : c.Ordinary) (z sizes : ℕ → F64) (counts : List F64) (hcounts : c.nSteps ≤ counts.length)
    (hz : ∀ k < c.nSteps, |F64.real (z k)| ≤ 2 ^ 20) (hgrow : (1 + η + 20 * unit) ^ c.nSteps ≤ 2)
    (hsize : sizeJumps B C S T c.step (√c.step) z (jumpOf counts sizes) (F64.real c.x0) c.nSteps ≤ 2 ^ 899) :
    ∃ times path, simulateJumps P sqrt c counts z (fun k => some (sizes k)) = some (times, path) ∧ path.length = c.nSteps + 1 ∧
      ∀ k ≤ c.nSteps, ∃ x, path[k]? = some x ∧
        |F64.real x - eulerJumps b s c.step (√c.step) (fun i => times.getD i F64.zero) z (jumpOf counts sizes) (F64.real c.x0) k| ≤
          ((1 + η + 20 * unit) ^ k - 1) * sizeJumps B C S T c.step (√c.step) z (jumpOf counts sizes) (F64.real c.x0) k := by
  change (1 + η + 20 * ur) ^ c.nSteps ≤ 2 at hgrow
  obtain ⟨dt, times, h1, h2, h3, h4, h5, h6⟩ := hc.computed
  have hu := ur_pos
  have hu1 : ur ≤ 1 / 10 ^ 6 := by unfold ur; norm_num
  obtain ⟨hdt0, hr⟩ := ratio (δ := 4 * ur) h5 (by positivity) (by linarith) h4 (by nlinarith)
  have hdtv : 0 < dt.val := by unfold F64.real at hdt0; exact_mod_cast hdt0
  obtain ⟨scale, hsc, hsc1⟩ := hsqrt dt hdtv
  change |F64.real scale - √(F64.real dt)| ≤ 2 * ur * √(F64.real dt) at hsc1
  have hs0 : 0 < √c.step := Real.sqrt_pos.2 h5
  have hn1 := sqrt_near h5 hdt0.le h4
  have hscale : |F64.real scale - √c.step| ≤ 6 * ur * √c.step := by
    have e1 := abs_add_le (F64.real scale - √(F64.real dt)) (√(F64.real dt) - √c.step)
    rw [sub_add_sub_cancel] at e1
    have e2 := (abs_le.1 hn1).2
    have e3 : 2 * ur * √(F64.real dt) ≤ 2 * ur * (√c.step + 3 * ur * √c.step) :=
      mul_le_mul_of_nonneg_left (by linarith) (by linarith)
    have e4 : 0 ≤ ur * √c.step := by positivity
    have e5 : ur * (ur * √c.step) ≤ 1 / 10 ^ 6 * (ur * √c.step) := mul_le_mul_of_nonneg_right hu1 e4
    linarith
  obtain ⟨hsc0, hq⟩ := ratio (δ := 7 * ur) hs0 (by positivity) (by linarith) hscale (by nlinarith)
  have hη' : ∀ {r δ : ℝ}, |1 - r| ≤ δ → δ ≤ 7 * ur → η + δ ≤ (η + 8 * ur) * r := by
    intro r δ h hδ
    have := (abs_le.1 (h.trans hδ)).2
    have h7 : (η + 8 * ur) * (1 - 7 * ur) ≤ (η + 8 * ur) * r := mul_le_mul_of_nonneg_left (by linarith) (by positivity)
    have h8 : η * ur ≤ 1 / 2000 * ur := mul_le_mul_of_nonneg_right hη1 hu.le
    have h9 : ur * ur ≤ 1 / 10 ^ 6 * ur := mul_le_mul_of_nonneg_right hu1 hu.le
    linarith
  have t1 := hd.scale hr (by linarith) (hη' hr (by linarith))
  have t2 := hs.scale hq (by linarith) (hη' hq le_rfl)
  have m1 : c.step / F64.real dt * F64.real dt = c.step := div_mul_cancel₀ _ hdt0.ne'
  have m2 : √c.step / F64.real scale * F64.real scale = √c.step := div_mul_cancel₀ _ hsc0.ne'
  have hs19 : √c.step ≤ 2 ^ 19 := by
    rw [Real.sqrt_le_left (by norm_num)]
    exact h6.trans (by norm_num)
  have hdtb : F64.real dt ≤ 2 ^ 20 := by
    have := (abs_le.1 h4).2
    have e : 3 * ur * c.step ≤ 1 * c.step := mul_le_mul_of_nonneg_right (by linarith) h5.le
    norm_num at h6 ⊢
    linarith
  have hscb : F64.real scale ≤ 2 ^ 20 := by
    have := (abs_le.1 hscale).2
    have e : 6 * ur * √c.step ≤ 1 * √c.step := mul_le_mul_of_nonneg_right (by linarith) hs0.le
    norm_num at hs19 ⊢
    linarith
  have eε : 1 + (η + 8 * ur + 12 * ur) = 1 + η + 20 * ur := by ring
  obtain ⟨p, hp1, hp2, hp3⟩ := jump_close (η := η + 8 * ur) (x0 := c.x0) (times := times) (jumps := counts) (z := z)
    (sizes := fun k => some (sizes k)) (n := c.nSteps) (by positivity) (by linarith) t1 t2 (fun k hk => jumpTerm_of hcounts hk)
    hdt0.le hdtb hsc0.le hscb hz (by omega) (by rw [eε]; exact hgrow)
    (by rw [sizeJumps_scale m1 m2]; exact hsize) c.nSteps le_rfl
  refine ⟨times, p, ?_, hp2, fun k hk => ?_⟩
  · unfold simulateJumps
    rw [if_pos hc.lt]
    simp only [h1, h2, hsc, hp1, Option.bind_eq_bind, Option.bind_some, Option.pure_def]
  · obtain ⟨x, hx1, hx2, _⟩ := hp3 k hk
    refine ⟨x, hx1, ?_⟩
    rw [eulerJumps_scale m1 m2, sizeJumps_scale m1 m2, eε] at hx2
    exact hx2

/-- C116: Merton's jump diffusion with `|mu| ≤ M` and `0 ≤ sigma ≤ S`: every path comes out finite, and its `k`-th value is within
`k * 2^-47` of the sum of sizes of the exact recursion with drift `mu x` and diffusion `sigma x`, to which each step with a positive number
of sampled jumps adds the size drawn for it. -/
theorem C116_merton_error (sqrt : F64 → Option F64) (hsqrt : AccurateSqrt sqrt) (mu sigma : F64 → F64) (M S : ℝ)
    (hM : M ≤ 2 ^ 19) (hS : S ≤ 2 ^ 19) (hmu : ∀ t, |F64.real (mu t)| ≤ M) (hsigma : ∀ t, 0 ≤ F64.real (sigma t) ∧ F64.real (sigma t) ≤ S)
    (c : Config) (hc : c.Ordinary) (z sizes : ℕ → F64) (counts : List F64) (hcounts : c.nSteps ≤ counts.length)
    (hz : ∀ k < c.nSteps, |F64.real (z k)| ≤ 2 ^ 20)
    (hsize : sizeJumps M 0 S 0 c.step (√c.step) z (jumpOf counts sizes) (F64.real c.x0) c.nSteps ≤ 2 ^ 899) :
    ∃ times path, simulateJumps (merton mu sigma) sqrt c counts z (fun k => some (sizes k)) = some (times, path) ∧
      path.length = c.nSteps + 1 ∧ ∀ k ≤ c.nSteps, ∃ x, path[k]? = some x ∧
        |F64.real x - eulerJumps (fun t x => F64.real (mu t) * x) (fun t x => F64.real (sigma t) * x) c.step (√c.step)
            (fun i => times.getD i F64.zero) z (jumpOf counts sizes) (F64.real c.x0) k| ≤
          k * 2 ^ (-47 : ℤ) * sizeJumps M 0 S 0 c.step (√c.step) z (jumpOf counts sizes) (F64.real c.x0) k := by
  have hu := unit_pos
  have hu6 : unit ≤ 1 / 10 ^ 6 := by unfold unit; norm_num
  have hM0 : 0 ≤ M := (abs_nonneg _).trans (hmu F64.zero)
  have hS0 : 0 ≤ S := (hsigma F64.zero).1.trans (hsigma F64.zero).2
  have e : 1 + unit + 20 * unit = 1 + 3 * unit + 18 * unit := by ring
  obtain ⟨times, path, h1, h2, h3⟩ := C116_jump_error sqrt hsqrt (merton mu sigma) (fun t x => F64.real (mu t) * x)
    (fun t x => F64.real (sigma t) * x) M 0 S 0 unit hu.le (by linarith) (linear_computes hmu hM fun x t => rfl)
    (linear_computes (fun t => by rw [abs_of_nonneg (hsigma t).1]; exact (hsigma t).2) hS fun x t => by
      simp only [merton, if_neg (not_neg_of_real (hsigma t).1)]) c hc z sizes counts hcounts hz
    (by rw [e]; exact grow_two (by positivity) (by linarith) _ hc.steps.2) hsize
  refine ⟨times, path, h1, h2, fun k hk => ?_⟩
  obtain ⟨x, hx, hx'⟩ := h3 k hk
  refine ⟨x, hx, hx'.trans (mul_le_mul_of_nonneg_right ?_ ?_)⟩
  · have := grow_bound (η := 3 * unit) (by positivity) (by linarith) k (hk.trans hc.steps.2)
    rw [e]
    linarith
  · have hst : 0 ≤ c.step := hc.computed.choose_spec.choose_spec.2.2.2.2.1.le
    exact (sizeJumps_pos hM0 le_rfl hS0 le_rfl hst (Real.sqrt_nonneg _) k).le

/-! ## What the jumps change -/

theorem jumpPath_congr {P : Process} {dt scale x0 : F64} {times j1 j2 : List F64} {z : ℕ → F64} {s1 s2 : ℕ → Option F64} {n : ℕ}
    (h : ∀ k < n, jumpTerm j1 s1 k = jumpTerm j2 s2 k) :
    jumpPath P dt scale times j1 z s1 x0 n = jumpPath P dt scale times j2 z s2 x0 n := by
  induction n with
  | zero => rfl
  | succ n ih => simp only [jumpPath]; rw [ih fun k hk => h k (by omega), h n (by omega)]

theorem jumpPath_none {P : Process} {dt scale x0 : F64} {times jumps : List F64} {z : ℕ → F64} {sizes : ℕ → Option F64} {n : ℕ}
    (h : ∀ k < n, jumpTerm jumps sizes k = some F64.zero) :
    jumpPath P dt scale times jumps z sizes x0 n = runPath P dt scale times z x0 n := by
  induction n with
  | zero => rfl
  | succ n ih =>
    simp only [jumpPath, runPath]
    rw [ih fun k hk => h k (by omega), h n (by omega)]
    rfl

/-- C116: a path without jumps is, bit for bit, the path of the plain Euler-Maruyama scheme: if the process has no jumps, if nothing was
sampled, or if all sampled numbers of jumps are zero. One panics exactly if the other does. -/
theorem C116_no_jumps (P : Process) (sqrt : F64 → Option F64) (c : Config) (counts : List F64) (z : ℕ → F64) (sizes : ℕ → Option F64)
    (h : counts = [] ∨ c.nSteps ≤ counts.length ∧ ((∀ k, sizes k = none) ∨ ∀ n ∈ counts, n.val = 0)) :
    simulateJumps P sqrt c counts z sizes = simulate P sqrt c z := by
  have hk : ∀ k < c.nSteps, jumpTerm counts sizes k = some F64.zero := by
    intro k hk
    unfold jumpTerm
    rcases h with rfl | ⟨hn, h⟩
    · rfl
    · split_ifs with he
      · rfl
      · rw [List.getElem?_eq_getElem (by omega), Option.map_some]
        rcases h with h | h
        · rw [h]; rfl
        · unfold calculateJump
          have := h counts[k] (List.getElem_mem _)
          cases sizes k with
          | none => rfl
          | some s => simp only [this, lt_irrefl, if_false]
  unfold simulateJumps simulate
  split_ifs
  · cases c.dt with
    | none => rfl
    | some dt =>
      cases hts : c.times dt with
      | none => simp [hts]
      | some ts =>
        cases hsq : sqrt dt with
        | none => simp [hts, hsq]
        | some sc => simp only [hts, hsq, Option.bind_eq_bind, Option.bind_some, jumpPath_none hk]
  · rfl

/-- C116 (defect): how many jumps were sampled for a step is not used. Two samples that agree on which steps have a jump give the same path,
bit for bit: a step with five jumps moves as much as a step with one. -/
theorem C116_number_of_jumps (P : Process) (sqrt : F64 → Option F64) (c : Config) (counts counts' : List F64) (z : ℕ → F64)
    (sizes : ℕ → Option F64) (hl : counts.length = counts'.length)
    (h : ∀ (k : ℕ) (n m : F64), counts[k]? = some n → counts'[k]? = some m → (0 < n.val ↔ 0 < m.val)) :
    simulateJumps P sqrt c counts z sizes = simulateJumps P sqrt c counts' z sizes := by
  have hk : ∀ k < c.nSteps, jumpTerm counts sizes k = jumpTerm counts' sizes k := by
    intro k _
    have he : counts.isEmpty = counts'.isEmpty := by
      cases counts <;> cases counts' <;> simp at hl ⊢
    unfold jumpTerm
    rw [he]
    split_ifs
    · rfl
    · rcases Nat.lt_or_ge k counts.length with hlt | hge
      · have e1 : counts[k]? = some counts[k] := List.getElem?_eq_getElem _
        have e2 : counts'[k]? = some (counts'[k]'(by omega)) := List.getElem?_eq_getElem _
        rw [e1, e2]
        have := h k _ _ e1 e2
        simp only [Option.map_some, calculateJump, this]
      · rw [List.getElem?_eq_none hge, List.getElem?_eq_none (by omega)]
  unfold simulateJumps
  split_ifs
  · cases c.dt with
    | none => rfl
    | some dt =>
      cases hts : c.times dt with
      | none => simp [hts]
      | some ts =>
        cases hsq : sqrt dt with
        | none => simp [hts, hsq]
        | some sc => simp only [hts, hsq, Option.bind_eq_bind, Option.bind_some, jumpPath_congr hk]
  · rfl

/-! ## The hypotheses can be met -/

theorem someCounts_size : sizeJumps 1 0 1 0 someConfig.step (√someConfig.step) (fun _ => lit 1)
    (jumpOf (List.replicate 12 (lit 1)) fun _ => lit 1) (F64.real someConfig.x0) someConfig.nSteps ≤ 2 ^ 899 := by
  have hstep : someConfig.step ≤ 1 := by rw [someConfig_step]; norm_num
  have hstep0 : 0 ≤ someConfig.step := by rw [someConfig_step]; norm_num
  have hq : √someConfig.step ≤ 1 := by rw [Real.sqrt_le_left (by norm_num)]; linarith
  have hq0 := Real.sqrt_nonneg someConfig.step
  have e1 : (2 : ℝ) ^ (-900 : ℤ) ≤ 1 := by
    rw [← zpow_zero (2 : ℝ)]; exact zpow_le_zpow_right₀ (by norm_num) (by norm_num)
  have hJ : ∀ k, |jumpOf (List.replicate 12 (lit 1)) (fun _ => lit 1) k| ≤ 1 := by
    intro k
    unfold jumpOf
    cases (List.replicate 12 (lit 1))[k]? with
    | none => simp
    | some n =>
      simp only [real_one]
      split_ifs <;> simp
  have key : ∀ k, sizeJumps 1 0 1 0 someConfig.step (√someConfig.step) (fun _ => lit 1)
      (jumpOf (List.replicate 12 (lit 1)) fun _ => lit 1) (F64.real someConfig.x0) k + 1 ≤ 4 ^ k * 3 := by
    intro k
    induction k with
    | zero =>
      have : F64.real someConfig.x0 = 1 := real_one
      simp only [sizeJumps, this, abs_one]
      generalize (2 : ℝ) ^ (-900 : ℤ) = a at e1 ⊢
      norm_num
      linarith
    | succ k ih =>
      have hp := (sizeJumps_pos (x0 := F64.real someConfig.x0) (z := fun _ => lit 1)
        (J := jumpOf (List.replicate 12 (lit 1)) fun _ => lit 1) (B := 1) (C := 0) (S := 1) (T := 0) (by norm_num) le_rfl (by norm_num)
        le_rfl hstep0 hq0 k).le
      simp only [sizeJumps, real_one, abs_one, one_mul, _root_.add_zero, mul_one]
      have := hJ k
      have a1 := mul_le_mul_of_nonneg_left hstep hp
      have a2 := mul_le_mul_of_nonneg_left hq hp
      rw [pow_succ]
      linarith
  have := key someConfig.nSteps
  rw [show someConfig.nSteps = 12 from rfl] at this ⊢
  refine le_trans (by linarith : _ ≤ (4 : ℝ) ^ 12 * 3) (le_trans (by norm_num) (pow_le_pow_right₀ (by norm_num) (by norm_num : 30 ≤ 899)))

/-- Twelve steps of Merton's jump diffusion with a jump of 1 in each meet the hypotheses of `C116_merton_error`, `C116_jump_error` and
`C116_times`. -/
example : ∃ times path, simulateJumps (merton (fun _ => lit 1) fun _ => lit 1) someSqrt someConfig (List.replicate 12 (lit 1))
    (fun _ => lit 1) (fun _ => some (lit 1)) = some (times, path) ∧ path.length = 13 ∧ times.head? = some someConfig.t0 := by
  obtain ⟨times, path, h1, h2, _⟩ := C116_merton_error someSqrt someSqrt_accurate (fun _ => lit 1) (fun _ => lit 1) 1 1 (by norm_num)
    (by norm_num) lit_one_le lit_one_in someConfig someConfig_ordinary (fun _ => lit 1) (fun _ => lit 1) (List.replicate 12 (lit 1))
    (by simp [someConfig]) noise_small someCounts_size
  exact ⟨times, path, h1, h2, (C116_times _ _ _ _ _ _ _ _ (by unfold someConfig; norm_num) h1).2.2.2.2.2.1⟩

/-- Counts of one and of five jumps agree on which steps have a jump. -/
example : ∀ (k : ℕ) (n m : F64), ([lit 1, lit 0, lit 5] : List F64)[k]? = some n → ([lit 5, lit 0, lit 1] : List F64)[k]? = some m →
    (0 < n.val ↔ 0 < m.val) := by
  have h1 : 0 < (lit 1).val := by decide +kernel
  have h5 : 0 < (lit 5).val := by decide +kernel
  generalize lit 1 = a at h1 ⊢
  generalize lit 5 = b at h5 ⊢
  generalize lit 0 = c
  intro k n m hn hm
  match k with
  | 0 => cases hn; cases hm; exact ⟨fun _ => h5, fun _ => h1⟩
  | 1 => cases hn; cases hm; exact Iff.rfl
  | 2 => cases hn; cases hm; exact ⟨fun _ => h1, fun _ => h5⟩
  | k + 3 => simp at hn

/-- A sample of twelve zeros meets the hypothesis of `C116_no_jumps`. -/
example (P : Process) (sqrt : F64 → Option F64) (z : ℕ → F64) (sizes : ℕ → Option F64) :
    simulateJumps P sqrt someConfig (List.replicate 12 F64.zero) z sizes = simulate P sqrt someConfig z :=
  C116_no_jumps _ _ _ _ _ _ (Or.inr ⟨by simp [someConfig], Or.inr fun n hn => by rw [List.eq_of_mem_replicate hn]; rfl⟩)

end Verif.Float.Sim
