import Verif.Float.SchemesProps

/-!
# C115: mean-reverting processes by the Milstein and Strang-splitting schemes in double precision

Ornstein-Uhlenbeck, Hull-White and extended Vasicek. The diffusion does not depend on the value, so by both schemes the exact recursion is
`x + b h + s z` (`euler` with unscaled noise); Strang splitting takes the diffusion in the middle of the step.
-/

namespace Verif.Float.Sim

open Verif.Float.Fft (ur ur_pos ur_le mu mu_pos)

/-- `C115_milstein_error` for errors of a few units of rounding. -/
theorem milstein_small (P : Process) (hP : Additive P) (b s : F64 → ℝ → ℝ) (B C S T η : ℝ)
    (hη : 0 ≤ η) (hη1 : η ≤ 4 * unit) (hd : Computes P.drift b B C η) (hs : Computes P.diffusion s S T η)
    (c : Config) (hc : c.Ordinary) (z : ℕ → F64) (hz : ∀ k < c.nSteps, |F64.real (z k)| ≤ 2 ^ 20)
    (hsize : size B C S T c.step 1 z (F64.real c.x0) c.nSteps ≤ 2 ^ 898) :
    ∃ times path, milstein P c z = some (times, path) ∧ path.length = c.nSteps + 1 ∧ ∀ k ≤ c.nSteps, ∃ x, path[k]? = some x ∧
      |F64.real x - euler b s c.step 1 (fun i => times.getD i F64.zero) z (F64.real c.x0) k| ≤
        k * 2 ^ (-47 : ℤ) * size B C S T c.step 1 z (F64.real c.x0) k := by
  have hu : unit ≤ 1 / 10 ^ 6 := by unfold unit; norm_num
  obtain ⟨times, path, h1, h2, h3⟩ := C115_milstein_error P hP b s B C S T η hη (by linarith) hd hs c hc z hz
    (grow_two hη hη1 _ hc.steps.2) (hsize.trans (pow_le_pow_right₀ (by norm_num) (by norm_num)))
  refine ⟨times, path, h1, h2, fun k hk => ?_⟩
  obtain ⟨x, hx, hx'⟩ := h3 k hk
  refine ⟨x, hx, hx'.trans (mul_le_mul_of_nonneg_right ?_ ?_)⟩
  · have := grow_bound hη hη1 k (hk.trans hc.steps.2)
    linarith
  · have hst : 0 ≤ c.step := hc.computed.choose_spec.choose_spec.2.2.2.2.1.le
    exact (size_pos hd.slope.1 hd.offset.1 hs.slope.1 hs.offset.1 hst zero_le_one k).le

theorem strangSize_additive {B C T dt x0 : ℝ} {z : ℕ → F64} (k : ℕ) : strangSize B C 0 T dt z x0 k = size B C 0 T dt 1 z x0 k := by
  induction k with
  | zero => rfl
  | succ k ih => simp only [strangSize, size]; rw [ih]; ring

/-- C115: Ornstein-Uhlenbeck with `|mu| ≤ M`, `|theta| ≤ Θ` and `0 ≤ sigma ≤ S`. The `k`-th value of a Milstein path is within `k * 2^-47`,
and that of a Strang-splitting path within `k * 2^-46`, of the sum of sizes of the exact recursion with drift `theta (mu - x)` and diffusion
`sigma`. -/
theorem C115_ou_error (mu sigma theta : F64 → F64) (M S Θ : ℝ)
    (hM : M ≤ 2 ^ 800) (hS : S ≤ 2 ^ 899) (hΘ : Θ ≤ 2 ^ 19) (hmu : ∀ t, |F64.real (mu t)| ≤ M) (htheta : ∀ t, |F64.real (theta t)| ≤ Θ)
    (hsigma : ∀ t, 0 ≤ F64.real (sigma t) ∧ F64.real (sigma t) ≤ S)
    (c : Config) (hc : c.Ordinary) (z : ℕ → F64) (hz : ∀ k < c.nSteps, |F64.real (z k)| ≤ 2 ^ 20)
    (hsize : size Θ (Θ * M) 0 S c.step 1 z (F64.real c.x0) c.nSteps ≤ 2 ^ 898) :
    (∃ times path, milstein (ou mu sigma theta) c z = some (times, path) ∧ path.length = c.nSteps + 1 ∧
      ∀ k ≤ c.nSteps, ∃ x, path[k]? = some x ∧
        |F64.real x - euler (fun t x => F64.real (theta t) * (F64.real (mu t) - x)) (fun t _ => F64.real (sigma t)) c.step 1
            (fun i => times.getD i F64.zero) z (F64.real c.x0) k| ≤
          k * 2 ^ (-47 : ℤ) * size Θ (Θ * M) 0 S c.step 1 z (F64.real c.x0) k) ∧
    ∃ times path, ∃ mid : ℕ → F64, strang (ou mu sigma theta) c z = some (times, path) ∧ path.length = c.nSteps + 1 ∧
      (∀ k < c.nSteps, |F64.real (mid k) - (F64.real c.t0 + (k + 1 / 2) * c.step)| ≤ 2 ^ (-30 : ℤ)) ∧
      ∀ k ≤ c.nSteps, ∃ x, path[k]? = some x ∧
        |F64.real x - strangExact (fun t x => F64.real (theta t) * (F64.real (mu t) - x)) (fun t _ => F64.real (sigma t)) c.step
            (fun i => times.getD i F64.zero) mid z (F64.real c.x0) k| ≤
          k * 2 ^ (-46 : ℤ) * size Θ (Θ * M) 0 S c.step 1 z (F64.real c.x0) k := by
  have hu := unit_pos
  have h1 := ou_computes (sigma := sigma) hM hΘ hmu htheta
  have h2 : Computes (ou mu sigma theta).diffusion (fun t _ => F64.real (sigma t)) 0 S (3 * unit) :=
    const_computes (by positivity) (fun t => by rw [abs_of_nonneg (hsigma t).1]; exact (hsigma t).2) hS fun x t => by
      simp only [ou, if_neg (not_neg_of_real (hsigma t).1)]
  refine ⟨milstein_small _ (fun x y t => rfl) _ _ _ _ _ _ (3 * unit) (by positivity) (by linarith) h1 h2 c hc z hz hsize, ?_⟩
  have h3 := strang_small _ _ _ _ _ _ _ (3 * unit) (by positivity) (by linarith) h1 h2 c hc z hz (by rw [strangSize_additive]; exact hsize)
  simpa only [strangSize_additive] using h3

/-- C115: Hull-White and extended Vasicek with `|alpha| ≤ A`, `|theta| ≤ Θ` and `|sigma| ≤ S`. The `k`-th value of a Milstein path is within
`k * 2^-47`, and that of a Strang-splitting path within `k * 2^-46`, of the sum of sizes of the exact recursion with drift `theta - alpha x`
and diffusion `sigma`. -/
theorem C115_hull_white_error (alpha sigma theta : F64 → F64) (A S Θ : ℝ)
    (hA : A ≤ 2 ^ 19) (hS : S ≤ 2 ^ 899) (hΘ : Θ ≤ 2 ^ 899) (halpha : ∀ t, |F64.real (alpha t)| ≤ A)
    (htheta : ∀ t, |F64.real (theta t)| ≤ Θ) (hsigma : ∀ t, |F64.real (sigma t)| ≤ S)
    (c : Config) (hc : c.Ordinary) (z : ℕ → F64) (hz : ∀ k < c.nSteps, |F64.real (z k)| ≤ 2 ^ 20)
    (hsize : size A Θ 0 S c.step 1 z (F64.real c.x0) c.nSteps ≤ 2 ^ 898) :
    (∃ times path, milstein (hullWhite alpha sigma theta) c z = some (times, path) ∧ path.length = c.nSteps + 1 ∧
      ∀ k ≤ c.nSteps, ∃ x, path[k]? = some x ∧
        |F64.real x - euler (fun t x => F64.real (theta t) - F64.real (alpha t) * x) (fun t _ => F64.real (sigma t)) c.step 1
            (fun i => times.getD i F64.zero) z (F64.real c.x0) k| ≤
          k * 2 ^ (-47 : ℤ) * size A Θ 0 S c.step 1 z (F64.real c.x0) k) ∧
    ∃ times path, ∃ mid : ℕ → F64, strang (hullWhite alpha sigma theta) c z = some (times, path) ∧ path.length = c.nSteps + 1 ∧
      (∀ k < c.nSteps, |F64.real (mid k) - (F64.real c.t0 + (k + 1 / 2) * c.step)| ≤ 2 ^ (-30 : ℤ)) ∧
      ∀ k ≤ c.nSteps, ∃ x, path[k]? = some x ∧
        |F64.real x - strangExact (fun t x => F64.real (theta t) - F64.real (alpha t) * x) (fun t _ => F64.real (sigma t)) c.step
            (fun i => times.getD i F64.zero) mid z (F64.real c.x0) k| ≤
          k * 2 ^ (-46 : ℤ) * size A Θ 0 S c.step 1 z (F64.real c.x0) k := by
  have hu := unit_pos
  have h1 := hw_computes (sigma := sigma) hA hΘ halpha htheta
  have h2 : Computes (hullWhite alpha sigma theta).diffusion (fun t _ => F64.real (sigma t)) 0 S (3 * unit) :=
    const_computes (by positivity) hsigma hS fun x t => rfl
  refine ⟨milstein_small _ (fun x y t => rfl) _ _ _ _ _ _ (3 * unit) (by positivity) (by linarith) h1 h2 c hc z hz hsize, ?_⟩
  have h3 := strang_small _ _ _ _ _ _ _ (3 * unit) (by positivity) (by linarith) h1 h2 c hc z hz (by rw [strangSize_additive]; exact hsize)
  simpa only [strangSize_additive] using h3

/-- Twelve steps of Ornstein-Uhlenbeck and of Hull-White meet the hypotheses of `C115_ou_error` and `C115_hull_white_error`. -/
example : (∃ times path, milstein (ou (fun _ => lit 1) (fun _ => lit 1) fun _ => lit 1) someConfig (fun _ => lit 1) = some (times, path)) ∧
    ∃ times path, strang (hullWhite (fun _ => lit 1) (fun _ => lit 1) fun _ => lit 1) someConfig (fun _ => lit 1) = some (times, path) := by
  have hs : size 1 1 0 1 someConfig.step 1 (fun _ => lit 1) (F64.real someConfig.x0) someConfig.nSteps ≤ 2 ^ 898 := by
    rw [← strangSize_additive]
    exact someConfig_strangSize (by norm_num) (by norm_num) (by norm_num) (by norm_num)
  obtain ⟨⟨times, path, h1, _⟩, _⟩ := C115_ou_error (fun _ => lit 1) (fun _ => lit 1) (fun _ => lit 1) 1 1 1
    (one_le_pow₀ (by norm_num)) (one_le_pow₀ (by norm_num)) (by norm_num) lit_one_le lit_one_le lit_one_in someConfig someConfig_ordinary
    (fun _ => lit 1) noise_small (by rw [one_mul]; exact hs)
  obtain ⟨_, times', path', _, h2, _⟩ := C115_hull_white_error (fun _ => lit 1) (fun _ => lit 1) (fun _ => lit 1) 1 1 1
    (by norm_num) (one_le_pow₀ (by norm_num)) (one_le_pow₀ (by norm_num)) lit_one_le lit_one_le lit_one_le someConfig someConfig_ordinary
    (fun _ => lit 1) noise_small hs
  exact ⟨⟨times, path, h1⟩, times', path', h2⟩

end Verif.Float.Sim
