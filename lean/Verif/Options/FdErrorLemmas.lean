import Verif.Options.FiniteDifferenceProps
import Mathlib.Analysis.Calculus.MeanValue
import Mathlib.Analysis.Calculus.Deriv.Pow
import Mathlib.Analysis.SpecialFunctions.ExpDeriv

/-!
# Lemmas for the error bounds of the finite-difference pricer (C82)

Discrete maximum principle of the one-parameter family of schemes, and the error of difference quotients.
-/

namespace Verif.Options.FdPricer

open Real

/-- Discrete minimum principle: an array is non-negative if its edge values and the old level are and if every inner
entry is at least the weighted mean of its neighbours of both levels. -/
theorem theta_min {N : ℕ} {θ a c : ℝ} {G G' : ℕ → ℝ} (hθ : 0 ≤ θ) (hθ1 : θ ≤ 1) (ha : 0 ≤ a) (hc : 0 ≤ c)
    (hd : (1 - θ) * (a + c) ≤ 1) (hG : ∀ k ≤ N + 1, 0 ≤ G k) (h0 : 0 ≤ G' 0) (hN : 0 ≤ G' (N + 1))
    (hrel : ∀ j < N, θ * (a * G' j + c * G' (j + 2)) +
      ((1 - (1 - θ) * (a + c)) * G (j + 1) + (1 - θ) * (a * G j + c * G (j + 2))) ≤ (1 + θ * (a + c)) * G' (j + 1)) :
    ∀ k ≤ N + 1, 0 ≤ G' k := by
  obtain ⟨m, hm, hmin⟩ := Finset.exists_min_image (Finset.range (N + 2)) G' ⟨0, by simp⟩
  have hm' : m ≤ N + 1 := by have := Finset.mem_range.mp hm; omega
  have hmx : ∀ k ≤ N + 1, G' m ≤ G' k := fun k hk => hmin k (Finset.mem_range.mpr (by omega))
  suffices 0 ≤ G' m from fun k hk => this.trans (hmx k hk)
  rcases Nat.eq_zero_or_pos m with hz | hz
  · subst hz; exact h0
  rcases Nat.eq_or_lt_of_le hm' with hz' | hz'
  · subst hz'; exact hN
  obtain ⟨j, rfl⟩ : ∃ j, m = j + 1 := ⟨m - 1, by omega⟩
  have h1 := hrel j (by omega)
  have e1 := mul_le_mul_of_nonneg_left (hmx j (by omega)) ha
  have e2 := mul_le_mul_of_nonneg_left (hmx (j + 2) (by omega)) hc
  have e3 := mul_le_mul_of_nonneg_left (add_le_add e1 e2) hθ
  have hθ' : 0 ≤ 1 - θ := by linarith
  have hw : 0 ≤ 1 - (1 - θ) * (a + c) := by linarith
  have f0 := hG j (by omega)
  have f1 := hG (j + 1) (by omega)
  have f2 := hG (j + 2) (by omega)
  have : 0 ≤ (1 - (1 - θ) * (a + c)) * G (j + 1) + (1 - θ) * (a * G j + c * G (j + 2)) := by positivity
  linarith

/-! ### Taylor bounds -/

/-- A function vanishing at zero whose derivative is at most `C s^k` is at most `C s^(k+1)/(k+1)`. -/
theorem abs_le_of_deriv {f f' : ℝ → ℝ} {h C : ℝ} (k : ℕ) (h0 : f 0 = 0)
    (hf : ∀ s ∈ Set.Icc 0 h, HasDerivAt f (f' s) s) (hb : ∀ s ∈ Set.Icc 0 h, |f' s| ≤ C * s ^ k) :
    ∀ s ∈ Set.Icc 0 h, |f s| ≤ C * s ^ (k + 1) / (k + 1) := by
  have hB : ∀ x, HasDerivAt (fun s : ℝ => C * s ^ (k + 1) / (k + 1)) (C * x ^ k) x := by
    intro x
    have := ((hasDerivAt_pow (k + 1) x).const_mul C).div_const ((k:ℝ) + 1)
    refine this.congr_deriv ?_
    have : (k:ℝ) + 1 ≠ 0 := by positivity
    push_cast
    field_simp
  intro s hs
  have := image_norm_le_of_norm_deriv_right_le_deriv_boundary (f := f) (f' := f') (a := 0) (b := h)
    (fun x hx => (hf x hx).continuousAt.continuousWithinAt)
    (fun x hx => (hf x ⟨hx.1, hx.2.le⟩).hasDerivWithinAt)
    (B := fun s : ℝ => C * s ^ (k + 1) / (k + 1)) (B' := fun x => C * x ^ k) (by simp [h0]) hB
    (fun x hx => by rw [Real.norm_eq_abs]; exact hb x ⟨hx.1, hx.2.le⟩) hs
  rwa [Real.norm_eq_abs] at this

/-- Error of the second difference quotient. -/
theorem second_difference {g g1 g2 g3 g4 : ℝ → ℝ} {x h M : ℝ} (hh : 0 ≤ h)
    (h1 : ∀ y ∈ Set.Icc (x - h) (x + h), HasDerivAt g (g1 y) y)
    (h2 : ∀ y ∈ Set.Icc (x - h) (x + h), HasDerivAt g1 (g2 y) y)
    (h3 : ∀ y ∈ Set.Icc (x - h) (x + h), HasDerivAt g2 (g3 y) y)
    (h4 : ∀ y ∈ Set.Icc (x - h) (x + h), HasDerivAt g3 (g4 y) y)
    (hM : ∀ y ∈ Set.Icc (x - h) (x + h), |g4 y| ≤ M) :
    |g (x + h) - 2 * g x + g (x - h) - h ^ 2 * g2 x| ≤ M * h ^ 4 / 12 := by
  have mp : ∀ s ∈ Set.Icc 0 h, x + s ∈ Set.Icc (x - h) (x + h) := fun s hs => ⟨by linarith [hs.1], by linarith [hs.2]⟩
  have mm : ∀ s ∈ Set.Icc 0 h, x - s ∈ Set.Icc (x - h) (x + h) := fun s hs => ⟨by linarith [hs.2], by linarith [hs.1]⟩
  have dp : ∀ (f f' : ℝ → ℝ), (∀ y ∈ Set.Icc (x - h) (x + h), HasDerivAt f (f' y) y) → ∀ s ∈ Set.Icc 0 h,
      HasDerivAt (fun s => f (x + s)) (f' (x + s)) s := fun f f' hf s hs => by
    simpa using (hf _ (mp s hs)).comp_const_add x s
  have dm : ∀ (f f' : ℝ → ℝ), (∀ y ∈ Set.Icc (x - h) (x + h), HasDerivAt f (f' y) y) → ∀ s ∈ Set.Icc 0 h,
      HasDerivAt (fun s => f (x - s)) (-f' (x - s)) s := fun f f' hf s hs => by
    simpa using (hf _ (mm s hs)).comp_const_sub x s
  have b4 : ∀ s ∈ Set.Icc 0 h, |g4 (x + s) + g4 (x - s)| ≤ 2 * M * s ^ 0 := fun s hs => by
    have := abs_add_le (g4 (x + s)) (g4 (x - s))
    have := hM _ (mp s hs); have := hM _ (mm s hs)
    rw [pow_zero]; linarith
  have b3 := abs_le_of_deriv (f := fun s => g3 (x + s) - g3 (x - s)) 0 (by simp)
    (fun s hs => ((dp _ _ h4 s hs).sub (dm _ _ h4 s hs)).congr_deriv (by ring)) b4
  have b2 := abs_le_of_deriv (f := fun s => g2 (x + s) + g2 (x - s) - 2 * g2 x)
    (f' := fun s => g3 (x + s) - g3 (x - s)) (C := 2 * M) 1 (by simp; ring)
    (fun s hs => (((dp _ _ h3 s hs).add (dm _ _ h3 s hs)).sub_const _).congr_deriv (by ring))
    (fun s hs => (b3 s hs).trans (by norm_num))
  have b1 := abs_le_of_deriv (f := fun s => g1 (x + s) - g1 (x - s) - 2 * s * g2 x)
    (f' := fun s => g2 (x + s) + g2 (x - s) - 2 * g2 x) (C := M) 2 (by simp)
    (fun s hs => (((dp _ _ h2 s hs).sub (dm _ _ h2 s hs)).sub
      (((hasDerivAt_id s).const_mul 2).mul_const (g2 x))).congr_deriv (by ring))
    (fun s hs => (b2 s hs).trans (by norm_num; apply le_of_eq; ring))
  have b0 := abs_le_of_deriv (f := fun s => g (x + s) + g (x - s) - 2 * g x - s ^ 2 * g2 x)
    (f' := fun s => g1 (x + s) - g1 (x - s) - 2 * s * g2 x) (C := M / 3) 3 (by simp; ring)
    (fun s hs => ((((dp _ _ h1 s hs).add (dm _ _ h1 s hs)).sub_const _).sub
      ((hasDerivAt_pow 2 s).mul_const (g2 x))).congr_deriv (by norm_num; ring))
    (fun s hs => (b1 s hs).trans (by norm_num; apply le_of_eq; ring))
  have := b0 h ⟨hh, le_rfl⟩
  calc _ = |g (x + h) + g (x - h) - 2 * g x - h ^ 2 * g2 x| := by congr 1; ring
    _ ≤ _ := this
    _ = _ := by norm_num; ring

/-- Error of the central difference quotient. -/
theorem central_difference {g g1 g2 g3 : ℝ → ℝ} {x h M : ℝ} (hh : 0 ≤ h)
    (h1 : ∀ y ∈ Set.Icc (x - h) (x + h), HasDerivAt g (g1 y) y)
    (h2 : ∀ y ∈ Set.Icc (x - h) (x + h), HasDerivAt g1 (g2 y) y)
    (h3 : ∀ y ∈ Set.Icc (x - h) (x + h), HasDerivAt g2 (g3 y) y)
    (hM : ∀ y ∈ Set.Icc (x - h) (x + h), |g3 y| ≤ M) :
    |g (x + h) - g (x - h) - 2 * h * g1 x| ≤ M * h ^ 3 / 3 := by
  have mp : ∀ s ∈ Set.Icc 0 h, x + s ∈ Set.Icc (x - h) (x + h) := fun s hs => ⟨by linarith [hs.1], by linarith [hs.2]⟩
  have mm : ∀ s ∈ Set.Icc 0 h, x - s ∈ Set.Icc (x - h) (x + h) := fun s hs => ⟨by linarith [hs.2], by linarith [hs.1]⟩
  have dp : ∀ (f f' : ℝ → ℝ), (∀ y ∈ Set.Icc (x - h) (x + h), HasDerivAt f (f' y) y) → ∀ s ∈ Set.Icc 0 h,
      HasDerivAt (fun s => f (x + s)) (f' (x + s)) s := fun f f' hf s hs => by
    simpa using (hf _ (mp s hs)).comp_const_add x s
  have dm : ∀ (f f' : ℝ → ℝ), (∀ y ∈ Set.Icc (x - h) (x + h), HasDerivAt f (f' y) y) → ∀ s ∈ Set.Icc 0 h,
      HasDerivAt (fun s => f (x - s)) (-f' (x - s)) s := fun f f' hf s hs => by
    simpa using (hf _ (mm s hs)).comp_const_sub x s
  have b3 : ∀ s ∈ Set.Icc 0 h, |g3 (x + s) + g3 (x - s)| ≤ 2 * M * s ^ 0 := fun s hs => by
    have := abs_add_le (g3 (x + s)) (g3 (x - s))
    have := hM _ (mp s hs); have := hM _ (mm s hs)
    rw [pow_zero]; linarith
  have b2 := abs_le_of_deriv (f := fun s => g2 (x + s) - g2 (x - s)) 0 (by simp)
    (fun s hs => ((dp _ _ h3 s hs).sub (dm _ _ h3 s hs)).congr_deriv (by ring)) b3
  have b1 := abs_le_of_deriv (f := fun s => g1 (x + s) + g1 (x - s) - 2 * g1 x)
    (f' := fun s => g2 (x + s) - g2 (x - s)) (C := 2 * M) 1 (by simp; ring)
    (fun s hs => (((dp _ _ h2 s hs).add (dm _ _ h2 s hs)).sub_const _).congr_deriv (by ring))
    (fun s hs => (b2 s hs).trans (by norm_num))
  have b0 := abs_le_of_deriv (f := fun s => g (x + s) - g (x - s) - 2 * s * g1 x)
    (f' := fun s => g1 (x + s) + g1 (x - s) - 2 * g1 x) (C := M) 2 (by simp)
    (fun s hs => (((dp _ _ h1 s hs).sub (dm _ _ h1 s hs)).sub
      (((hasDerivAt_id s).const_mul 2).mul_const (g1 x))).congr_deriv (by ring))
    (fun s hs => (b1 s hs).trans (by norm_num; apply le_of_eq; ring))
  have := b0 h ⟨hh, le_rfl⟩
  refine this.trans (le_of_eq ?_)
  norm_num

/-- Error of a forward (`θ = 0`), backward (`θ = 1`) or mixed time step. -/
theorem time_difference {f f1 f2 : ℝ → ℝ} {t h M θ : ℝ} (hh : 0 ≤ h) (hθ : 0 ≤ θ) (hθ1 : θ ≤ 1)
    (h1 : ∀ y ∈ Set.Icc t (t + h), HasDerivAt f (f1 y) y)
    (h2 : ∀ y ∈ Set.Icc t (t + h), HasDerivAt f1 (f2 y) y) (hM : ∀ y ∈ Set.Icc t (t + h), |f2 y| ≤ M) :
    |f (t + h) - f t - h * (θ * f1 (t + h) + (1 - θ) * f1 t)| ≤ M * h ^ 2 / 2 := by
  have mp : ∀ s ∈ Set.Icc 0 h, t + s ∈ Set.Icc t (t + h) := fun s hs => ⟨by linarith [hs.1], by linarith [hs.2]⟩
  have mm : ∀ s ∈ Set.Icc 0 h, t + h - s ∈ Set.Icc t (t + h) := fun s hs => ⟨by linarith [hs.2], by linarith [hs.1]⟩
  have dp : ∀ (f f' : ℝ → ℝ), (∀ y ∈ Set.Icc t (t + h), HasDerivAt f (f' y) y) → ∀ s ∈ Set.Icc 0 h,
      HasDerivAt (fun s => f (t + s)) (f' (t + s)) s := fun f f' hf s hs => by
    simpa using (hf _ (mp s hs)).comp_const_add t s
  have dm : ∀ (f f' : ℝ → ℝ), (∀ y ∈ Set.Icc t (t + h), HasDerivAt f (f' y) y) → ∀ s ∈ Set.Icc 0 h,
      HasDerivAt (fun s => f (t + h - s)) (-f' (t + h - s)) s := fun f f' hf s hs => by
    simpa using (hf _ (mm s hs)).comp_const_sub (t + h) s
  have a1 := abs_le_of_deriv (f := fun s => f1 (t + s) - f1 t) (f' := fun s => f2 (t + s)) (C := M) 0 (by simp)
    (fun s hs => (dp _ _ h2 s hs).sub_const _) (fun s hs => by rw [pow_zero, mul_one]; exact hM _ (mp s hs))
  have a0 := abs_le_of_deriv (f := fun s => f (t + s) - f t - s * f1 t) (f' := fun s => f1 (t + s) - f1 t) (C := M)
    1 (by simp) (fun s hs => (((dp _ _ h1 s hs).sub_const _).sub ((hasDerivAt_id s).mul_const (f1 t))).congr_deriv
      (by ring)) (fun s hs => (a1 s hs).trans (by norm_num))
  have c1 := abs_le_of_deriv (f := fun s => f1 (t + h - s) - f1 (t + h)) (f' := fun s => -f2 (t + h - s)) (C := M) 0
    (by simp) (fun s hs => (dm _ _ h2 s hs).sub_const _)
    (fun s hs => by rw [pow_zero, mul_one, abs_neg]; exact hM _ (mm s hs))
  have c0 := abs_le_of_deriv (f := fun s => f (t + h) - f (t + h - s) - s * f1 (t + h))
    (f' := fun s => f1 (t + h - s) - f1 (t + h)) (C := M) 1 (by simp)
    (fun s hs => (((dm _ _ h1 s hs).const_sub _).sub ((hasDerivAt_id s).mul_const (f1 (t + h)))).congr_deriv
      (by ring)) (fun s hs => (c1 s hs).trans (by norm_num))
  have A := a0 h ⟨hh, le_rfl⟩
  have B := c0 h ⟨hh, le_rfl⟩
  norm_num at A B
  have e : f (t + h) - f t - h * (θ * f1 (t + h) + (1 - θ) * f1 t) =
      θ * (f (t + h) - f t - h * f1 (t + h)) + (1 - θ) * (f (t + h) - f t - h * f1 t) := by ring
  rw [e]
  refine (abs_add_le _ _).trans ?_
  rw [abs_mul, abs_mul, abs_of_nonneg hθ, abs_of_nonneg (by linarith : (0:ℝ) ≤ 1 - θ)]
  have i1 := mul_le_mul_of_nonneg_left B hθ
  have i2 := mul_le_mul_of_nonneg_left A (by linarith : (0:ℝ) ≤ 1 - θ)
  linarith

/-- Error of the trapezoidal time step. -/
theorem trapezoid_difference {f f1 f2 f3 : ℝ → ℝ} {t h M : ℝ} (hh : 0 ≤ h)
    (h1 : ∀ y ∈ Set.Icc t (t + h), HasDerivAt f (f1 y) y)
    (h2 : ∀ y ∈ Set.Icc t (t + h), HasDerivAt f1 (f2 y) y)
    (h3 : ∀ y ∈ Set.Icc t (t + h), HasDerivAt f2 (f3 y) y) (hM : ∀ y ∈ Set.Icc t (t + h), |f3 y| ≤ M) :
    |f (t + h) - f t - h * (1 / 2 * f1 (t + h) + (1 - 1 / 2) * f1 t)| ≤ M * h ^ 3 / 12 := by
  have mp : ∀ s ∈ Set.Icc 0 h, t + s ∈ Set.Icc t (t + h) := fun s hs => ⟨by linarith [hs.1], by linarith [hs.2]⟩
  have dp : ∀ (f f' : ℝ → ℝ), (∀ y ∈ Set.Icc t (t + h), HasDerivAt f (f' y) y) → ∀ s ∈ Set.Icc 0 h,
      HasDerivAt (fun s => f (t + s)) (f' (t + s)) s := fun f f' hf s hs => by
    simpa using (hf _ (mp s hs)).comp_const_add t s
  have a1 := abs_le_of_deriv (f := fun s => (f1 (t + s) - f1 t) / 2 - s / 2 * f2 (t + s))
    (f' := fun s => -(s / 2 * f3 (t + s))) (C := M / 2) 1 (by simp)
    (fun s hs => ((((dp _ _ h2 s hs).sub_const _).div_const 2).sub
      (((hasDerivAt_id s).div_const 2).mul (dp _ _ h3 s hs))).congr_deriv (by simp; ring))
    (fun s hs => by
      rw [abs_neg, abs_mul, abs_of_nonneg (by linarith [hs.1] : 0 ≤ s / 2)]
      have := mul_le_mul_of_nonneg_left (hM _ (mp s hs)) (by linarith [hs.1] : 0 ≤ s / 2)
      linarith)
  have a0 := abs_le_of_deriv (f := fun s => f (t + s) - f t - s / 2 * (f1 (t + s) + f1 t))
    (f' := fun s => (f1 (t + s) - f1 t) / 2 - s / 2 * f2 (t + s)) (C := M / 4) 2 (by simp)
    (fun s hs => (((dp _ _ h1 s hs).sub_const _).sub
      (((hasDerivAt_id s).div_const 2).mul ((dp _ _ h2 s hs).add_const _))).congr_deriv (by simp; ring))
    (fun s hs => (a1 s hs).trans (by norm_num; apply le_of_eq; ring))
  have A := a0 h ⟨hh, le_rfl⟩
  calc _ = |f (t + h) - f t - h / 2 * (f1 (t + h) + f1 t)| := by congr 1; ring
    _ ≤ _ := A
    _ = _ := by norm_num; ring

end Verif.Options.FdPricer
