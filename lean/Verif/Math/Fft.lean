import Mathlib.Analysis.SpecialFunctions.Complex.Log
import Mathlib.Analysis.SpecialFunctions.Log.Base

/-!
# Fast Fourier transform (crates/RustQuant_math/src/fft.rs)

Complex and real numbers are exact. `none` is the failed length assertion.
-/

namespace Verif.Math.Fft

/-- The loop of `split_array` (fft.rs 114-129) from index `i` on: entries with even index go left, the others right. -/
def splitFrom {R : Type} : ℕ → List R → List R × List R
  | _, [] => ([], [])
  | i, a :: l =>
    let r := splitFrom (i + 1) l
    if i % 2 = 0 then (a :: r.1, r.2) else (r.1, a :: r.2)

theorem split_lengths {R : Type} (i : ℕ) (l : List R) :
    (i % 2 = 0 → (splitFrom i l).1.length = (l.length + 1) / 2 ∧ (splitFrom i l).2.length = l.length / 2) ∧
    (i % 2 = 1 → (splitFrom i l).2.length = (l.length + 1) / 2 ∧ (splitFrom i l).1.length = l.length / 2) := by
  induction l generalizing i with
  | nil => simp [splitFrom]
  | cons a l ih =>
    obtain ⟨h1, h2⟩ := ih (i + 1)
    constructor
    · intro h
      obtain ⟨a1, a2⟩ := h2 (by omega)
      simp only [splitFrom, if_pos h, List.length_cons]
      omega
    · intro h
      obtain ⟨a1, a2⟩ := h1 (by omega)
      simp only [splitFrom, if_neg (show ¬ i % 2 = 0 by omega), List.length_cons]
      omega

/-- `fft_complex_calculation` (fft.rs 96-112) and `fft_real_calculation` (fft.rs 74-93), which differ only in the factor `w n k`
that multiplies `odd[k]`. Indices below `n / 2` are in range in both halves (`split_lengths`). For odd `n` the last entry keeps
its old value. On the empty slice the code would recurse for ever; the callers' assertion excludes it. -/
def calculation {R : Type} [Ring R] (w : ℕ → ℕ → R) (x : List R) : List R :=
  if x.length ≤ 1 then x
  else
    let n := x.length
    let even := calculation w (splitFrom 0 x).1
    let odd := calculation w (splitFrom 0 x).2
    (List.range (n / 2)).map (fun k => even.getD k 0 + w n k * odd.getD k 0) ++
      (List.range (n / 2)).map (fun k => even.getD k 0 - w n k * odd.getD k 0) ++ x.drop (n / 2 + n / 2)
termination_by x.length
decreasing_by
  all_goals
    obtain ⟨h1, h2⟩ := (split_lengths 0 x).1 rfl
    omega

/-- The factor of the complex transform, `Complex::new(0.0, -2.0 * PI * k / n).exp()` (fft.rs 108). -/
noncomputable def twiddle (n k : ℕ) : ℂ := Complex.exp ⟨0, -2 * Real.pi * k / n⟩

/-- The factor of the real transform, the norm of the same number (fft.rs 86-89). -/
noncomputable def twiddleNorm (n k : ℕ) : ℝ := ‖Complex.exp ⟨0, -2 * Real.pi * k / n⟩‖

/-- `is_valid_length` (fft.rs 60-63): the fractional part of `log2 (len)` is below `1e-10`. For length zero the logarithm is
`-∞`, the remainder NaN and the comparison false. -/
def isValidLength (n : ℕ) : Prop := n ≠ 0 ∧ Int.fract (Real.logb 2 n) < 1e-10

open Classical in
/-- `fft_complex` (fft.rs 48-57); `fft_complex_inplace` (41-44) leaves the same values in the slice. -/
noncomputable def fftComplex (x : List ℂ) : Option (List ℂ) :=
  if isValidLength x.length then some (calculation twiddle x) else none

open Classical in
/-- `fft_real` (fft.rs 28-37); `fft_real_inplace` (21-24) leaves the same values in the slice. -/
noncomputable def fftReal (x : List ℝ) : Option (List ℝ) :=
  if isValidLength x.length then some (calculation twiddleNorm x) else none

end Verif.Math.Fft
