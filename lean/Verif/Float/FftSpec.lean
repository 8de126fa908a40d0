import Verif.Float.Fft

/-! What the theorems about the rounded Fourier transform are stated with. -/

namespace Verif.Float.Fft

/-- The complex number a pair of `f64` values stands for. -/
noncomputable def C64.toC (z : C64) : ℂ := ⟨(z.re.val : ℝ), (z.im.val : ℝ)⟩

/-- The sum of the absolute values of the data. -/
noncomputable def total (x : List C64) : ℝ := (x.map fun z => ‖z.toC‖).sum

/-- Cosine and sine are off by at most `δ` for angles up to 4 in size. -/
def Trig.Accurate (T : Trig) (δ : ℝ) : Prop :=
  ∀ a : F64, |(a.val : ℝ)| ≤ 4 →
    |((T.cos a).val : ℝ) - Real.cos (a.val : ℝ)| ≤ δ ∧ |((T.sin a).val : ℝ) - Real.sin (a.val : ℝ)| ≤ δ

/-- `cos 0` is one and `sin 0` is zero, as IEEE 754 asks of both. -/
def Trig.ExactAtZero (T : Trig) : Prop := (T.cos F64.zero).val = 1 ∧ (T.sin F64.zero).val = 0

/-- Both parts are whole numbers. -/
def C64.Whole (z : C64) : Prop := (∃ a : ℤ, z.re.val = a) ∧ ∃ b : ℤ, z.im.val = b

end Verif.Float.Fft
