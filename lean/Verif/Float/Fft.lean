import Verif.Float.Model
import Verif.Math.Fft

/-!
# The complex fast Fourier transform on `f64` values with their rounding

`none` is the failed length assertion, or a result with an infinite or NaN part.
-/

namespace Verif.Float.Fft

open Verif.Math.Fft (splitFrom split_lengths isValidLength)

/-- `Complex<f64>` (the `num` dependency) with finite parts.
The entries of the vectors of crates/RustQuant_math/src/fft.rs. -/
structure C64 where
  re : F64
  im : F64

/-- `+` of complex numbers in `num`, used in crates/RustQuant_math/src/fft.rs 109. -/
def C64.add (a b : C64) : Option C64 := do return ⟨← a.re.add b.re, ← a.im.add b.im⟩

/-- `-` of complex numbers in `num`, used in fft.rs 110. -/
def C64.sub (a b : C64) : Option C64 := do return ⟨← a.re.sub b.re, ← a.im.sub b.im⟩

/-- `*` of complex numbers in `num`, used in fft.rs 108: four products, a difference and a sum, each rounded. -/
def C64.mul (a b : C64) : Option C64 := do
  let re ← (← a.re.mul b.re).sub (← a.im.mul b.im)
  let im ← (← a.re.mul b.im).add (← a.im.mul b.re)
  return ⟨re, im⟩

/-- The platform's `f64::cos` and `f64::sin`, called by `exp` of a complex number (fft.rs 108). Their rounding is not specified by
Rust: they are a parameter. -/
structure Trig where
  cos : F64 → F64
  sin : F64 → F64

/-- `std::f64::consts::PI` (fft.rs 11). -/
def pi : F64 := (toF64 3.14159265358979323846264338327950288).getD F64.zero

/-- `-2.0 * PI * (k as f64) / (n as f64)` (fft.rs 108). -/
def angle (n k : ℕ) : Option F64 := do
  let a ← (← toF64 (-2)).mul pi
  (← a.mul (← ofNat k)).div (← ofNat n)

/-- `Complex::new(0.0, angle).exp()` (fft.rs 108): `exp(0.0)` is exactly one, and its products with
the cosine and the sine are exact. -/
def twiddle (T : Trig) (n k : ℕ) : Option C64 := do
  let a ← angle n k
  return ⟨T.cos a, T.sin a⟩

/-- `fft_complex_calculation` (fft.rs 96-112): both results of every butterfly, first all sums, then all differences. Indices below
`n / 2` are in range in both halves. On the empty slice the code would recurse for ever; the callers' assertion excludes it. -/
def calculation (T : Trig) (x : List C64) : Option (List C64) :=
  if x.length ≤ 1 then some x
  else do
    let n := x.length
    let even ← calculation T (splitFrom 0 x).1
    let odd ← calculation T (splitFrom 0 x).2
    let lo ← (List.range (n / 2)).mapM fun k => do (← even[k]?).add (← (← twiddle T n k).mul (← odd[k]?))
    let hi ← (List.range (n / 2)).mapM fun k => do (← even[k]?).sub (← (← twiddle T n k).mul (← odd[k]?))
    return lo ++ hi ++ x.drop (n / 2 + n / 2)
termination_by x.length
decreasing_by
  all_goals
    obtain ⟨h1, h2⟩ := (split_lengths 0 x).1 rfl
    omega

open Classical in
/-- `fft_complex` (fft.rs 48-57); `fft_complex_inplace` (41-44) leaves the same values in the slice. Simplified: the logarithm in
the length test is exact, as in `Verif.Math.Fft`. -/
noncomputable def fftComplex (T : Trig) (x : List C64) : Option (List C64) :=
  if isValidLength x.length then calculation T x else none

end Verif.Float.Fft
