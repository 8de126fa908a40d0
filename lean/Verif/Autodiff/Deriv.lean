import Verif.Autodiff.Spec
import Mathlib.Analysis.SpecialFunctions.Pow.Deriv
import Mathlib.Analysis.SpecialFunctions.Log.Deriv
import Mathlib.Analysis.SpecialFunctions.Trigonometric.InverseDeriv
import Mathlib.Analysis.SpecialFunctions.Trigonometric.ArctanDeriv
import Mathlib.Analysis.SpecialFunctions.Trigonometric.DerivHyp
import Mathlib.MeasureTheory.Integral.IntervalIntegral.FundThmCalculus
import Mathlib.Analysis.Calculus.Deriv.Abs
import Mathlib.Analysis.Calculus.Deriv.ZPow

/-!
# The recorded partials are the derivatives of the values

One lemma per operator, in its domain.
-/

namespace Verif.Autodiff

theorem UnOp.value_eq (op : UnOp) (x : ℝ) : op.value x = op.math x := by
  cases op <;> simp [UnOp.value, UnOp.math, Real.logb, Autodiff.erf]

theorem VVOp.value_eq (op : VVOp) (x y : ℝ) : op.value x y = op.math x y := by
  cases op <;> simp [VVOp.value, VVOp.math, Real.logb]

theorem VFOp.value_eq (op : VFOp) (x y : ℝ) : op.value x y = op.math x y := by
  cases op <;> simp [VFOp.value, VFOp.math, Real.logb]

theorem FVOp.value_eq (op : FVOp) (x y : ℝ) : op.value x y = op.math x y := by
  cases op <;> simp [FVOp.value, FVOp.math, Real.logb]

theorem hasDerivAt_erf (x : ℝ) :
    HasDerivAt (fun x => 2 / √Real.pi * ∫ t in (0 : ℝ)..x, Real.exp (-t ^ 2)) (2 * Real.exp (-x ^ 2) / √Real.pi) x := by
  have hc : Continuous fun t : ℝ => Real.exp (-t ^ 2) := by fun_prop
  have h := (intervalIntegral.integral_hasDerivAt_right (hc.intervalIntegrable 0 x)
    (hc.stronglyMeasurableAtFilter _ _) hc.continuousAt).const_mul (2 / √Real.pi)
  refine (h).congr_deriv ?_
  ring

/-- Every unary method records the derivative of its function. -/
theorem UnOp.hasDerivAt (op : UnOp) (x : ℝ) (h : op.Dom x) : HasDerivAt op.math (op.partial x) x := by
  cases op <;> simp only [UnOp.math, UnOp.partial, UnOp.Dom] at h ⊢
  case abs =>
    rcases lt_or_gt_of_ne h with h | h
    · simpa [signum, h] using hasDerivAt_abs_neg h
    · simpa [signum, not_lt.2 h.le] using hasDerivAt_abs_pos h
  case acos => simpa using Real.hasDerivAt_arccos (by linarith) (by linarith)
  case acosh =>
    have := Real.hasDerivAt_arcosh (x := x) h
    rw [← Real.sqrt_mul (by linarith)]
    convert this using 3
    ring
  case asin =>
    rw [if_pos h]
    simpa using Real.hasDerivAt_arcsin (x := x) (by linarith) (by linarith)
  case asinh => exact Real.hasDerivAt_arsinh x
  case atan => exact Real.hasDerivAt_arctan' x
  case atanh =>
    have h1 : 0 < 1 + x := by linarith
    have h2 : 0 < 1 - x := by linarith
    have e : Real.artanh =ᶠ[nhds x] fun y => 1 / 2 * (Real.log (1 + y) - Real.log (1 - y)) := by
      filter_upwards [isOpen_Ioo.mem_nhds (show x ∈ Set.Ioo (-1 : ℝ) 1 from h)] with y hy
      rw [Real.artanh_eq_half_log ⟨hy.1.le, hy.2.le⟩, Real.log_div (by linarith [hy.1]) (by linarith [hy.2])]
    refine HasDerivAt.congr_of_eventuallyEq ?_ e
    have d1 := ((hasDerivAt_id x).const_add 1).log h1.ne'
    have d2 := ((hasDerivAt_id x).const_sub 1).log h2.ne'
    refine ((d1.sub d2).const_mul (1 / 2)).congr_deriv ?_
    have h3 : 1 - x ^ 2 ≠ 0 := by nlinarith
    simp only [id]
    field_simp
    ring
  case cbrt =>
    have e : Autodiff.cbrt =ᶠ[nhds x] fun y => y ^ (1 / 3 : ℝ) := by
      filter_upwards [isOpen_Ioi.mem_nhds (show x ∈ Set.Ioi (0 : ℝ) from h)] with y hy
      rw [Autodiff.cbrt, if_pos (le_of_lt hy)]
    refine HasDerivAt.congr_of_eventuallyEq ?_ e
    refine (Real.hasDerivAt_rpow_const (p := (1 / 3 : ℝ)) (Or.inl h.ne')).congr_deriv ?_
    rw [mul_inv, ← Real.rpow_neg h.le]
    norm_num
  case cos => exact Real.hasDerivAt_cos x
  case cosh => exact Real.hasDerivAt_cosh x
  case exp => exact Real.hasDerivAt_exp x
  case exp2 => 
    have := (hasDerivAt_id x).const_rpow (a := 2) (by norm_num)
    simpa [mul_comm] using this
  case expM1 => exact (Real.hasDerivAt_exp x).sub_const 1
  case ln => exact Real.hasDerivAt_log h.ne'
  case ln1p =>
    have := ((hasDerivAt_id x).const_add 1).log (by simp only [id]; linarith)
    simpa using this
  case recip => exact hasDerivAt_inv h
  case sin => exact Real.hasDerivAt_sin x
  case sinh => exact Real.hasDerivAt_sinh x
  case sqrt => simpa using Real.hasDerivAt_sqrt h.ne'
  case tan => simpa using Real.hasDerivAt_tan h
  case tanh =>
    have hc : Real.cosh x ≠ 0 := (Real.cosh_pos x).ne'
    have := (Real.hasDerivAt_sinh x).div (Real.hasDerivAt_cosh x) hc
    have e : Real.tanh = fun y => Real.sinh y / Real.cosh y := by funext y; exact Real.tanh_eq_sinh_div_cosh y
    rw [e]
    refine (this).congr_deriv ?_
    have := Real.cosh_sq x
    field_simp
    nlinarith
  case erf => exact hasDerivAt_erf x
  case erfc =>
    have := (hasDerivAt_erf x).const_sub 1
    refine (this).congr_deriv ?_
    ring

theorem hasDerivAt_min_left {f g : ℝ → ℝ} {f' t : ℝ} (hf : HasDerivAt f f' t) (hg : ContinuousAt g t)
    (h : f t < g t) : HasDerivAt (fun s => min (f s) (g s)) f' t := by
  refine HasDerivAt.congr_of_eventuallyEq hf ?_
  filter_upwards [(hf.continuousAt.eventually_lt hg h)] with s hs
  exact min_eq_left hs.le

theorem hasDerivAt_max_left {f g : ℝ → ℝ} {f' t : ℝ} (hf : HasDerivAt f f' t) (hg : ContinuousAt g t)
    (h : g t < f t) : HasDerivAt (fun s => max (f s) (g s)) f' t := by
  refine HasDerivAt.congr_of_eventuallyEq hf ?_
  filter_upwards [(hg.eventually_lt hf.continuousAt h)] with s hs
  exact max_eq_left hs.le

/-- Every operator on two variables records the two partial derivatives of its function, as the chain rule along any
curve needs them. -/
theorem VVOp.hasDerivAt (op : VVOp) {f g : ℝ → ℝ} {f' g' t : ℝ} (hf : HasDerivAt f f' t) (hg : HasDerivAt g g' t)
    (h : op.Dom (f t) (g t)) :
    HasDerivAt (fun s => op.math (f s) (g s))
      ((op.partials (f t) (g t)).1 * f' + (op.partials (f t) (g t)).2 * g') t := by
  cases op <;> simp only [VVOp.math, VVOp.partials, VVOp.Dom] at h ⊢
  case add => refine (hf.add hg).congr_deriv ?_; ring
  case mul => refine (hf.mul hg).congr_deriv ?_; ring
  case min =>
    rcases lt_or_gt_of_ne h with h | h
    · simpa [h, not_lt.2 h.le] using hasDerivAt_min_left hf hg.continuousAt h
    · have := hasDerivAt_min_left hg hf.continuousAt h
      simp only [min_comm (g _)] at this
      simpa [h, not_lt.2 h.le] using this
  case max =>
    rcases lt_or_gt_of_ne h with h | h
    · have := hasDerivAt_max_left hg hf.continuousAt h
      simp only [max_comm (g _)] at this
      simpa [h, not_lt.2 h.le] using this
    · simpa [h, not_lt.2 h.le] using hasDerivAt_max_left hf hg.continuousAt h
  case powf => refine (hf.rpow hg h).congr_deriv ?_; ring
  case powi => refine (hf.rpow hg h).congr_deriv ?_; ring

theorem log_ne_zero {b : ℝ} (h0 : 0 < b) (h1 : b ≠ 1) : Real.log b ≠ 0 :=
  Real.log_ne_zero_of_pos_of_ne_one h0 h1

theorem VFOp.hasDerivAt (op : VFOp) {f : ℝ → ℝ} {f' t c : ℝ} (hf : HasDerivAt f f' t) (h : op.Dom (f t) c) :
    HasDerivAt (fun s => op.math (f s) c) ((op.partials (f t) c).1 * f' + (op.partials (f t) c).2 * f') t := by
  cases op <;> simp only [VFOp.math, VFOp.partials, VFOp.Dom] at h ⊢
  case add => refine (hf.add_const c).congr_deriv ?_; ring
  case mul => refine (hf.mul_const c).congr_deriv ?_; ring
  case log =>
    have hl := log_ne_zero h.2.1 h.2.2
    have h0 := h.1.ne'
    simp only [Real.logb]
    refine ((hf.log h.1.ne').div_const (Real.log c)).congr_deriv ?_
    field_simp; ring
  case min =>
    have hg : ContinuousAt (fun _ : ℝ => c) t := continuousAt_const
    rcases lt_or_gt_of_ne h with h | h
    · simpa [h] using hasDerivAt_min_left hf hg h
    · have := hasDerivAt_min_left (hasDerivAt_const t c) hf.continuousAt h
      simp only [min_comm c] at this
      simpa [not_lt.2 h.le] using this
  case max =>
    have hg : ContinuousAt (fun _ : ℝ => c) t := continuousAt_const
    rcases lt_or_gt_of_ne h with h | h
    · have := hasDerivAt_max_left (hasDerivAt_const t c) hf.continuousAt h
      simp only [max_comm c] at this
      simpa [not_lt.2 h.le] using this
    · simpa [h] using hasDerivAt_max_left hf hg h
  case powf => refine (hf.rpow_const (p := c) (Or.inl h.ne')).congr_deriv ?_; ring

theorem FVOp.hasDerivAt (op : FVOp) {f : ℝ → ℝ} {f' t c : ℝ} (hf : HasDerivAt f f' t) (h : op.Dom c (f t)) :
    HasDerivAt (fun s => op.math c (f s)) ((op.partials c (f t)).1 * f' + (op.partials c (f t)).2 * f') t := by
  cases op <;> simp only [FVOp.math, FVOp.partials, FVOp.Dom] at h ⊢
  case sub => refine (hf.const_sub c).congr_deriv ?_; ring
  case div =>
    refine ((hasDerivAt_const t c).div hf h).congr_deriv ?_
    field_simp; ring
  case log =>
    have hl := log_ne_zero h.2.1 h.2.2
    have h0 := h.2.1.ne'
    simp only [Real.logb]
    refine ((hasDerivAt_const t (Real.log c)).div (hf.log h0) hl).congr_deriv ?_
    field_simp; ring

theorem powi_hasDerivAt {f : ℝ → ℝ} {f' t : ℝ} {n : ℤ} (hf : HasDerivAt f f' t) (h : f t ≠ 0 ∨ 1 ≤ n) :
    HasDerivAt (fun s => f s ^ n) ((n : ℝ) * f t ^ (n - 1) * f') t :=
  (hasDerivAt_zpow n (f t) (h.imp id (fun h => by omega))).comp t hf

end Verif.Autodiff
