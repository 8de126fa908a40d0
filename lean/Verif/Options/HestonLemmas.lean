import Verif.Options.Heston
import Verif.Math.QuadratureProps
import Mathlib.Analysis.SpecialFunctions.Complex.LogDeriv
import Mathlib.Analysis.SpecialFunctions.ExpDeriv
import Mathlib.Analysis.SpecialFunctions.Log.Deriv
import Mathlib.Analysis.SpecialFunctions.Trigonometric.Deriv
import Mathlib.Analysis.Complex.RealDeriv

/-!
# Helper lemmas about the Heston model
-/

namespace Verif.Options.Heston93

open Complex (I)
open Math.Quadrature (rule dec)

/-! ## The coefficients -/

/-- `b - ρσiφ`. -/
noncomputable def B (m : Heston93) (j : Switch) (phi : ℝ) : ℂ := m.b j - m.rho * m.sigma * I * phi

/-- `2uiφ - φ²`. -/
noncomputable def W (j : Switch) (phi : ℝ) : ℂ := 2 * u j * I * phi - phi ^ 2

/-- `2d` times the argument of the logarithm. -/
noncomputable def M (m : Heston93) (t : ℝ) (j : Switch) (phi : ℝ) : ℂ :=
  m.B j phi * (Complex.exp (m.d j phi * t) - 1) + m.d j phi * (Complex.exp (m.d j phi * t) + 1)

theorem d_sq (m : Heston93) (j : Switch) (phi : ℝ) :
    m.d j phi ^ 2 = m.B j phi ^ 2 - m.sigma ^ 2 * W j phi := by
  unfold d
  rw [one_div, show ((2:ℂ)⁻¹) = ((2:ℕ):ℂ)⁻¹ by norm_num, Complex.cpow_nat_inv_pow _ two_ne_zero]
  unfold B W
  ring

theorem W_re (j : Switch) (phi : ℝ) : (W j phi).re = -phi ^ 2 := by
  simp [W, ← Complex.ofReal_pow]

theorem W_im (j : Switch) (phi : ℝ) : (W j phi).im = 2 * u j * phi := by
  simp [W, ← Complex.ofReal_pow]

theorem W_ne_zero (j : Switch) {phi : ℝ} (h : phi ≠ 0) : W j phi ≠ 0 := by
  intro e
  have := congrArg Complex.re e
  rw [W_re] at this
  simp [h] at this

theorem B_re (m : Heston93) (j : Switch) (phi : ℝ) : (m.B j phi).re = m.b j := by simp [B]

theorem B_im (m : Heston93) (j : Switch) (phi : ℝ) : (m.B j phi).im = -(m.rho * m.sigma * phi) := by
  simp [B]

theorem d_sq_re (m : Heston93) (j : Switch) (phi : ℝ) :
    (m.d j phi ^ 2).re = m.b j ^ 2 + (1 - m.rho ^ 2) * (m.sigma * phi) ^ 2 := by
  rw [d_sq, Complex.sub_re, sq (m.B j phi), Complex.mul_re, B_re, B_im, ← Complex.ofReal_pow, Complex.re_ofReal_mul, W_re]
  ring

theorem d_sq_im (m : Heston93) (j : Switch) (phi : ℝ) :
    (m.d j phi ^ 2).im = -(2 * m.b j * m.rho * m.sigma * phi) - 2 * m.sigma ^ 2 * u j * phi := by
  rw [d_sq, Complex.sub_im, sq (m.B j phi), Complex.mul_im, B_re, B_im, ← Complex.ofReal_pow, Complex.im_ofReal_mul, W_im]
  ring

/-- The parameters for which the formulas make sense. -/
structure Regular (m : Heston93) : Prop where
  sigma_pos : 0 < m.sigma
  rho_sq : m.rho ^ 2 < 1

theorem d_sq_re_pos {m : Heston93} (hm : m.Regular) (j : Switch) {phi : ℝ} (h : phi ≠ 0) : 0 < (m.d j phi ^ 2).re := by
  rw [d_sq_re]
  have h1 : 0 < 1 - m.rho ^ 2 := by linarith [hm.rho_sq]
  have h2 : 0 < (m.sigma * phi) ^ 2 := by
    have := mul_ne_zero hm.sigma_pos.ne' h
    positivity
  positivity

theorem d_ne_zero {m : Heston93} (hm : m.Regular) (j : Switch) {phi : ℝ} (h : phi ≠ 0) : m.d j phi ≠ 0 := by
  intro e
  have := d_sq_re_pos hm j h
  rw [e] at this
  simp at this

theorem prod_eq (m : Heston93) (j : Switch) (phi : ℝ) :
    (m.B j phi - m.d j phi) * (m.B j phi + m.d j phi) = m.sigma ^ 2 * W j phi := by
  linear_combination -m.d_sq j phi

theorem sub_ne_zero' {m : Heston93} (hm : m.Regular) (j : Switch) {phi : ℝ} (h : phi ≠ 0) :
    m.B j phi - m.d j phi ≠ 0 := by
  intro e
  have := m.prod_eq j phi
  rw [e, zero_mul] at this
  have hs : (m.sigma : ℂ) ≠ 0 := Complex.ofReal_ne_zero.2 hm.sigma_pos.ne'
  exact mul_ne_zero (pow_ne_zero 2 hs) (W_ne_zero j h) this.symm

theorem g_eq (m : Heston93) (j : Switch) (phi : ℝ) :
    m.g j phi = (m.B j phi + m.d j phi) / (m.B j phi - m.d j phi) := rfl

theorem one_sub_g {m : Heston93} (hm : m.Regular) (j : Switch) {phi : ℝ} (h : phi ≠ 0) :
    1 - m.g j phi = -2 * m.d j phi / (m.B j phi - m.d j phi) := by
  have := sub_ne_zero' hm j h
  rw [g_eq]
  field_simp
  ring

theorem one_sub_g_ne {m : Heston93} (hm : m.Regular) (j : Switch) {phi : ℝ} (h : phi ≠ 0) : 1 - m.g j phi ≠ 0 := by
  rw [one_sub_g hm j h]
  exact div_ne_zero (mul_ne_zero (by norm_num) (d_ne_zero hm j h)) (sub_ne_zero' hm j h)

theorem one_sub_ge {m : Heston93} (hm : m.Regular) (j : Switch) {phi : ℝ} (h : phi ≠ 0) (t : ℝ) :
    1 - m.g j phi * Complex.exp (m.d j phi * t) = -m.M t j phi / (m.B j phi - m.d j phi) := by
  have := sub_ne_zero' hm j h
  rw [g_eq, M]
  field_simp
  ring

/-- The argument of the logarithm in `C`. -/
noncomputable def logArg (m : Heston93) (t : ℝ) (j : Switch) (phi : ℝ) : ℂ :=
  (1 - m.g j phi * Complex.exp (m.d j phi * t)) / (1 - m.g j phi)

theorem logArg_eq {m : Heston93} (hm : m.Regular) (j : Switch) {phi : ℝ} (h : phi ≠ 0) (t : ℝ) :
    m.logArg t j phi = m.M t j phi / (2 * m.d j phi) := by
  have h1 := sub_ne_zero' hm j h
  have h2 := d_ne_zero hm j h
  rw [logArg, one_sub_ge hm j h, one_sub_g hm j h]
  field_simp

theorem D_eq {m : Heston93} (hm : m.Regular) (j : Switch) {phi : ℝ} (h : phi ≠ 0) (t : ℝ) :
    m.D t j phi = W j phi * (Complex.exp (m.d j phi * t) - 1) / m.M t j phi := by
  have h1 := sub_ne_zero' hm j h
  have hs : (m.sigma : ℂ) ≠ 0 := Complex.ofReal_ne_zero.2 hm.sigma_pos.ne'
  have hp := m.prod_eq j phi
  unfold D
  rw [one_sub_ge hm j h, show (m.b j - m.rho * m.sigma * I * phi + m.d j phi : ℂ) = m.B j phi + m.d j phi from rfl]
  by_cases hM : m.M t j phi = 0
  · simp [hM]
  · field_simp
    linear_combination (Complex.exp (m.d j phi * t) - 1) * hp

theorem hasDerivAt_exp (w : ℂ) (t : ℝ) :
    HasDerivAt (fun t : ℝ => Complex.exp (w * t)) (w * Complex.exp (w * t)) t := by
  have := ((hasDerivAt_id t).ofReal_comp.const_mul w).cexp
  simpa [mul_comm] using this

theorem hasDerivAt_M (m : Heston93) (j : Switch) (phi t : ℝ) :
    HasDerivAt (fun t => m.M t j phi) ((m.B j phi + m.d j phi) * (m.d j phi * Complex.exp (m.d j phi * t))) t := by
  have h := hasDerivAt_exp (m.d j phi) t
  refine ((((h.sub_const 1).const_mul (m.B j phi)).add ((h.add_const 1).const_mul (m.d j phi)))).congr_deriv ?_
  ring

theorem M_ne_zero {m : Heston93} (hm : m.Regular) (j : Switch) {phi : ℝ} (h : phi ≠ 0) (t : ℝ)
    (hr : m.logArg t j phi ≠ 0) : m.M t j phi ≠ 0 := by
  intro e
  rw [logArg_eq hm j h, e, zero_div] at hr
  exact hr rfl

/-- The Riccati equation. -/
theorem hasDerivAt_D {m : Heston93} (hm : m.Regular) (j : Switch) {phi : ℝ} (h : phi ≠ 0) (t : ℝ)
    (hr : m.logArg t j phi ≠ 0) :
    HasDerivAt (fun t => m.D t j phi)
      (1 / 2 * m.sigma ^ 2 * m.D t j phi ^ 2 - m.B j phi * m.D t j phi + (u j * I * phi - 1 / 2 * phi ^ 2)) t := by
  have hM := M_ne_zero hm j h t hr
  have he : (fun t : ℝ => m.D t j phi) = fun t : ℝ => W j phi * (Complex.exp (m.d j phi * t) - 1) / m.M t j phi := by
    funext t; exact D_eq hm j h t
  rw [he]
  have h1 := (((hasDerivAt_exp (m.d j phi) t).sub_const 1).const_mul (W j phi)).fun_div (hasDerivAt_M m j phi t) hM
  refine h1.congr_deriv ?_
  rw [D_eq hm j h t]
  have hW : (u j * I * phi - 1 / 2 * phi ^ 2 : ℂ) = W j phi / 2 := by unfold W; ring
  rw [hW]
  have hs := m.d_sq j phi
  field_simp
  unfold M
  generalize Complex.exp (m.d j phi * t) = e
  generalize m.d j phi = d at *
  generalize m.B j phi = B at *
  generalize W j phi = W at *
  linear_combination (-(W * (e - 1) ^ 2)) * hs

theorem hasDerivAt_C {m : Heston93} (hm : m.Regular) (j : Switch) {phi : ℝ} (h : phi ≠ 0) (t : ℝ)
    (hr : m.logArg t j phi ∈ Complex.slitPlane) :
    HasDerivAt (fun t => m.C t j phi) ((m.r - m.q) * I * phi + m.kappa * m.theta * m.D t j phi) t := by
  have hd := d_ne_zero hm j h
  have hM := M_ne_zero hm j h t (Complex.slitPlane_ne_zero hr)
  have hs : (m.sigma : ℂ) ≠ 0 := Complex.ofReal_ne_zero.2 hm.sigma_pos.ne'
  have hl : HasDerivAt (fun t => m.logArg t j phi)
      ((m.B j phi + m.d j phi) * (m.d j phi * Complex.exp (m.d j phi * t)) / (2 * m.d j phi)) t := by
    have := (hasDerivAt_M m j phi t).div_const (2 * m.d j phi)
    refine this.congr_of_eventuallyEq (Filter.Eventually.of_forall fun t => ?_)
    exact logArg_eq hm j h t
  have hlog := hl.clog_real hr
  have ht : HasDerivAt (fun t : ℝ => (t : ℂ)) 1 t := by simpa using (hasDerivAt_id t).ofReal_comp
  have hC := ((ht.const_mul ((m.r - m.q) * I * phi : ℂ))).add
    (((ht.const_mul (m.B j phi + m.d j phi)).sub (hlog.const_mul 2)).const_mul
      (m.kappa * m.theta / m.sigma ^ 2 : ℂ))
  have : HasDerivAt (fun t => m.C t j phi) _ t := hC
  refine this.congr_deriv ?_
  rw [logArg_eq hm j h, D_eq hm j h]
  have hp := m.prod_eq j phi
  field_simp
  unfold M
  generalize Complex.exp (m.d j phi * t) = e
  generalize m.d j phi = d at *
  generalize m.B j phi = B at *
  generalize W j phi = W at *
  linear_combination (m.kappa * m.theta * (e - 1)) * hp

/-! ## The quadrature as a finite sum -/

/-- A node of the quadrature on `[0.00001, 50]`. -/
noncomputable def node (p : (ℤ × ℕ) × (ℤ × ℕ)) : ℝ := 0.5 * (50 - 0.00001) * dec p.2 + 0.5 * (0.00001 + 50)

/-- Its weight. -/
noncomputable def weight (p : (ℤ × ℕ) × (ℤ × ℕ)) : ℝ := 1 / Real.pi * (0.5 * (50 - 0.00001) * dec p.1)

theorem node_mem {p} (hp : p ∈ rule) : node p ∈ Set.Icc (0.00001 : ℝ) 50 := by
  have := Math.Quadrature.node_mem 0.00001 50 hp
  rwa [Set.uIcc_of_le (by norm_num)] at this

theorem node_ne {p} (hp : p ∈ rule) : node p ≠ 0 := by
  have := (node_mem hp).1
  intro e
  rw [e] at this
  norm_num at this

/-- The complex integrand. -/
noncomputable def E (m : Heston93) (k t : ℝ) (j : Switch) (phi : ℝ) : ℂ :=
  m.f t j phi * Complex.exp (-I * phi * Real.log k) / (I * phi)

/-- The quadrature of `Re (h E)`. -/
noncomputable def S (m : Heston93) (k t : ℝ) (j : Switch) (h : ℝ → ℂ) : ℝ :=
  (rule.map fun p => weight p * (h (node p) * m.E k t j (node p)).re).sum

theorem sum_congr {α : Type} {l : List α} {f g : α → ℝ} (h : ∀ p ∈ l, f p = g p) : (l.map f).sum = (l.map g).sum := by
  rw [List.map_congr_left h]

theorem P_eq (m : Heston93) (k t : ℝ) (j : Switch) (hf : ∀ p ∈ rule, m.Finite k t j (node p)) :
    m.P k t j = 1 / 2 + m.S k t j (fun _ => 1) := by
  unfold P S
  rw [Math.Quadrature.integrate_eq, ← mul_assoc, ← List.sum_map_mul_left]
  rw [show (0.5 : ℝ) = 1 / 2 by norm_num]
  congr 1
  apply sum_congr
  intro p hp
  have hn0 := node_ne hp
  have : m.integrand k t j (node p) = some (m.E k t j (node p)).re := by
    rw [integrand, if_pos ⟨hf _ hp, hn0⟩, E]
  have e : (1 / 2 * (50 - 0.00001) * dec p.2 + 1 / 2 * (0.00001 + 50) : ℝ) = node p := by unfold node; norm_num
  rw [e, this, weight]
  simp
  ring

theorem S_add (m : Heston93) (k t : ℝ) (j : Switch) (h1 h2 : ℝ → ℂ) :
    m.S k t j (fun x => h1 x + h2 x) = m.S k t j h1 + m.S k t j h2 := by
  unfold S
  rw [← List.sum_map_add]
  apply sum_congr
  intro p _
  rw [add_mul, Complex.add_re]; ring

theorem S_mul (m : Heston93) (k t : ℝ) (j : Switch) (a : ℝ) (h : ℝ → ℂ) :
    m.S k t j (fun x => a * h x) = a * m.S k t j h := by
  unfold S
  rw [← List.sum_map_mul_left]
  apply sum_congr
  intro p _
  rw [mul_assoc, Complex.re_ofReal_mul]; ring

theorem S_congr (m : Heston93) (k t : ℝ) (j : Switch) (h1 h2 : ℝ → ℂ)
    (h : ∀ phi ∈ Set.Icc (0.00001 : ℝ) 50, h1 phi = h2 phi) : m.S k t j h1 = m.S k t j h2 := by
  apply sum_congr
  intro p hp
  rw [h _ (node_mem hp)]

theorem hasDerivAt_sum {α : Type} (l : List α) (F : α → ℝ → ℝ) (F' : α → ℝ) (x : ℝ)
    (h : ∀ p ∈ l, HasDerivAt (F p) (F' p) x) :
    HasDerivAt (fun x => (l.map fun p => F p x).sum) (l.map F').sum x := by
  induction l with
  | nil => simpa using hasDerivAt_const x (0:ℝ)
  | cons p l ih =>
    simp only [List.map_cons, List.sum_cons]
    exact (h p (by simp)).add (ih fun q hq => h q (by simp [hq]))

theorem hasDerivAt_re {F : ℝ → ℂ} {F' : ℂ} {x : ℝ} (h : HasDerivAt F F' x) :
    HasDerivAt (fun x => (F x).re) F'.re x := by
  exact (Complex.reCLM.hasFDerivAt (x := F x)).comp_hasDerivAt x h

/-- Differentiating the quadrature in any parameter. -/
theorem hasDerivAt_S (mm : ℝ → Heston93) (kk tt : ℝ → ℝ) (j : Switch) (hh : ℝ → ℝ → ℂ) (h' : ℝ → ℂ) (x : ℝ)
    (h : ∀ phi ∈ Set.Icc (0.00001 : ℝ) 50, HasDerivAt (fun x => hh x phi * (mm x).E (kk x) (tt x) j phi)
      (h' phi * (mm x).E (kk x) (tt x) j phi) x) :
    HasDerivAt (fun x => (mm x).S (kk x) (tt x) j (hh x)) ((mm x).S (kk x) (tt x) j h') x := by
  apply hasDerivAt_sum
  intro p hp
  exact (hasDerivAt_re (h _ (node_mem hp))).const_mul (weight p)

/-! ## Derivatives of the integrand -/

/-- The model with another spot price and variance. -/
def at' (m : Heston93) (s v : ℝ) : Heston93 := { m with s := s, v := v }

theorem E_at (m : Heston93) (s v k t : ℝ) (j : Switch) (phi : ℝ) : (m.at' s v).E k t j phi =
    Complex.exp (m.C t j phi + m.D t j phi * v + I * phi * Real.log s) * Complex.exp (-I * phi * Real.log k) /
      (I * phi) := rfl

theorem deriv_s (m : Heston93) (v k t : ℝ) (j : Switch) (phi : ℝ) {s : ℝ} (hs : 0 < s) :
    HasDerivAt (fun s => (m.at' s v).E k t j phi) (I * phi / s * (m.at' s v).E k t j phi) s := by
  have hl : HasDerivAt (fun s : ℝ => (Real.log s : ℂ)) ((s⁻¹ : ℝ) : ℂ) s := (Real.hasDerivAt_log hs.ne').ofReal_comp
  simp only [E_at]
  have := (((hl.const_mul (I * phi)).const_add (m.C t j phi + m.D t j phi * v)).cexp.mul_const
    (Complex.exp (-I * phi * Real.log k))).div_const (I * phi)
  refine this.congr_deriv ?_
  push_cast
  ring

theorem deriv_v (m : Heston93) (s k t : ℝ) (j : Switch) (phi v : ℝ) :
    HasDerivAt (fun v => (m.at' s v).E k t j phi) (m.D t j phi * (m.at' s v).E k t j phi) v := by
  have hv : HasDerivAt (fun v : ℝ => (v : ℂ)) 1 v := by simpa using (hasDerivAt_id v).ofReal_comp
  simp only [E_at]
  have := ((((hv.const_mul (m.D t j phi)).const_add (m.C t j phi)).add_const
    (I * phi * Real.log s)).cexp.mul_const (Complex.exp (-I * phi * Real.log k))).div_const (I * phi)
  refine this.congr_deriv ?_
  ring

theorem deriv_t {m : Heston93} (hm : m.Regular) (s v k t : ℝ) (j : Switch) {phi : ℝ} (h : phi ≠ 0)
    (hr : m.logArg t j phi ∈ Complex.slitPlane) :
    HasDerivAt (fun t => (m.at' s v).E k t j phi)
      ((((m.r - m.q) * I * phi + m.kappa * m.theta * m.D t j phi) +
        (1 / 2 * m.sigma ^ 2 * m.D t j phi ^ 2 - m.B j phi * m.D t j phi + (u j * I * phi - 1 / 2 * phi ^ 2)) * v) *
        (m.at' s v).E k t j phi) t := by
  have hC := hasDerivAt_C hm j h t hr
  have hD := hasDerivAt_D hm j h t (Complex.slitPlane_ne_zero hr)
  simp only [E_at]
  have := ((((hC.add (hD.mul_const (v : ℂ))).add_const (I * phi * Real.log s)).cexp.mul_const
    (Complex.exp (-I * phi * Real.log k))).div_const (I * phi))
  refine this.congr_deriv ?_
  simp only [Pi.add_apply]
  ring

end Verif.Options.Heston93
