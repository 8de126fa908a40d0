import Verif.ML.ActivationsSpec
import Verif.Autodiff.Props
import Verif.Distributions.GaussianLemmas
import Mathlib.Analysis.SpecialFunctions.Trigonometric.DerivHyp

/-!
# C74: activation functions
-/

namespace Verif.ML

open Verif.Autodiff

theorem erf_agree (x : ℝ) : Autodiff.erf x = Distributions.erf x := by
  unfold Autodiff.erf Distributions.erf Distributions.erfc
  have hint : MeasureTheory.Integrable fun t : ℝ => Real.exp (-t ^ 2) := by
    simpa using integrable_exp_neg_mul_sq one_pos
  have h := intervalIntegral.integral_Ioi_sub_Ioi' (f := fun t : ℝ => Real.exp (-t ^ 2)) (a := 0) (b := x)
    (μ := MeasureTheory.volume) hint.integrableOn hint.integrableOn
  have h0 : ∫ t in Set.Ioi (0 : ℝ), Real.exp (-t ^ 2) = √Real.pi / 2 := by
    simpa using integral_gaussian_Ioi 1
  rw [← h, h0]
  have : √Real.pi ≠ 0 := by positivity
  field_simp

theorem gelu_eq (x : ℝ) : Act.gelu.f64 x = Act.gelu.math x := by
  unfold Act.f64 Act.math
  simp only
  rw [erf_agree, Distributions.Gaussian.erf_eq, ← Distributions.Gaussian.std_cdf_law]
  have : √2 * (x / √2) = x := by
    have : √(2 : ℝ) ≠ 0 := by positivity
    field_simp
  rw [this]
  ring

/-- For `f64`, every activation except `gaussian` is the function it is named after. -/
theorem C74_f64 (a : Act) (ha : a ≠ .gaussian) (x : ℝ) : a.f64 x = a.math x := by
  cases a with
  | gelu => exact gelu_eq x
  | relu =>
    simp only [Act.f64, Act.math]
    split_ifs with h
    · exact (max_eq_left h.le).symm
    · exact (max_eq_right (not_lt.1 h)).symm
  | tanh => exact Real.tanh_eq_sinh_div_cosh x
  | gaussian => exact absurd rfl ha
  | _ => rfl

example := C74_f64 .softplus (by nofun) 2

/-- For `f64`, `gaussian` is the reciprocal of the Gaussian: it is never below one, grows without
bound away from zero, and is right only at zero. -/
theorem C74_gaussian_f64_wrong (x : ℝ) :
    Act.gaussian.f64 x = 1 / Act.gaussian.math x ∧ 1 + x ^ 2 ≤ Act.gaussian.f64 x ∧
      (Act.gaussian.f64 x = Act.gaussian.math x ↔ x = 0) := by
  simp only [Act.f64, Act.math, neg_sq]
  refine ⟨by rw [Real.exp_neg]; simp, by linarith [Real.add_one_le_exp (x ^ 2)], ?_⟩
  rw [Real.exp_eq_exp]
  constructor
  · intro h
    have : x ^ 2 = 0 := by linarith
    exact pow_eq_zero_iff (two_ne_zero) |>.1 this
  · rintro rfl; simp

/-- On vectors every activation acts on each entry as it does on `f64`. -/
theorem C74_vector {n : ℕ} (a : Act) (v : Fin n → ℝ) (i : Fin n) : a.vector v i = a.f64 (v i) := by
  cases a <;> rfl

theorem variable_denote (a : Act) (x : ℝ) :
    denote (.leaf :: a.variable) (fun _ => x) a.variable.length = a.math x := by
  cases a with
  | gelu =>
    rw [← gelu_eq]
    simp only [Act.variable, Act.f64, denote, denoteFrom, Instr.denote, UnOp.math, VVOp.math,
      Autodiff.erf]
    simp
  | relu =>
    simp only [Act.variable, Act.math, denote, denoteFrom, Instr.denote, UnOp.math, VVOp.math]
    simp
    rcases le_total 0 x with h | h
    · rw [abs_of_nonneg h, max_eq_left h]; ring
    · rw [abs_of_nonpos h, max_eq_right h]; ring
  | tanh =>
    simp only [Act.variable, Act.math, denote, denoteFrom, Instr.denote, UnOp.math]
    simpa using Real.tanh_eq_sinh_div_cosh x
  | sigmoid =>
    simp [Act.variable, Act.math, denote, denoteFrom, Instr.denote, UnOp.math, VFOp.math, add_comm]
  | logistic =>
    simp [Act.variable, Act.math, denote, denoteFrom, Instr.denote, UnOp.math, VFOp.math, add_comm]
  | identity => simp [Act.variable, Act.math, denote, denoteFrom, Instr.denote]
  | softplus => simp [Act.variable, Act.math, denote, denoteFrom, Instr.denote, UnOp.math]
  | gaussian =>
    simp [Act.variable, Act.math, denote, denoteFrom, Instr.denote, UnOp.math]

theorem variable_scoped (a : Act) : Scoped (.leaf :: a.variable) := by
  intro k ins h
  have hk : k < 6 := by
    have := (List.getElem?_eq_some_iff.1 h).1
    cases a <;> simp [Act.variable] at this <;> omega
  interval_cases k <;> cases a <;> simp [Act.variable] at h <;> subst h <;> simp [Instr.refs]

theorem variable_dom (a : Act) (x : ℝ) (hx : a = .relu → x ≠ 0) :
    Differentiable (.leaf :: a.variable) (fun _ => x) := by
  intro k ins h
  have hk : k < 6 := by
    have := (List.getElem?_eq_some_iff.1 h).1
    cases a <;> simp [Act.variable] at this <;> omega
  interval_cases k <;> cases a <;> simp [Act.variable] at h <;> subst h <;>
    simp [Instr.Dom, UnOp.Dom, VVOp.Dom, VFOp.Dom, denote, denoteFrom, Instr.denote, UnOp.math,
      VFOp.math, Act.variable]
  case «1».relu => exact hx rfl
  all_goals positivity

/-- For `Variable`, every activation returns the value of the function it is named after, and its
derivative with respect to the argument is that of the function (for `relu`, away from zero). -/
theorem C74_variable (a : Act) (x : ℝ) :
    ∃ g env x0 z, run (.leaf :: a.variable) (fun _ => x) = some (g, env) ∧ env[0]? = some x0 ∧
      env.getLast? = some z ∧ z.value = a.math x ∧
      ((a = .relu → x ≠ 0) → ∃ adj d, accumulate g z = some adj ∧ wrt adj x0 = some d ∧
        HasDerivAt a.math d x) := by
  obtain ⟨g, env, hrun, hlen⟩ := C26_runs _ (variable_scoped a) fun _ => x
  have hl : env.length = a.variable.length + 1 := by simpa using hlen
  obtain ⟨x0, hx0⟩ : ∃ x0, env[0]? = some x0 := ⟨_, List.getElem?_eq_getElem (by omega)⟩
  obtain ⟨z, hz⟩ : ∃ z, env[a.variable.length]? = some z := ⟨_, List.getElem?_eq_getElem (by omega)⟩
  refine ⟨g, env, x0, z, hrun, hx0, ?_, ?_, fun hx => ?_⟩
  · rw [List.getLast?_eq_getElem?, hl]; exact hz
  · rw [C26_values _ _ g env hrun _ z hz, variable_denote]
  · obtain ⟨-, adj, d, h1, h2, h3⟩ := C26_gradient_exact _ _ g env hrun (variable_dom a x hx) _ z hz 0
      (by simp) x0 hx0
    refine ⟨adj, d, h1, h2, ?_⟩
    have e : (fun t => denote (.leaf :: a.variable) (Function.update (fun _ => x) 0 t)
        a.variable.length) = a.math := by
      funext t
      rw [← variable_denote]
      cases a <;> simp [Act.variable, denote, denoteFrom, Instr.denote, Function.update]
    rwa [e] at h3

/-- At zero, where `relu` has no derivative, the one recorded for `Variable` is one. -/
theorem C74_relu_at_zero : ∃ g env x0 z adj, run (.leaf :: Act.relu.variable) (fun _ => 0) = some (g, env) ∧
    env[0]? = some x0 ∧ env.getLast? = some z ∧ accumulate g z = some adj ∧ wrt adj x0 = some 1 ∧
    ¬ DifferentiableAt ℝ Act.relu.math 0 := by
  refine ⟨_, _, _, _, [1, 1 / 2, 1 / 2, 1], rfl, rfl, rfl, ?_, rfl, ?_⟩
  · simp [accumulate, sweep, addAt, UnOp.partial, VVOp.partials, VFOp.partials, signum, Act.variable]
    norm_num
  · intro h
    have e : (fun x : ℝ => |x|) = fun x => 2 * Act.relu.math x - x := by
      funext x
      simp only [Act.math]
      rcases le_total 0 x with h | h
      · rw [abs_of_nonneg h, max_eq_left h]; ring
      · rw [abs_of_nonpos h, max_eq_right h]; ring
    apply not_differentiableAt_abs_zero
    have : DifferentiableAt ℝ (fun x : ℝ => 2 * Act.relu.math x - x) 0 :=
      (h.const_mul 2).sub differentiableAt_id
    rw [← e] at this
    exact this

/-- The sigmoid lies strictly between zero and one, is strictly increasing, is one half at zero, is
symmetric about that point, and has derivative itself times its complement. -/
theorem C74_sigmoid (x : ℝ) :
    0 < Act.sigmoid.f64 x ∧ Act.sigmoid.f64 x < 1 ∧ StrictMono Act.sigmoid.f64 ∧
      Act.sigmoid.f64 0 = 1 / 2 ∧ Act.sigmoid.f64 (-x) = 1 - Act.sigmoid.f64 x ∧
      HasDerivAt Act.sigmoid.f64 (Act.sigmoid.f64 x * (1 - Act.sigmoid.f64 x)) x ∧
      Act.logistic.f64 = Act.sigmoid.f64 := by
  have he := Real.exp_pos (-x)
  refine ⟨by simp only [Act.f64]; positivity, ?_, ?_, ?_, ?_, ?_, rfl⟩
  · simp only [Act.f64]
    rw [div_lt_one (by positivity)]; linarith
  · intro a b hab
    simp only [Act.f64]
    have := Real.exp_pos (-b)
    have := Real.exp_lt_exp.2 (neg_lt_neg hab)
    exact one_div_lt_one_div_of_lt (by positivity) (by linarith)
  · simp only [Act.f64]; norm_num
  · simp only [Act.f64, neg_neg]
    rw [Real.exp_neg]
    have := Real.exp_pos x
    field_simp
    ring
  · have h1 : HasDerivAt (fun x : ℝ => 1 + Real.exp (-x)) (-Real.exp (-x)) x := by
      have := ((hasDerivAt_neg x).exp).const_add 1
      refine this.congr_deriv ?_
      ring
    have h2 := (hasDerivAt_const x (1 : ℝ)).fun_div h1 (by positivity)
    refine h2.congr_deriv ?_
    simp only [Act.f64]
    field_simp
    ring

/-- `softplus` has the sigmoid as derivative, lies above `relu` by at most `ln 2`, and `tanh` is a
sigmoid stretched to the interval from minus one to one. -/
theorem C74_relations (x : ℝ) :
    HasDerivAt Act.softplus.f64 (Act.sigmoid.f64 x) x ∧ Act.relu.f64 x < Act.softplus.f64 x ∧
      Act.softplus.f64 x ≤ Act.relu.f64 x + Real.log 2 ∧
      Act.tanh.f64 x = 2 * Act.sigmoid.f64 (2 * x) - 1 := by
  have he := Real.exp_pos x
  refine ⟨?_, ?_, ?_, ?_⟩
  · have h := ((Real.hasDerivAt_exp x).const_add 1).log (by positivity)
    refine h.congr_deriv ?_
    simp only [Act.f64, Real.exp_neg]
    field_simp
    ring
  · simp only [Act.f64]
    split_ifs with h
    · rw [Real.lt_log_iff_exp_lt (by positivity)]; linarith
    · exact Real.log_pos (by linarith)
  · simp only [Act.f64]
    split_ifs with h
    · rw [← Real.log_exp x, ← Real.log_mul (by positivity) (by norm_num), Real.log_exp]
      exact Real.log_le_log (by positivity) (by have := Real.one_le_exp h.le; linarith)
    · rw [zero_add]
      refine Real.log_le_log (by positivity) ?_
      have := Real.exp_le_one_iff.2 (not_lt.1 h)
      linarith
  · simp only [Act.f64]
    rw [Real.tanh_eq_sinh_div_cosh, Real.sinh_eq, Real.cosh_eq]
    have h2 : Real.exp (-(2 * x)) = Real.exp (-x) * Real.exp (-x) := by
      rw [← Real.exp_add]; ring_nf
    rw [h2, Real.exp_neg]
    field_simp
    ring

/-- The wrong Gaussian at one: the code gives `e`, not its reciprocal. -/
example : Act.gaussian.f64 1 = Real.exp 1 ∧ Act.gaussian.math 1 = Real.exp (-1) := by
  simp [Act.f64, Act.math]

end Verif.ML
