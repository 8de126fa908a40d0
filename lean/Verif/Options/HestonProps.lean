import Verif.Options.HestonLemmas

/-!
# C61: the Heston model

The specification is Heston's partial differential equation for the price of an option on an asset with stochastic
variance, and the ordinary differential equations of the characteristic functions it leads to.
-/

namespace Verif.Options.Heston93

open Complex (I)
open Math.Quadrature (rule dec)
open Filter Topology

/-! ## Specification -/

/-- The complex logarithm in `C` is evaluated off its branch cut, at every argument the quadrature may use. -/
def OffBranchCut (m : Heston93) (t : ℝ) : Prop :=
  ∀ j, ∀ phi ∈ Set.Icc (0.00001 : ℝ) 50,
    (1 - m.g j phi * Complex.exp (m.d j phi * t)) / (1 - m.g j phi) ∈ Complex.slitPlane

/-- `Ut = ½ v s² Uss + ρσ v s Usv + ½ σ² v Uvv + (r - q) s Us + κ(θ - v) Uv - r U`: Heston's equation for the price of an
option with `t` years to expiry. -/
def HestonEquation (m : Heston93) (s v U Us Uv Uss Usv Uvv Ut : ℝ) : Prop :=
  Ut = 1 / 2 * v * s ^ 2 * Uss + m.rho * m.sigma * v * s * Usv + 1 / 2 * m.sigma ^ 2 * v * Uvv
    + (m.r - m.q) * s * Us + m.kappa * (m.theta - v) * Uv - m.r * U

/-! ## Helpers -/

theorem finite_of {m : Heston93} (hm : m.Regular) {s v k : ℝ} (hs : 0 < s) (hk : 0 < k) (t : ℝ) (j : Switch) {phi : ℝ}
    (h : phi ≠ 0) (hr : m.logArg t j phi ≠ 0) : (m.at' s v).Finite k t j phi := by
  refine ⟨hs, hk, hm.sigma_pos.ne', sub_ne_zero' hm j h, one_sub_g_ne hm j h, ?_⟩
  intro e
  apply hr
  rw [logArg]
  have e' : 1 - m.g j phi * Complex.exp (m.d j phi * t) = 0 := e
  rw [e', zero_div]

theorem phi_ne {phi : ℝ} (h : phi ∈ Set.Icc (0.00001 : ℝ) 50) : phi ≠ 0 := by
  have := h.1
  intro e
  rw [e] at this
  norm_num at this

theorem P_at {m : Heston93} (hm : m.Regular) {s v k : ℝ} (hs : 0 < s) (hk : 0 < k) {t : ℝ} (hr : m.OffBranchCut t)
    (j : Switch) : (m.at' s v).P k t j = 1 / 2 + (m.at' s v).S k t j (fun _ => 1) := by
  apply P_eq
  intro p hp
  exact finite_of hm hs hk t j (node_ne hp) (Complex.slitPlane_ne_zero (hr j _ (node_mem hp)))

theorem continuous_logArg {m : Heston93} (hm : m.Regular) (j : Switch) {phi : ℝ} (h : phi ≠ 0) (t : ℝ) :
    ContinuousAt (fun t => m.logArg t j phi) t := by
  have : (fun t => m.logArg t j phi) = fun t => m.M t j phi / (2 * m.d j phi) := by
    funext t; exact logArg_eq hm j h t
  rw [this]
  exact (hasDerivAt_M m j phi t).continuousAt.div_const _

theorem P_eventually {m : Heston93} (hm : m.Regular) {s v k : ℝ} (hs : 0 < s) (hk : 0 < k) {t : ℝ}
    (hr : m.OffBranchCut t) (j : Switch) :
    ∀ᶠ τ in 𝓝 t, (m.at' s v).P k τ j = 1 / 2 + (m.at' s v).S k τ j (fun _ => 1) := by
  have h1 : ∀ᶠ τ in 𝓝 t, ∀ p ∈ {p | p ∈ rule}, m.logArg τ j (node p) ≠ 0 := by
    rw [Filter.eventually_all_finite (List.finite_toSet rule)]
    intro p hp
    exact (continuous_logArg hm j (node_ne hp) t).eventually_ne
      (Complex.slitPlane_ne_zero (hr j _ (node_mem hp)))
  filter_upwards [h1] with τ hτ
  apply P_eq
  intro p hp
  exact finite_of hm hs hk τ j (node_ne hp) (hτ p hp)

/-- The first derivatives of the probabilities. -/
theorem P_derivs {m : Heston93} (hm : m.Regular) {s v k : ℝ} (hs : 0 < s) (hk : 0 < k) {t : ℝ} (hr : m.OffBranchCut t)
    (j : Switch) :
    HasDerivAt (fun s => (m.at' s v).P k t j) ((m.at' s v).S k t j (fun phi => I * phi) / s) s ∧
    HasDerivAt (fun v => (m.at' s v).P k t j) ((m.at' s v).S k t j (fun phi => m.D t j phi)) v ∧
    HasDerivAt (fun t => (m.at' s v).P k t j) ((m.at' s v).S k t j (fun phi =>
      (((m.r - m.q) * I * phi + m.kappa * m.theta * m.D t j phi) +
        (1 / 2 * m.sigma ^ 2 * m.D t j phi ^ 2 - m.B j phi * m.D t j phi + (u j * I * phi - 1 / 2 * phi ^ 2)) * v))) t := by
  refine ⟨?_, ?_, ?_⟩
  · have h := hasDerivAt_S (fun s => m.at' s v) (fun _ => k) (fun _ => t) j (fun _ _ => 1) (fun phi => ((1/s : ℝ):ℂ) * (I * phi)) s
      (by
        intro phi _
        simp only [one_mul]
        refine (deriv_s m v k t j phi hs).congr_deriv ?_
        push_cast
        ring)
    have h' := h.const_add (1/2)
    rw [S_mul] at h'
    refine (h'.congr_deriv (by ring)).congr_of_eventuallyEq ?_
    filter_upwards [lt_mem_nhds hs] with x hx
    exact P_at hm hx hk hr j
  · have h := hasDerivAt_S (fun v => m.at' s v) (fun _ => k) (fun _ => t) j (fun _ _ => 1) (fun phi => m.D t j phi) v
      (by
        intro phi _
        simp only [one_mul]
        exact deriv_v m s k t j phi v)
    refine (h.const_add (1/2)).congr_of_eventuallyEq (Filter.Eventually.of_forall fun x => ?_)
    exact P_at hm hs hk hr j
  · have h := hasDerivAt_S (fun _ => m.at' s v) (fun _ => k) (fun t => t) j (fun _ _ => 1) _ t
      (by
        intro phi hphi
        simp only [one_mul]
        exact deriv_t hm s v k t j (phi_ne hphi) (hr j phi hphi))
    exact (h.const_add (1/2)).congr_of_eventuallyEq (P_eventually hm hs hk hr j)

/-- Second derivatives. -/
theorem P_derivs2 (m : Heston93) {s v k : ℝ} (hs : 0 < s) (t : ℝ) (j : Switch) :
    HasDerivAt (fun s => (m.at' s v).S k t j (fun phi => I * phi) / s)
      (((m.at' s v).S k t j (fun phi => (I * phi) ^ 2) - (m.at' s v).S k t j (fun phi => I * phi)) / s ^ 2) s ∧
    HasDerivAt (fun v => (m.at' s v).S k t j (fun phi => I * phi) / s)
      ((m.at' s v).S k t j (fun phi => I * phi * m.D t j phi) / s) v ∧
    HasDerivAt (fun v => (m.at' s v).S k t j (fun phi => m.D t j phi))
      ((m.at' s v).S k t j (fun phi => m.D t j phi ^ 2)) v := by
  refine ⟨?_, ?_, ?_⟩
  · have h := hasDerivAt_S (fun s => m.at' s v) (fun _ => k) (fun _ => t) j (fun _ phi => I * phi)
      (fun phi => ((1/s : ℝ):ℂ) * (I * phi) ^ 2) s
      (by
        intro phi _
        refine ((deriv_s m v k t j phi hs).const_mul (I * phi : ℂ)).congr_deriv ?_
        push_cast
        ring)
    have h' := h.fun_div (hasDerivAt_id s) hs.ne'
    simp only [id] at h'
    rw [S_mul] at h'
    refine h'.congr_deriv ?_
    field_simp
  · have h := hasDerivAt_S (fun v => m.at' s v) (fun _ => k) (fun _ => t) j (fun _ phi => I * phi)
      (fun phi => I * phi * m.D t j phi) v
      (by
        intro phi _
        refine ((deriv_v m s k t j phi v).const_mul (I * phi : ℂ)).congr_deriv ?_
        ring)
    exact h.div_const s
  · exact hasDerivAt_S (fun v => m.at' s v) (fun _ => k) (fun _ => t) j (fun _ phi => m.D t j phi)
      (fun phi => m.D t j phi ^ 2) v
      (by
        intro phi _
        refine ((deriv_v m s k t j phi v).const_mul (m.D t j phi)).congr_deriv ?_
        ring)

/-- The time derivative in terms of the others. -/
theorem S_time (m : Heston93) (s v k t : ℝ) (j : Switch) :
    (m.at' s v).S k t j (fun phi =>
      (((m.r - m.q) * I * phi + m.kappa * m.theta * m.D t j phi) +
        (1 / 2 * m.sigma ^ 2 * m.D t j phi ^ 2 - m.B j phi * m.D t j phi + (u j * I * phi - 1 / 2 * phi ^ 2)) * v)) =
    1 / 2 * v * (m.at' s v).S k t j (fun phi => (I * phi) ^ 2)
      + m.rho * m.sigma * v * (m.at' s v).S k t j (fun phi => I * phi * m.D t j phi)
      + 1 / 2 * m.sigma ^ 2 * v * (m.at' s v).S k t j (fun phi => m.D t j phi ^ 2)
      + (m.r - m.q + u j * v) * (m.at' s v).S k t j (fun phi => I * phi)
      + (m.kappa * m.theta - m.b j * v) * (m.at' s v).S k t j (fun phi => m.D t j phi) := by
  rw [← S_mul, ← S_mul, ← S_mul, ← S_mul, ← S_mul, ← S_add, ← S_add, ← S_add, ← S_add]
  apply S_congr
  intro phi _
  push_cast
  simp only [B, mul_pow, Complex.I_sq]
  ring

/-! ## Theorems -/

/-- **C61.** Put-call parity for price and delta; gamma does not depend on the type; the difference of the rhos is
`k t e^{-rt}`. -/
theorem C61_parity (m : Heston93) (k t : ℝ) :
    m.price k t .call - m.price k t .put = m.s * Real.exp (-m.q * t) - k * Real.exp (-m.r * t) ∧
    m.delta k t .call - m.delta k t .put = Real.exp (-m.q * t) ∧
    m.gamma k t .call = m.gamma k t .put ∧
    m.rhoGreek k t .call - m.rhoGreek k t .put = k * t * Real.exp (-m.r * t) := by
  refine ⟨?_, ?_, rfl, ?_⟩
  · simp only [price, putPrice]; ring
  · simp only [delta, putDelta]; ring
  · simp only [rhoGreek, callRho, putRho]; ring

/-- **C61.** Prices are homogeneous: measuring spot and strike in another unit changes the price by the same factor and
leaves delta alone. -/
theorem C61_homogeneous (m : Heston93) (k t l : ℝ) (hs : 0 < m.s) (hk : 0 < k) (hl : 0 < l) (flag : TypeFlag) :
    ({ m with s := l * m.s } : Heston93).price (l * k) t flag = l * m.price k t flag ∧
    ({ m with s := l * m.s } : Heston93).delta (l * k) t flag = m.delta k t flag := by
  have hi : ∀ j, ({ m with s := l * m.s } : Heston93).integrand (l * k) t j = m.integrand k t j := by
    intro j
    funext phi
    have hF : ({ m with s := l * m.s } : Heston93).Finite (l * k) t j phi ↔ m.Finite k t j phi := by
      unfold Finite
      constructor
      · rintro ⟨-, -, h⟩; exact ⟨hs, hk, h⟩
      · rintro ⟨-, -, h⟩; exact ⟨mul_pos hl hs, mul_pos hl hk, h⟩
    unfold integrand
    rw [hF]
    split_ifs
    · congr 2
      have : ({ m with s := l * m.s } : Heston93).f t j phi = m.f t j phi * Complex.exp (I * phi * Real.log l) := by
        unfold f
        rw [← Complex.exp_add]
        congr 1
        show m.C t j phi + m.D t j phi * m.v + I * phi * Real.log (l * m.s) = _
        rw [Real.log_mul hl.ne' hs.ne']
        push_cast
        ring
      rw [this, Real.log_mul hl.ne' hk.ne', mul_assoc, ← Complex.exp_add]
      congr 3
      push_cast
      ring
    · rfl
  have hP : ∀ j, ({ m with s := l * m.s } : Heston93).P (l * k) t j = m.P k t j := by
    intro j; unfold P; rw [hi]
  cases flag <;> simp only [price, delta, putPrice, callPrice, putDelta, callDelta, hP] <;>
    exact ⟨by ring, trivial⟩

/-- **C61.** The functions of the characteristic function start at zero and solve Heston's differential equations
`D' = ½σ²D² - (b - ρσiφ)D + uiφ - ½φ²` and `C' = (r - q)iφ + κθD`, with `u = ±½` and `b = κ - ρσ` or `κ`; at expiry the
characteristic function is `s^{iφ}`. -/
theorem C61_riccati (m : Heston93) (hm : m.Regular) (j : Switch) (phi t : ℝ) (h : phi ≠ 0)
    (hr : (1 - m.g j phi * Complex.exp (m.d j phi * t)) / (1 - m.g j phi) ∈ Complex.slitPlane) :
    m.C 0 j phi = 0 ∧ m.D 0 j phi = 0 ∧ m.f 0 j phi = Complex.exp (I * phi * Real.log m.s) ∧
    HasDerivAt (fun t => m.D t j phi)
      (1 / 2 * m.sigma ^ 2 * m.D t j phi ^ 2
        - ((match j with | .one => m.kappa - m.rho * m.sigma | .two => m.kappa : ℝ) - m.rho * m.sigma * I * phi)
          * m.D t j phi
        + ((match j with | .one => 1 / 2 | .two => -1 / 2 : ℝ) * I * phi - 1 / 2 * phi ^ 2)) t ∧
    HasDerivAt (fun t => m.C t j phi) ((m.r - m.q) * I * phi + m.kappa * m.theta * m.D t j phi) t := by
  have hC : m.C 0 j phi = 0 := by
    unfold C
    simp [div_self (one_sub_g_ne hm j h)]
  have hD : m.D 0 j phi = 0 := by simp [D]
  refine ⟨hC, hD, ?_, ?_, hasDerivAt_C hm j h t hr⟩
  · unfold f; rw [hC, hD]; simp
  · refine (hasDerivAt_D hm j h t (Complex.slitPlane_ne_zero hr)).congr_deriv ?_
    cases j <;> simp only [B, b, u] <;> push_cast <;> ring

/-- **C61.** As long as the complex logarithm stays off its branch cut, the price the code computes (with its quadrature)
is differentiable and solves Heston's equation exactly. -/
theorem C61_heston_equation (m : Heston93) (hm : m.Regular) (k : ℝ) (hk : 0 < k) (t : ℝ) (hr : m.OffBranchCut t)
    (flag : TypeFlag) :
    ∃ Us Uv : ℝ → ℝ → ℝ,
      (∀ s v, 0 < s →
        HasDerivAt (fun s => ({ m with s := s, v := v } : Heston93).price k t flag) (Us s v) s ∧
        HasDerivAt (fun v => ({ m with s := s, v := v } : Heston93).price k t flag) (Uv s v) v) ∧
      ∀ s v, 0 < s → ∃ Uss Usv Uvv Ut,
        HasDerivAt (fun s => Us s v) Uss s ∧ HasDerivAt (fun v => Us s v) Usv v ∧ HasDerivAt (fun v => Uv s v) Uvv v ∧
        HasDerivAt (fun t => ({ m with s := s, v := v } : Heston93).price k t flag) Ut t ∧
        m.HestonEquation s v (({ m with s := s, v := v } : Heston93).price k t flag) (Us s v) (Uv s v) Uss Usv Uvv Ut := by
  -- the put differs by `c = k e^{-rt} - s e^{-qt}`
  set c : ℝ := match flag with | .call => 0 | .put => 1 with hc
  have hprice : ∀ s v t, ({ m with s := s, v := v } : Heston93).price k t flag =
      s * Real.exp (-m.q * t) * (m.at' s v).P k t .one - k * Real.exp (-m.r * t) * (m.at' s v).P k t .two
        + c * (k * Real.exp (-m.r * t) - s * Real.exp (-m.q * t)) := by
    intro s v t
    cases flag
    · simp only [hc, price, callPrice]
      change _ = _ + 0 * _
      rw [zero_mul, add_zero]
      rfl
    · simp only [hc, price, putPrice, callPrice]
      change _ = _ + 1 * _
      rw [one_mul]
      rfl
  simp only [hprice]
  refine ⟨fun s v => Real.exp (-m.q * t) * (m.at' s v).P k t .one
      + s * Real.exp (-m.q * t) * ((m.at' s v).S k t .one (fun phi => I * phi) / s)
      - k * Real.exp (-m.r * t) * ((m.at' s v).S k t .two (fun phi => I * phi) / s)
      - c * Real.exp (-m.q * t),
    fun s v => s * Real.exp (-m.q * t) * (m.at' s v).S k t .one (fun phi => m.D t .one phi)
      - k * Real.exp (-m.r * t) * (m.at' s v).S k t .two (fun phi => m.D t .two phi), ?_, ?_⟩
  · intro s v hs
    obtain ⟨a1, b1, -⟩ := P_derivs hm (v := v) hs hk hr .one
    obtain ⟨a2, b2, -⟩ := P_derivs hm (v := v) hs hk hr .two
    have hid : HasDerivAt (fun s : ℝ => s * Real.exp (-m.q * t)) (Real.exp (-m.q * t)) s := by
      simpa using (hasDerivAt_id s).mul_const (Real.exp (-m.q * t))
    constructor
    · refine (((hid.fun_mul a1).fun_sub (a2.const_mul _)).fun_add
        ((hid.const_sub (k * Real.exp (-m.r * t))).const_mul c)).congr_deriv ?_
      ring
    · exact ((b1.const_mul _).fun_sub (b2.const_mul _)).add_const _
  · intro s v hs
    obtain ⟨a1, b1, c1⟩ := P_derivs hm (v := v) hs hk hr .one
    obtain ⟨a2, b2, c2⟩ := P_derivs hm (v := v) hs hk hr .two
    obtain ⟨d1, e1, f1⟩ := P_derivs2 m (v := v) (k := k) hs t .one
    obtain ⟨d2, e2, f2⟩ := P_derivs2 m (v := v) (k := k) hs t .two
    rw [S_time] at c1 c2
    have hid : HasDerivAt (fun s : ℝ => s * Real.exp (-m.q * t)) (Real.exp (-m.q * t)) s := by
      simpa using (hasDerivAt_id s).mul_const (Real.exp (-m.q * t))
    have hq : HasDerivAt (fun t : ℝ => Real.exp (-m.q * t)) (-m.q * Real.exp (-m.q * t)) t := by
      simpa [mul_comm] using ((hasDerivAt_id t).const_mul (-m.q)).exp
    have hrr : HasDerivAt (fun t : ℝ => Real.exp (-m.r * t)) (-m.r * Real.exp (-m.r * t)) t := by
      simpa [mul_comm] using ((hasDerivAt_id t).const_mul (-m.r)).exp
    refine ⟨_, _, _, _,
      (((a1.const_mul (Real.exp (-m.q * t))).fun_add (hid.fun_mul d1)).fun_sub
        (d2.const_mul (k * Real.exp (-m.r * t)))).sub_const _,
      (((b1.const_mul (Real.exp (-m.q * t))).fun_add (e1.const_mul (s * Real.exp (-m.q * t)))).fun_sub
        (e2.const_mul (k * Real.exp (-m.r * t)))).sub_const _,
      (f1.const_mul _).fun_sub (f2.const_mul _),
      (((hq.const_mul s).fun_mul c1).fun_sub ((hrr.const_mul k).fun_mul c2)).fun_add
        (((hrr.const_mul k).fun_sub (hq.const_mul s)).const_mul c), ?_⟩
    unfold HestonEquation
    simp only [u, b]
    generalize Real.exp (-m.q * t) = eq
    generalize Real.exp (-m.r * t) = er
    generalize (m.at' s v).P k t .one = P1
    generalize (m.at' s v).P k t .two = P2
    generalize (m.at' s v).S k t .one (fun phi => (I * phi) ^ 2) = x1
    generalize (m.at' s v).S k t .two (fun phi => (I * phi) ^ 2) = x2
    generalize (m.at' s v).S k t .one (fun phi => I * phi * m.D t .one phi) = y1
    generalize (m.at' s v).S k t .two (fun phi => I * phi * m.D t .two phi) = y2
    generalize (m.at' s v).S k t .one (fun phi => I * phi) = z1
    generalize (m.at' s v).S k t .two (fun phi => I * phi) = z2
    generalize (m.at' s v).S k t .one (fun phi => m.D t .one phi ^ 2) = w1
    generalize (m.at' s v).S k t .two (fun phi => m.D t .two phi ^ 2) = w2
    generalize (m.at' s v).S k t .one (fun phi => m.D t .one phi) = q1
    generalize (m.at' s v).S k t .two (fun phi => m.D t .two phi) = q2
    field_simp
    ring

/-- **C61.** Gamma is exactly the derivative of delta in the spot price. -/
theorem C61_gamma (m : Heston93) (hm : m.Regular) (hs : 0 < m.s) (k : ℝ) (hk : 0 < k) (t : ℝ) (hr : m.OffBranchCut t)
    (flag : TypeFlag) :
    HasDerivAt (fun s => ({ m with s := s } : Heston93).delta k t flag) (m.gamma k t flag) m.s := by
  have h1 := (P_derivs hm (v := m.v) hs hk hr .one).1
  have hg : m.callGamma k t = Real.exp (-m.q * t) * (m.S k t .one (fun phi => I * phi) / m.s) := by
    unfold callGamma S
    rw [Math.Quadrature.integrate_eq, ← List.sum_map_mul_left, div_eq_mul_inv, mul_inv, ← mul_assoc, mul_comm (Real.exp _)]
    congr 1
    rw [← List.sum_map_mul_right]
    congr 1
    apply sum_congr
    intro p hp
    have hn0 := node_ne hp
    have hF : m.Finite k t .one (node p) := finite_of (s := m.s) (v := m.v) hm hs hk t .one hn0
      (Complex.slitPlane_ne_zero (hr .one _ (node_mem hp)))
    have : m.gammaIntegrand k t (node p) = some (I * node p * m.E k t .one (node p)).re := by
      rw [gammaIntegrand, if_pos hF, E]
      congr 2
      have : (node p : ℂ) ≠ 0 := Complex.ofReal_ne_zero.2 hn0
      have hI := Complex.I_ne_zero
      field_simp
    rw [show (0.5 * (50 - 0.00001) * dec p.2 + 0.5 * (0.00001 + 50) : ℝ) = node p from rfl, this, weight]
    simp only [Option.getD_some]
    ring
  have h2 := h1.const_mul (Real.exp (-m.q * t))
  cases flag
  · exact h2.congr_deriv hg.symm
  · exact (h2.sub_const (Real.exp (-m.q * t))).congr_deriv hg.symm

/-- **C61.** The reported delta and rho are the sensitivities of the exact model, of which the quadrature is an
approximation: the true derivatives of the reported price differ from them, the error of rho being exactly `t s` times the
error of delta. -/
theorem C61_delta_rho (m : Heston93) (hm : m.Regular) (hs : 0 < m.s) (k : ℝ) (hk : 0 < k) (t : ℝ) (hr : m.OffBranchCut t)
    (flag : TypeFlag) :
    ∃ Us Ur, HasDerivAt (fun s => ({ m with s := s } : Heston93).price k t flag) Us m.s ∧
      HasDerivAt (fun r => ({ m with r := r } : Heston93).price k t flag) Ur m.r ∧
      Ur - m.rhoGreek k t flag = t * m.s * (Us - m.delta k t flag) := by
  set c : ℝ := match flag with | .call => 0 | .put => 1 with hc
  have hprice : ∀ m : Heston93, m.price k t flag =
      m.s * Real.exp (-m.q * t) * m.P k t .one - k * Real.exp (-m.r * t) * m.P k t .two
        + c * (k * Real.exp (-m.r * t) - m.s * Real.exp (-m.q * t)) := by
    intro m
    cases flag
    · change _ = _ + 0 * _
      rw [zero_mul, add_zero]
      rfl
    · change _ = _ + 1 * _
      rw [one_mul]
      rfl
  have hdelta : m.delta k t flag = Real.exp (-m.q * t) * (m.P k t .one - c) := by
    cases flag
    · change _ = _ * (_ - 0); rw [sub_zero]; rfl
    · change _ = _ * (_ - 1); simp only [delta, putDelta, callDelta]; ring
  have hrho : m.rhoGreek k t flag = k * t * Real.exp (-m.r * t) * (m.P k t .two - c) := by
    cases flag
    · change _ = _ * (_ - 0); rw [sub_zero]; rfl
    · rfl
  have hPr : ∀ j, HasDerivAt (fun r => ({ m with r := r } : Heston93).P k t j)
      (t * m.S k t j (fun phi => I * phi)) m.r := by
    intro j
    have h := hasDerivAt_S (fun r => ({ m with r := r } : Heston93)) (fun _ => k) (fun _ => t) j (fun _ _ => 1)
      (fun phi => (t : ℂ) * (I * phi)) m.r
      (by
        intro phi hphi
        simp only [one_mul]
        have hri : HasDerivAt (fun r : ℝ => (r : ℂ)) 1 m.r := by simpa using (hasDerivAt_id m.r).ofReal_comp
        have hCr : HasDerivAt (fun r => ({ m with r := r } : Heston93).C t j phi) (I * phi * t) m.r := by
          have := ((((hri.sub_const (m.q : ℂ)).mul_const I).mul_const (phi : ℂ)).mul_const (t : ℂ)).add_const
            ((m.kappa * m.theta / m.sigma ^ 2) *
              ((m.b j - m.rho * m.sigma * I * phi + m.d j phi) * t
                - 2 * Complex.log ((1 - m.g j phi * Complex.exp (m.d j phi * t)) / (1 - m.g j phi))))
          exact this.congr_deriv (by ring)
        have := (((hCr.add_const (m.D t j phi * m.v)).add_const (I * phi * Real.log m.s)).cexp.mul_const
          (Complex.exp (-I * phi * Real.log k))).div_const (I * phi)
        refine this.congr_deriv ?_
        unfold E f
        ring)
    rw [S_mul] at h
    refine (h.const_add (1/2)).congr_of_eventuallyEq (Filter.Eventually.of_forall fun x => ?_)
    apply P_eq
    intro p hp
    exact finite_of (s := m.s) (v := m.v) hm hs hk t j (node_ne hp) (Complex.slitPlane_ne_zero (hr j _ (node_mem hp)))
  have a1 := (P_derivs hm (v := m.v) hs hk hr .one).1
  have a2 := (P_derivs hm (v := m.v) hs hk hr .two).1
  simp only [hprice]
  have hid : HasDerivAt (fun s : ℝ => s * Real.exp (-m.q * t)) (Real.exp (-m.q * t)) m.s := by
    simpa using (hasDerivAt_id m.s).mul_const (Real.exp (-m.q * t))
  have her : HasDerivAt (fun r : ℝ => Real.exp (-r * t)) (-t * Real.exp (-m.r * t)) m.r := by
    simpa [mul_comm] using ((hasDerivAt_id m.r).neg.mul_const t).exp
  refine ⟨_, _, ((hid.fun_mul a1).fun_sub (a2.const_mul (k * Real.exp (-m.r * t)))).fun_add
      ((hid.const_sub (k * Real.exp (-m.r * t))).const_mul c),
    (((hPr .one).const_mul (m.s * Real.exp (-m.q * t))).fun_sub ((her.const_mul k).fun_mul (hPr .two))).fun_add
      (((her.const_mul k).sub_const (m.s * Real.exp (-m.q * t))).const_mul c), ?_⟩
  rw [hdelta, hrho]
  change _ = t * m.s * ((Real.exp (-m.q * t) * m.P k t .one + m.s * Real.exp (-m.q * t) * (m.S k t .one _ / m.s)
    - k * Real.exp (-m.r * t) * (m.S k t .two _ / m.s) + c * -Real.exp (-m.q * t)) - _)
  field_simp
  ring

end Verif.Options.Heston93
