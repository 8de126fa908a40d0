import Verif.ImpliedVol.Model
import Verif.ImpliedVol.Series

/-! Helper lemmas: the two expansions of the normalised Black function and their errors. -/

namespace Verif.ImpliedVol

open Real MeasureTheory Set
open Verif.Options.Bsm

/-- `Φ/φ` at `h + t` minus `Φ/φ` at `h - t`. -/
noncomputable def D (h t : ℝ) : ℝ := M 0 (h + t) - M 0 (h - t)

theorem black_eq (x s : ℝ) (hs : s ≠ 0) : black x s = blackVega x s * D (x / s) (s / 2) := by
  rw [black, N_eq, N_eq, n_eq, n_eq, blackVega, D]
  have e1 : exp (-(x / s + s / 2) ^ 2 / 2) * exp (x / 2) = exp (-((x / s) ^ 2 + (s / 2) ^ 2) / 2) := by
    rw [← exp_add]; congr 1; field_simp; ring
  have e2 : exp (-(x / s - s / 2) ^ 2 / 2) * exp (-x / 2) = exp (-((x / s) ^ 2 + (s / 2) ^ 2) / 2) := by
    rw [← exp_add]; congr 1; field_simp; ring
  linear_combination (√(2 * π))⁻¹ * M 0 (x / s + s / 2) * e1 - (√(2 * π))⁻¹ * M 0 (x / s - s / 2) * e2

theorem kern_shift (h t u : ℝ) : kern (h + t) u - kern (h - t) u = 2 * sinh (t * u) * kern h u := by
  rw [sinh_eq, kern, kern, kern]
  have e1 : exp ((h + t) * u - u ^ 2 / 2) = exp (t * u) * exp (h * u - u ^ 2 / 2) := by
    rw [← exp_add]; congr 1; ring
  have e2 : exp ((h - t) * u - u ^ 2 / 2) = exp (-(t * u)) * exp (h * u - u ^ 2 / 2) := by
    rw [← exp_add]; congr 1; ring
  rw [e1, e2]; ring

theorem kern_integrable (z : ℝ) : IntegrableOn (kern z) (Ioi 0) := by simpa using pow_kern_integrable 0 z

theorem M_zero_eq (z : ℝ) : M 0 z = ∫ u in Ioi (0:ℝ), kern z u := by simp [M]

theorem sinh_integrable (h t : ℝ) : IntegrableOn (fun u => 2 * sinh (t * u) * kern h u) (Ioi 0) := by
  have := (kern_integrable (h + t)).sub (kern_integrable (h - t))
  refine this.congr (Filter.Eventually.of_forall fun u => ?_)
  simp only [Pi.sub_apply, kern_shift]

theorem D_eq (h t : ℝ) : D h t = ∫ u in Ioi (0:ℝ), 2 * sinh (t * u) * kern h u := by
  rw [D, M_zero_eq, M_zero_eq, ← integral_sub (kern_integrable _) (kern_integrable _)]
  simp only [kern_shift]

/-! ### Small `t` -/

/-- The odd Taylor polynomial of `D` in `t`. -/
noncomputable def taylor (m : ℕ) (h t : ℝ) : ℝ :=
  ∑ k ∈ Finset.range m, 2 * t ^ (2 * k + 1) / (2 * k + 1).factorial * M (2 * k + 1) h

theorem sinhSum_expand (m : ℕ) (h t u : ℝ) : 2 * sinhSum m (t * u) * kern h u =
    ∑ k ∈ Finset.range m, 2 * t ^ (2 * k + 1) / (2 * k + 1).factorial * (u ^ (2 * k + 1) * kern h u) := by
  rw [sinhSum, Finset.mul_sum, Finset.sum_mul]
  refine Finset.sum_congr rfl fun k _ => ?_
  rw [mul_pow]; ring

theorem sinhSum_integrable (m : ℕ) (h t : ℝ) :
    IntegrableOn (fun u => 2 * sinhSum m (t * u) * kern h u) (Ioi 0) := by
  simp only [sinhSum_expand]
  exact integrable_finset_sum _ fun k _ => (pow_kern_integrable _ h).const_mul _

theorem taylor_eq (m : ℕ) (h t : ℝ) : taylor m h t = ∫ u in Ioi (0:ℝ), 2 * sinhSum m (t * u) * kern h u := by
  simp only [sinhSum_expand]
  rw [integral_finset_sum _ fun k _ => (pow_kern_integrable _ h).const_mul _, taylor]
  refine Finset.sum_congr rfl fun k _ => ?_
  rw [integral_const_mul]; rfl

theorem taylor_le (m : ℕ) (h t : ℝ) (ht : 0 ≤ t) : taylor m h t ≤ D h t := by
  rw [taylor_eq, D_eq]
  refine setIntegral_mono_on (sinhSum_integrable m h t) (sinh_integrable h t) measurableSet_Ioi fun u (hu : 0 < u) => ?_
  have := sinhSum_le m (t * u) (by positivity)
  have := kern_pos h u
  gcongr

theorem D_pos (h t : ℝ) (ht : 0 < t) : 0 < D h t := by
  refine lt_of_lt_of_le ?_ (taylor_le 1 h t ht.le)
  have := M_pos 1 h
  simp only [taylor, Finset.sum_range_one]
  simp; positivity

/-- The weight of the remainder. -/
theorem gauss_fifteen (c : ℝ) (hc : 0 < c) :
    IntegrableOn (fun u : ℝ => u ^ 15 * exp (-(c / 2) * u ^ 2)) (Ioi 0) ∧
      ∫ u in Ioi (0:ℝ), u ^ 15 * exp (-(c / 2) * u ^ 2) = 645120 / c ^ 8 := by
  constructor
  · have := (integrable_rpow_mul_exp_neg_mul_sq (b := c / 2) (by positivity) (s := (15:ℕ)) (by norm_num)).integrableOn
      (s := Ioi 0)
    refine this.congr (Filter.Eventually.of_forall fun u => ?_)
    simp only [rpow_natCast]
  · have h := integral_rpow_mul_exp_neg_mul_rpow (p := 2) (q := 15) (b := c / 2) (by norm_num) (by norm_num) (by positivity)
    have e : ∀ u : ℝ, u ^ (15:ℝ) * exp (-(c / 2) * u ^ (2:ℝ)) = u ^ 15 * exp (-(c / 2) * u ^ 2) := fun u => by
      rw [show (15:ℝ) = ((15:ℕ):ℝ) by norm_num, show (2:ℝ) = ((2:ℕ):ℝ) by norm_num, rpow_natCast, rpow_natCast]
    simp only [e] at h
    rw [h, show ((15:ℝ) + 1) / 2 = (7:ℕ) + 1 by norm_num, Gamma_nat_eq_factorial,
      show -((15:ℝ) + 1) / 2 = -((8:ℕ):ℝ) by norm_num, rpow_neg (by positivity), rpow_natCast]
    norm_num [Nat.factorial]
    field_simp
    norm_num

theorem weight_bound (h t : ℝ) (hh : h ≤ 0) (ht : 0 < t) (ht1 : t < 1) :
    IntegrableOn (fun u => u ^ 15 * exp (t ^ 2 * u ^ 2 / 2) * kern h u) (Ioi 0) ∧
    ∫ u in Ioi (0:ℝ), u ^ 15 * exp (t ^ 2 * u ^ 2 / 2) * kern h u ≤ 645120 / (1 - t ^ 2) ^ 8 * M 1 h := by
  have hc : 0 < 1 - t ^ 2 := by nlinarith
  obtain ⟨gi, gv⟩ := gauss_fifteen (1 - t ^ 2) hc
  have ef : ∀ u : ℝ, u ^ 14 * exp (t ^ 2 * u ^ 2 / 2) * (u * kern 0 u) = u ^ 15 * exp (-((1 - t ^ 2) / 2) * u ^ 2) :=
    fun u => by
      have : exp (t ^ 2 * u ^ 2 / 2) * kern 0 u = exp (-((1 - t ^ 2) / 2) * u ^ 2) := by
        rw [kern, ← exp_add]; congr 1; ring
      rw [← this]; ring
  have eg : ∀ u : ℝ, exp (h * u) * (u * kern 0 u) = u ^ 1 * kern h u := fun u => by
    have : exp (h * u) * kern 0 u = kern h u := by rw [kern, kern, ← exp_add]; congr 1; ring
    rw [← this]; ring
  have efg : ∀ u : ℝ, u ^ 14 * exp (t ^ 2 * u ^ 2 / 2) * (exp (h * u) * (u * kern 0 u)) =
      u ^ 15 * exp (t ^ 2 * u ^ 2 / 2) * kern h u := fun u => by rw [eg]; ring
  have fi : IntegrableOn (fun u : ℝ => u ^ 14 * exp (t ^ 2 * u ^ 2 / 2) * (u * kern 0 u)) (Ioi 0) := by
    simpa only [ef] using gi
  have fgi : IntegrableOn (fun u : ℝ => u ^ 14 * exp (t ^ 2 * u ^ 2 / 2) * (exp (h * u) * (u * kern 0 u))) (Ioi 0) := by
    refine Integrable.mono' fi (by unfold kern; fun_prop) ?_
    refine (ae_restrict_iff' measurableSet_Ioi).2 (Filter.Eventually.of_forall fun u (hu : 0 < u) => ?_)
    have hk := kern_pos 0 u
    rw [norm_of_nonneg (by positivity)]
    have : exp (h * u) ≤ 1 := exp_le_one_iff.2 (mul_nonpos_of_nonpos_of_nonneg hh hu.le)
    have hp : 0 ≤ u * kern 0 u := by positivity
    have : exp (h * u) * (u * kern 0 u) ≤ u * kern 0 u := by nlinarith
    gcongr
  have fm : MonotoneOn (fun u : ℝ => u ^ 14 * exp (t ^ 2 * u ^ 2 / 2)) (Ici 0) := fun a (ha : 0 ≤ a) b _ hab => by
    simp only; gcongr
  have hv0 : 0 ≤ ∫ u in Ioi (0:ℝ), u ^ 14 * exp (t ^ 2 * u ^ 2 / 2) * (u * kern 0 u) := by
    refine setIntegral_nonneg measurableSet_Ioi fun u (hu : 0 < u) => ?_
    have hk := kern_pos 0 u
    positivity
  set c := ∫ u in Ioi (0:ℝ), u ^ 14 * exp (t ^ 2 * u ^ 2 / 2) * (u * kern 0 u) with hcdef
  obtain ⟨u0, hu0, hf⟩ : ∃ u0, 0 ≤ u0 ∧ u0 ^ 14 * exp (t ^ 2 * u0 ^ 2 / 2) = c := by
    have hcont : ContinuousOn (fun u : ℝ => u ^ 14 * exp (t ^ 2 * u ^ 2 / 2)) (Icc 0 (max 1 c)) := by fun_prop
    have h1 : (1:ℝ) ≤ max 1 c := le_max_left _ _
    have h2 : c ≤ max 1 c := le_max_right _ _
    obtain ⟨u0, hu, he⟩ := intermediate_value_Icc (by linarith) hcont (show c ∈ _ by
      refine ⟨by simpa using hv0, ?_⟩
      have e1 : (1:ℝ) ≤ exp (t ^ 2 * (max 1 c) ^ 2 / 2) := one_le_exp (by positivity)
      have e2 : max 1 c ≤ (max 1 c) ^ 14 := le_self_pow₀ h1 (by norm_num)
      have e3 : (max 1 c) ^ 14 * 1 ≤ (max 1 c) ^ 14 * exp (t ^ 2 * (max 1 c) ^ 2 / 2) := by gcongr
      linarith)
    exact ⟨u0, hu.1, he⟩
  have h1 : ∫ u in Ioi (0:ℝ), u * kern 0 u = 1 := by
    have := M_zero_rec 0
    simpa [M] using this
  have wi : IntegrableOn (fun u => u * kern 0 u) (Ioi 0) := by simpa using pow_kern_integrable 1 0
  have gi' : IntegrableOn (fun u => exp (h * u) * (u * kern 0 u)) (Ioi 0) := by
    simpa only [eg] using pow_kern_integrable 1 h
  have := correlation (w := fun u => u * kern 0 u) (f := fun u => u ^ 14 * exp (t ^ 2 * u ^ 2 / 2))
    (g := fun u => exp (h * u)) (fun u hu => by have := kern_pos 0 u; positivity) h1 wi fi gi' fgi fm
    (fun a _ b _ hab => exp_le_exp.2 (mul_le_mul_of_nonpos_left hab hh)) u0 hu0 hf
  simp only [efg] at this fgi
  simp only [eg, ef] at this
  rw [gv] at this
  exact ⟨fgi, this⟩

/-- The remainder of the polynomial with seven terms. -/
theorem taylor_error (h t : ℝ) (hh : h ≤ 0) (ht : 0 < t) (ht1 : t < 1) :
    D h t - taylor 7 h t ≤ t ^ 14 / 1307674368000 * (645120 / (1 - t ^ 2) ^ 8) * D h t := by
  obtain ⟨wi, wb⟩ := weight_bound h t hh ht ht1
  have hD : 2 * t * M 1 h ≤ D h t := by
    have := taylor_le 1 h t ht.le
    simpa [taylor] using this
  have h1 : D h t - taylor 7 h t ≤
      ∫ u in Ioi (0:ℝ), 2 * t ^ 15 / 1307674368000 * (u ^ 15 * exp (t ^ 2 * u ^ 2 / 2) * kern h u) := by
    rw [D_eq, taylor_eq, ← integral_sub (sinh_integrable h t) (sinhSum_integrable 7 h t)]
    refine setIntegral_mono_on ((sinh_integrable h t).sub (sinhSum_integrable 7 h t)) (wi.const_mul _) measurableSet_Ioi
      fun u (hu : 0 < u) => ?_
    have e := sinh_le 7 (t * u) (by positivity)
    have e2 : cosh (t * u) ≤ exp (t ^ 2 * u ^ 2 / 2) := by
      have := cosh_le_exp_half_sq (t * u)
      rwa [mul_pow] at this
    have hk := kern_pos h u
    have e3 : sinh (t * u) - sinhSum 7 (t * u) ≤ (t * u) ^ 15 / 1307674368000 * exp (t ^ 2 * u ^ 2 / 2) := by
      have : (t * u) ^ 15 / 1307674368000 * cosh (t * u) ≤ (t * u) ^ 15 / 1307674368000 * exp (t ^ 2 * u ^ 2 / 2) := by
        gcongr
      norm_num [Nat.factorial] at e
      linarith
    calc 2 * sinh (t * u) * kern h u - 2 * sinhSum 7 (t * u) * kern h u
        = 2 * (sinh (t * u) - sinhSum 7 (t * u)) * kern h u := by ring
      _ ≤ 2 * ((t * u) ^ 15 / 1307674368000 * exp (t ^ 2 * u ^ 2 / 2)) * kern h u := by gcongr
      _ = _ := by ring
  rw [integral_const_mul] at h1
  refine h1.trans ?_
  have hc : 0 < 1 - t ^ 2 := by nlinarith
  calc _ ≤ 2 * t ^ 15 / 1307674368000 * (645120 / (1 - t ^ 2) ^ 8 * M 1 h) := by gcongr
    _ = t ^ 14 / 1307674368000 * (645120 / (1 - t ^ 2) ^ 8) * (2 * t * M 1 h) := by ring
    _ ≤ _ := by gcongr

/-- The coefficients of the code are those of the Taylor polynomial. -/
theorem smallT_taylor (h t : ℝ) : smallTExpansionSum t (1 + h * M 0 h) (t * t) (h * h) = taylor 7 h t := by
  simp only [taylor, Finset.sum_range_succ, Finset.sum_range_zero]
  have r0 := M_zero_rec h
  have r1 := M_rec 0 h; have r2 := M_rec 1 h; have r3 := M_rec 2 h; have r4 := M_rec 3 h; have r5 := M_rec 4 h
  have r6 := M_rec 5 h; have r7 := M_rec 6 h; have r8 := M_rec 7 h; have r9 := M_rec 8 h; have r10 := M_rec 9 h
  have r11 := M_rec 10 h; have r12 := M_rec 11 h
  norm_num at r1 r2 r3 r4 r5 r6 r7 r8 r9 r10 r11 r12
  norm_num [Nat.factorial]
  rw [r12, r11, r10, r9, r8, r7, r6, r5, r4, r3, r2, r1, r0, smallTExpansionSum]
  ring

end Verif.ImpliedVol
