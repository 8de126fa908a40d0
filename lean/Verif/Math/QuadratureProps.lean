import Verif.Math.Quadrature
import Mathlib.Analysis.SpecialFunctions.Integrals.Basic
import Mathlib.MeasureTheory.Integral.IntervalIntegral.Basic
import Mathlib.Tactic.Linarith
import Mathlib.Tactic.Ring
import Mathlib.Tactic.NormNum
import Mathlib.Tactic.Positivity
import Mathlib.Tactic.IntervalCases

/-!
# C55: tanh-sinh quadrature
-/

namespace Verif.Math.Quadrature

/-! ## From the loop to a weighted sum -/

/-- The rule as a list of (weight, node). -/
def rule : List ((ℤ × ℕ) × (ℤ × ℕ)) := List.zip weights abscissae

theorem table_rows : (List.range 100).map (fun i => (weights.getD i (0, 0), abscissae.getD i (0, 0))) = rule := by
  decide +kernel

theorem tanhsinh_eq (f : ℝ → ℝ) : tanhsinh f = (rule.map fun p => dec p.1 * f (dec p.2)).sum := by
  have gen : ∀ (l : List ℕ) (acc : ℝ), l.foldl (fun integral i =>
      integral + dec (weights.getD i (0, 0)) * f (dec (abscissae.getD i (0, 0)))) acc =
      acc + ((l.map (fun i => (weights.getD i (0, 0), abscissae.getD i (0, 0)))).map fun p => dec p.1 * f (dec p.2)).sum := by
    intro l
    induction l with
    | nil => intro acc; simp
    | cons i l ih => intro acc; rw [List.foldl_cons, ih]; simp only [List.map_cons, List.sum_cons]; ring
  unfold tanhsinh
  rw [gen, table_rows, zero_add]

/-! ## Facts about the tables, checked by the kernel over all hundred rows -/

/-- Every literal with at most `s` decimals, as a multiple of `10^-s`. -/
def scaled (s : ℕ) (p : ℤ × ℕ) : ℤ := p.1 * 10 ^ (s - p.2)

theorem dec_scaled {s : ℕ} {p : ℤ × ℕ} (h : p.2 ≤ s) : dec p = (scaled s p : ℝ) / 10 ^ s := by
  unfold dec scaled
  push_cast
  rw [div_eq_div_iff (by positivity) (by positivity), mul_assoc, ← pow_add, Nat.sub_add_cancel h]

theorem decimals : ∀ p ∈ rule, p.1.2 ≤ 330 ∧ p.2.2 ≤ 30 := by decide +kernel

theorem signs : ∀ p ∈ rule, 0 ≤ p.1.1 ∧ -(10 ^ p.2.2 : ℤ) ≤ p.2.1 ∧ p.2.1 ≤ 10 ^ p.2.2 := by decide +kernel

/-- `k`-th moment of the rule in units of `10^-(330 + 30 k)`. -/
def momentZ (k : ℕ) : ℤ := (rule.map fun p => scaled 330 p.1 * scaled 30 p.2 ^ k).sum

/-- `k`-th moment of the rule. -/
noncomputable def moment (k : ℕ) : ℝ := (rule.map fun p => dec p.1 * dec p.2 ^ k).sum

theorem moment_eq (k : ℕ) : moment k = (momentZ k : ℝ) / 10 ^ (330 + 30 * k) := by
  unfold moment momentZ
  have : ∀ l : List ((ℤ × ℕ) × (ℤ × ℕ)), (∀ p ∈ l, p.1.2 ≤ 330 ∧ p.2.2 ≤ 30) →
      (l.map fun p => dec p.1 * dec p.2 ^ k).sum =
      (((l.map fun p => scaled 330 p.1 * scaled 30 p.2 ^ k).sum : ℤ) : ℝ) / 10 ^ (330 + 30 * k) := by
    intro l
    induction l with
    | nil => intro _; simp
    | cons p l ih =>
      intro h
      simp only [List.map_cons, List.sum_cons]
      rw [ih (fun q hq => h q (by simp [hq])), dec_scaled (h p (by simp)).1, dec_scaled (h p (by simp)).2]
      push_cast
      rw [div_pow, div_mul_div_comm, ← pow_mul, ← pow_add, ← add_div]
  exact this rule decimals

/-- The exact moment of `[-1, 1]`, times `k + 1`. -/
def exactMoment (k : ℕ) : ℤ := if k % 2 = 0 then 2 else 0

theorem moments_small : ∀ k ∈ List.range 12,
    |(k + 1 : ℤ) * momentZ k - exactMoment k * 10 ^ (330 + 30 * k)| * 2 * 10 ^ 15 ≤ (k + 1) * 10 ^ (330 + 30 * k) := by
  decide +kernel

theorem moments_large : ∀ k ∈ List.range 41,
    |(k + 1 : ℤ) * momentZ k - exactMoment k * 10 ^ (330 + 30 * k)| * 5 * 10 ^ 9 ≤ (k + 1) * 10 ^ (330 + 30 * k) := by
  decide +kernel

theorem moment_err {k : ℕ} {M : ℤ} {e : ℝ} (hM : 0 < M) (he : e = 1 / (M : ℝ))
    (h : |(k + 1 : ℤ) * momentZ k - exactMoment k * 10 ^ (330 + 30 * k)| * M ≤ (k + 1) * 10 ^ (330 + 30 * k)) :
    |moment k - exactMoment k / (k + 1)| ≤ e := by
  have hD : (0 : ℝ) < 10 ^ (330 + 30 * k) := by positivity
  have hk : (0 : ℝ) < (k : ℝ) + 1 := by positivity
  have hM' : (0 : ℝ) < M := by exact_mod_cast hM
  rw [moment_eq, he]
  have h' : |((k : ℝ) + 1) * momentZ k - exactMoment k * 10 ^ (330 + 30 * k)| * M ≤ (k + 1) * 10 ^ (330 + 30 * k) := by
    exact_mod_cast h
  generalize (10 : ℝ) ^ (330 + 30 * k) = D at *
  have : (momentZ k : ℝ) / D - exactMoment k / (k + 1) = (((k : ℝ) + 1) * momentZ k - exactMoment k * D) / (D * (k + 1)) := by
    field_simp
  rw [this, abs_div, abs_of_pos (by positivity : 0 < D * ((k : ℝ) + 1)), div_le_div_iff₀ (by positivity) hM']
  linarith

theorem moment_err_small {k : ℕ} (hk : k ≤ 11) : |moment k - exactMoment k / (k + 1)| ≤ 5 / 10 ^ 16 := by
  refine moment_err (M := 2 * 10 ^ 15) (by norm_num) (by norm_num) ?_
  have := moments_small k (List.mem_range.2 (by omega))
  generalize (10 : ℤ) ^ (330 + 30 * k) = D at *
  linarith

theorem moment_err_large {k : ℕ} (hk : k ≤ 40) : |moment k - exactMoment k / (k + 1)| ≤ 2 / 10 ^ 10 := by
  refine moment_err (M := 5 * 10 ^ 9) (by norm_num) (by norm_num) ?_
  have := moments_large k (List.mem_range.2 (by omega))
  generalize (10 : ℤ) ^ (330 + 30 * k) = D at *
  linarith

theorem dec_weight_nonneg {p} (hp : p ∈ rule) : 0 ≤ dec p.1 := by
  have : (0 : ℝ) ≤ p.1.1 := by exact_mod_cast (signs p hp).1
  unfold dec; positivity

theorem dec_node {p} (hp : p ∈ rule) : -1 ≤ dec p.2 ∧ dec p.2 ≤ 1 := by
  obtain ⟨_, h1, h2⟩ := signs p hp
  have hD : (0 : ℝ) < 10 ^ p.2.2 := by positivity
  unfold dec
  rw [le_div_iff₀ hD, div_le_iff₀ hD]
  constructor
  · have : -((10 : ℝ) ^ p.2.2) ≤ p.2.1 := by exact_mod_cast h1
    linarith
  · have : (p.2.1 : ℝ) ≤ 10 ^ p.2.2 := by exact_mod_cast h2
    linarith

/-- Weights sum to two within `5e-16`. -/
theorem weight_sum : |(rule.map fun p => dec p.1).sum - 2| ≤ 5 / 10 ^ 16 := by
  have := moment_err_small (k := 0) (by norm_num)
  simpa [moment, exactMoment] using this

/-- A node, moved to `[a, b]`, lies in `[a, b]` (in whichever order `a` and `b` are). -/
theorem node_mem (a b : ℝ) {p} (hp : p ∈ rule) : 0.5 * (b - a) * dec p.2 + 0.5 * (a + b) ∈ Set.uIcc a b := by
  obtain ⟨h1, h2⟩ := dec_node hp
  rw [Set.mem_uIcc]
  rcases le_total a b with h | h
  · left; constructor <;> nlinarith
  · right; constructor <;> nlinarith

theorem integrate_eq (f : ℝ → Option ℝ) (a b : ℝ) : integrate f a b =
    0.5 * (b - a) * (rule.map fun p => dec p.1 * (f (0.5 * (b - a) * dec p.2 + 0.5 * (a + b))).getD 0).sum := by
  unfold integrate
  simp only
  rw [tanhsinh_eq]
  congr 3
  funext p
  cases f (0.5 * (b - a) * dec p.2 + 0.5 * (a + b)) <;> rfl

/-! ## Structural properties -/

/-- C55: the result depends only on the integrand's finite values on the closed interval: the integrand is never
evaluated outside it, and a point where it is NaN or infinite counts as zero. -/
theorem C55_local (f g : ℝ → Option ℝ) (a b : ℝ) (h : ∀ x ∈ Set.uIcc a b, (f x).getD 0 = (g x).getD 0) :
    integrate f a b = integrate g a b := by
  rw [integrate_eq, integrate_eq]
  congr 2
  apply List.map_congr_left
  intro p hp
  rw [h _ (node_mem a b hp)]

/-- Two different integrands that agree where it matters: `1/√x` (infinite at 0) and its version set to 0 there. -/
example : integrate (fun x => if x = 0 then none else some (1 / √x)) 0 1 = integrate (fun x => some (1 / √x)) 0 1 :=
  C55_local _ _ 0 1 (fun x _ => by by_cases h : x = 0 <;> simp [h])

/-- C55: linear in the integrand. -/
theorem C55_linear (f g : ℝ → ℝ) (α β a b : ℝ) :
    integrate (fun x => some (α * f x + β * g x)) a b =
      α * integrate (fun x => some (f x)) a b + β * integrate (fun x => some (g x)) a b := by
  simp only [integrate_eq, Option.getD_some]
  generalize rule = l
  have : ∀ l : List ((ℤ × ℕ) × (ℤ × ℕ)), ∀ u v : (ℤ × ℕ) × (ℤ × ℕ) → ℝ,
      (l.map fun p => dec p.1 * (α * u p + β * v p)).sum =
      α * (l.map fun p => dec p.1 * u p).sum + β * (l.map fun p => dec p.1 * v p).sum := by
    intro l u v
    induction l with
    | nil => simp
    | cons p l ih => simp only [List.map_cons, List.sum_cons, ih]; ring
  rw [this l (fun p => f (0.5 * (b - a) * dec p.2 + 0.5 * (a + b))) (fun p => g (0.5 * (b - a) * dec p.2 + 0.5 * (a + b)))]
  ring

/-- C55: monotone in the integrand over a forward interval. -/
theorem C55_monotone (f g : ℝ → ℝ) (a b : ℝ) (hab : a ≤ b) (h : ∀ x ∈ Set.Icc a b, f x ≤ g x) :
    integrate (fun x => some (f x)) a b ≤ integrate (fun x => some (g x)) a b := by
  simp only [integrate_eq, Option.getD_some]
  apply mul_le_mul_of_nonneg_left _ (by linarith)
  apply List.sum_le_sum
  intro p hp
  apply mul_le_mul_of_nonneg_left _ (dec_weight_nonneg hp)
  apply h
  rw [← Set.uIcc_of_le hab]
  exact node_mem a b hp

example := C55_monotone (fun x => x) (fun x => x ^ 2) 1 2 (by norm_num) (fun x hx => by nlinarith [hx.1])

/-- C55: an integrand bounded by `M` gives a result bounded by `M (b - a)`, up to a relative `2.5e-16`. -/
theorem C55_bounded (f : ℝ → Option ℝ) (a b M : ℝ) (hab : a ≤ b) (h : ∀ x ∈ Set.Icc a b, |(f x).getD 0| ≤ M) :
    |integrate f a b| ≤ M * (b - a) * (1 + 2.5 / 10 ^ 16) := by
  have hM : 0 ≤ M := le_trans (abs_nonneg _) (h a ⟨le_rfl, hab⟩)
  have key : ∀ l : List ((ℤ × ℕ) × (ℤ × ℕ)), (∀ p ∈ l, p ∈ rule) →
      |(l.map fun p => dec p.1 * (f (0.5 * (b - a) * dec p.2 + 0.5 * (a + b))).getD 0).sum| ≤
        M * (l.map fun p => dec p.1).sum := by
    intro l
    induction l with
    | nil => simp
    | cons p l ih =>
      intro hl
      have h1 := ih (fun q hq => hl q (by simp [hq]))
      have h2 := h _ (by rw [← Set.uIcc_of_le hab]; exact node_mem a b (hl p (by simp)))
      have h3 := dec_weight_nonneg (hl p (by simp))
      simp only [List.map_cons, List.sum_cons]
      refine le_trans (abs_add_le _ _) ?_
      rw [abs_mul, abs_of_nonneg h3]
      have := mul_le_mul_of_nonneg_left h2 h3
      linarith
  have h1 := key rule (fun _ h => h)
  have h2 := (abs_le.1 weight_sum).2
  rw [integrate_eq, abs_mul, abs_of_nonneg (by linarith : (0 : ℝ) ≤ 0.5 * (b - a))]
  have h3 : M * (rule.map fun p => dec p.1).sum ≤ M * (2 + 5 / 10 ^ 16) := mul_le_mul_of_nonneg_left (by linarith) hM
  have h4 := mul_le_mul_of_nonneg_left (h1.trans h3) (by linarith : (0 : ℝ) ≤ 0.5 * (b - a))
  refine h4.trans (le_of_eq ?_)
  ring

example := C55_bounded (fun x => some (x ^ 2)) 0 2 4 (by norm_num) (fun x hx => by
  simp only [Option.getD_some]
  rw [abs_of_nonneg (by positivity)]
  nlinarith [hx.1, hx.2])

/-- C55: an empty interval integrates to zero; an integrand that is nowhere finite integrates to zero, silently. -/
theorem C55_zero (f : ℝ → Option ℝ) (a b : ℝ) : integrate f a a = 0 ∧ ((∀ x, f x = none) → integrate f a b = 0) := by
  constructor
  · rw [integrate_eq]; simp
  · intro h; rw [integrate_eq]; simp [h]

/-! ## Accuracy -/

/-- The polynomial with coefficients `q 0, ..., q n` about the midpoint of `a` and `b`. -/
noncomputable def poly (q : ℕ → ℝ) (n : ℕ) (a b x : ℝ) : ℝ := ∑ k ∈ Finset.range (n + 1), q k * (x - (a + b) / 2) ^ k

theorem exact_integral (k : ℕ) (a b : ℝ) :
    ∫ x in a..b, (x - (a + b) / 2) ^ k = ((b - a) / 2) ^ (k + 1) * (exactMoment k / (k + 1)) := by
  rw [intervalIntegral.integral_comp_sub_right (fun x => x ^ k), integral_pow]
  have h1 : b - (a + b) / 2 = (b - a) / 2 := by ring
  have h2 : a - (a + b) / 2 = -((b - a) / 2) := by ring
  rw [h1, h2]
  unfold exactMoment
  split_ifs with h
  · rw [Odd.neg_pow (by rw [Nat.odd_iff]; omega)]; push_cast; ring
  · rw [Even.neg_pow (by rw [Nat.even_iff]; omega)]; simp

theorem integrate_poly (q : ℕ → ℝ) (n : ℕ) (a b : ℝ) :
    integrate (fun x => some (poly q n a b x)) a b =
      ∑ k ∈ Finset.range (n + 1), q k * ((b - a) / 2) ^ (k + 1) * moment k := by
  simp only [integrate_eq, Option.getD_some]
  unfold moment poly
  generalize rule = l
  induction l with
  | nil => simp
  | cons p l ih =>
    simp only [List.map_cons, List.sum_cons]
    rw [mul_add, ih]
    simp_rw [mul_add (q _ * _), Finset.sum_add_distrib]
    congr 1
    rw [Finset.mul_sum, Finset.mul_sum]
    apply Finset.sum_congr rfl
    intro k _
    have : (0.5 * (b - a) * dec p.2 + 0.5 * (a + b) - (a + b) / 2) = (b - a) / 2 * dec p.2 := by ring
    rw [this, mul_pow, pow_succ]
    ring

theorem integral_poly (q : ℕ → ℝ) (n : ℕ) (a b : ℝ) :
    ∫ x in a..b, poly q n a b x =
      ∑ k ∈ Finset.range (n + 1), q k * ((b - a) / 2) ^ (k + 1) * (exactMoment k / (k + 1)) := by
  unfold poly
  rw [intervalIntegral.integral_finsetSum]
  · apply Finset.sum_congr rfl
    intro k _
    rw [intervalIntegral.integral_const_mul, exact_integral]; ring
  · intro k _
    exact (Continuous.intervalIntegrable (by fun_prop) _ _)

theorem poly_error (q : ℕ → ℝ) (n : ℕ) (a b e : ℝ) (he : ∀ k, k ≤ n → |moment k - exactMoment k / (k + 1)| ≤ e) :
    |integrate (fun x => some (poly q n a b x)) a b - ∫ x in a..b, poly q n a b x| ≤
      e * ∑ k ∈ Finset.range (n + 1), |q k| * |(b - a) / 2| ^ (k + 1) := by
  rw [integrate_poly, integral_poly, ← Finset.sum_sub_distrib, Finset.mul_sum]
  refine le_trans (Finset.abs_sum_le_sum_abs _ _) (Finset.sum_le_sum ?_)
  intro k hk
  rw [← mul_sub, abs_mul, abs_mul, abs_pow, mul_comm e]
  exact mul_le_mul_of_nonneg_left (he k (by rw [Finset.mem_range] at hk; omega)) (by positivity)

/-- C55: polynomials. For every interval (in either orientation) and every polynomial, written about the midpoint, the
result is the integral up to `2e-10` for degrees to 40 and `5e-16` for degrees to 11, relative to
`Σ |q_k| |(b-a)/2|^(k+1)`. -/
theorem C55_polynomial (q : ℕ → ℝ) (n : ℕ) (a b : ℝ) :
    (n ≤ 40 → |integrate (fun x => some (poly q n a b x)) a b - ∫ x in a..b, poly q n a b x| ≤
      2 / 10 ^ 10 * ∑ k ∈ Finset.range (n + 1), |q k| * |(b - a) / 2| ^ (k + 1)) ∧
    (n ≤ 11 → |integrate (fun x => some (poly q n a b x)) a b - ∫ x in a..b, poly q n a b x| ≤
      5 / 10 ^ 16 * ∑ k ∈ Finset.range (n + 1), |q k| * |(b - a) / 2| ^ (k + 1)) :=
  ⟨fun h => poly_error q n a b _ (fun _ hk => moment_err_large (by omega)),
   fun h => poly_error q n a b _ (fun _ hk => moment_err_small (by omega))⟩

/-- The case of a constant over `[0, 2]`: the result is `2c` up to `5e-16 |c|`. -/
example (c : ℝ) : |integrate (fun _ => some c) 0 2 - 2 * c| ≤ 5 / 10 ^ 16 * |c| := by
  have := (C55_polynomial (fun _ => c) 0 0 2).2 (by norm_num)
  simpa [poly] using this

/-- C55: general integrands. An integrand finite on `[a, b]` and within `η` of such a polynomial there is integrated
with error at most the polynomial's error plus `η (b - a) (2 + 2.5e-16)`. -/
theorem C55_accuracy (f : ℝ → ℝ) (q : ℕ → ℝ) (n : ℕ) (a b η : ℝ) (hab : a ≤ b) (hn : n ≤ 40)
    (hf : IntervalIntegrable f MeasureTheory.volume a b) (h : ∀ x ∈ Set.Icc a b, |f x - poly q n a b x| ≤ η) :
    |integrate (fun x => some (f x)) a b - ∫ x in a..b, f x| ≤
      2 / 10 ^ 10 * (∑ k ∈ Finset.range (n + 1), |q k| * ((b - a) / 2) ^ (k + 1)) + η * (b - a) * (2 + 2.5 / 10 ^ 16) := by
  have h1 := (C55_polynomial q n a b).1 hn
  rw [abs_of_nonneg (by linarith : (0 : ℝ) ≤ (b - a) / 2)] at h1
  have h2 := C55_bounded (fun x => some (f x - poly q n a b x)) a b η hab h
  have h3 : integrate (fun x => some (f x - poly q n a b x)) a b =
      integrate (fun x => some (f x)) a b - integrate (fun x => some (poly q n a b x)) a b := by
    have := C55_linear f (poly q n a b) 1 (-1) a b
    simp only [one_mul, neg_mul, ← sub_eq_add_neg] at this
    exact this
  rw [h3] at h2
  have hp : IntervalIntegrable (poly q n a b) MeasureTheory.volume a b :=
    Continuous.intervalIntegrable (by unfold poly; fun_prop) _ _
  have h4 : |(∫ x in a..b, poly q n a b x) - ∫ x in a..b, f x| ≤ η * (b - a) := by
    rw [← intervalIntegral.integral_sub hp hf]
    have := intervalIntegral.norm_integral_le_of_norm_le_const (a := a) (b := b) (C := η)
      (f := fun x => poly q n a b x - f x) (fun x hx => by
        rw [Real.norm_eq_abs, abs_sub_comm]
        rw [Set.uIoc_of_le hab] at hx
        exact h x ⟨hx.1.le, hx.2⟩)
    rw [Real.norm_eq_abs, abs_of_nonneg (by linarith : 0 ≤ b - a)] at this
    exact this
  rw [abs_le] at *
  constructor <;> linarith [h1.1, h1.2, h2.1, h2.2, h4.1, h4.2]

/-- Hypotheses met: `|x|` on `[-1, 1]` is within `1/2` of the constant `1/2`. -/
example : |integrate (fun x => some |x|) (-1) 1 - (∫ x in (-1 : ℝ)..1, |x|)| ≤
    2 / 10 ^ 10 * (∑ k ∈ Finset.range 1, |(fun _ => 1 / 2 : ℕ → ℝ) k| * ((1 - (-1)) / 2) ^ (k + 1)) +
      1 / 2 * (1 - (-1)) * (2 + 2.5 / 10 ^ 16) := by
  refine C55_accuracy (fun x => |x|) (fun _ => 1 / 2) 0 (-1) 1 (1 / 2) (by norm_num) (by norm_num)
    (Continuous.intervalIntegrable (by fun_prop) _ _) (fun x hx => ?_)
  have h1 : |x| ≤ 1 := abs_le.2 hx
  have h2 := abs_nonneg x
  simp only [poly, zero_add, Finset.sum_range_one, pow_zero, mul_one]
  rw [abs_le]
  constructor <;> linarith

end Verif.Math.Quadrature
