import Verif.Float.MomentsLemmas

/-! Helper lemmas: sums of rounded powers, and the factors in front of them. -/

namespace Verif.Float.Corr
open Verif.Float Verif.Float.Fft Verif.Float.Sim Verif.Float.Bsm

/-! ## Sums -/

theorem near_sums {α : Type} (f : α → ℝ) (ρ τ : ℝ) (xs : List α) (cs : List F64)
    (h : List.Forall₂ (fun x c => Near c (f x) ρ τ) xs cs) :
    |(exactSum cs : ℝ) - (xs.map f).sum| ≤ ρ * (xs.map fun x => |f x|).sum + xs.length * τ ∧
    (absSum cs : ℝ) ≤ (1 + ρ) * (xs.map fun x => |f x|).sum + xs.length * τ ∧ cs.length = xs.length := by
  induction h with
  | nil => simp [exactSum, absSum]
  | @cons x c xs cs hxc _ ih =>
    obtain ⟨i1, i2, i3⟩ := ih
    rw [exactSum_cons, absSum_cons, List.map_cons, List.map_cons, List.sum_cons, List.sum_cons]
    have hb := near_abs hxc
    unfold Near at hxc
    unfold F64.real at hxc hb
    push_cast
    refine ⟨?_, ?_, by simp [i3]⟩
    · rw [show (c.val : ℝ) + exactSum cs - (f x + (xs.map f).sum) = ((c.val : ℝ) - f x) + (exactSum cs - (xs.map f).sum) by ring]
      refine (abs_add_le _ _).trans ?_
      simp only [List.length_cons]
      push_cast
      linarith
    · simp only [List.length_cons]
      push_cast
      linarith

theorem small_sum {n : ℕ} (h : n ≤ 2 ^ 40) : (n : ℝ) * tau ≤ ur / 4 := by
  have h1 : (n : ℝ) ≤ 2 ^ (40 : ℤ) := by exact_mod_cast h
  unfold tau ur
  refine (mul_le_mul_of_nonneg_right h1 (by positivity)).trans ?_
  rw [← zpow_add₀ (by norm_num), le_div_iff₀ (by norm_num), show (4 : ℝ) = 2 ^ (2 : ℤ) by norm_num, ← zpow_add₀ (by norm_num)]
  exact zpow_le_zpow_right₀ (by norm_num) (by norm_num)

theorem sum_near {α : Type} (f : α → ℝ) (ρ X : ℝ) (xs : List α) (cs : List F64)
    (h : List.Forall₂ (fun x c => Near c (f x) ρ tau) xs cs) (hn : xs.length ≤ 2 ^ 40) (r0 : 0 ≤ ρ) (r1 : ρ ≤ 1 / 8)
    (hX : (xs.map fun x => |f x|).sum ≤ X) (x1 : 1 ≤ X) (hX' : X ≤ 2 ^ 100) :
    ∃ S, sum cs = some S ∧ |F64.real S - (xs.map f).sum| ≤ (ρ + 9 / 4 * (ur * xs.length) + ur) * X := by
  obtain ⟨e1, e2, e3⟩ := near_sums f ρ tau xs cs h
  have hu := ur_pos
  have hu1 := ur_small
  have ht := small_sum hn
  have a1 : (absSum cs : ℝ) ≤ 9 / 8 * X + ur / 4 := by
    have h1 : (1 + ρ) * (xs.map fun x => |f x|).sum ≤ 9 / 8 * X := by
      refine (mul_le_mul_of_nonneg_left hX (by linarith)).trans (mul_le_mul_of_nonneg_right (by linarith) (by linarith))
    linarith
  have a2 : absSum cs < 2 ^ 1022 := by
    have h2 : (absSum cs : ℝ) ≤ 2 ^ 101 := by
      refine a1.trans ?_
      have : (2 : ℝ) ^ 101 = 2 * 2 ^ 100 := by rw [pow_succ]; ring
      rw [this]
      have : (1 : ℝ) ≤ 2 ^ 100 := one_le_pow₀ (by norm_num)
      linarith
    have h3 : absSum cs ≤ 2 ^ 101 := by exact_mod_cast h2
    exact h3.trans_lt (pow_lt_pow_right₀ (by norm_num) (by norm_num))
  have hlen : cs.length ≤ 2 ^ 52 := by rw [e3]; exact hn.trans (by norm_num)
  obtain ⟨S, hS⟩ := sum_total cs hlen a2
  refine ⟨S, hS, ?_⟩
  have h4 := sum_error cs hlen S hS
  have h5 : |F64.real S - exactSum cs| ≤ 2 * ur * xs.length * absSum cs := by
    have h6 : ((|S.val - exactSum cs| : ℚ) : ℝ) ≤ (((cs.length - 1 : ℕ) * 2 ^ (-52 : ℤ) * absSum cs : ℚ) : ℝ) := by exact_mod_cast h4
    push_cast at h6
    unfold F64.real
    refine h6.trans ?_
    have h7 : ((cs.length - 1 : ℕ) : ℝ) ≤ xs.length := by rw [e3]; exact_mod_cast Nat.sub_le _ _
    have h8 : (0 : ℝ) ≤ absSum cs := by exact_mod_cast absSum_nonneg cs
    have h9 : (2 : ℝ) ^ (-52 : ℤ) = 2 * ur := by unfold ur; norm_num
    rw [h9]
    have := mul_le_mul_of_nonneg_right (mul_le_mul_of_nonneg_right h7 (show 0 ≤ 2 * ur by linarith)) h8
    linarith
  have hl : (0 : ℝ) ≤ xs.length := by positivity
  have h10 : 2 * ur * xs.length * absSum cs ≤ 2 * ur * xs.length * (9 / 8 * X + ur / 4) :=
    mul_le_mul_of_nonneg_left a1 (by positivity)
  have hun : ur * (xs.length : ℝ) ≤ 1 := by
    have h1 : (xs.length : ℝ) ≤ 2 ^ 40 := by exact_mod_cast hn
    refine (mul_le_mul_of_nonneg_left h1 hu.le).trans ?_
    unfold ur; norm_num
  have h11 : ur * xs.length * ur ≤ 1 * ur := mul_le_mul_of_nonneg_right hun hu.le
  have h12 : ur * 1 ≤ ur * X := mul_le_mul_of_nonneg_left x1 hu.le
  have h13 : ρ * (xs.map fun x => |f x|).sum ≤ ρ * X := mul_le_mul_of_nonneg_left hX r0
  rw [show F64.real S - (xs.map f).sum = (F64.real S - exactSum cs) + (exactSum cs - (xs.map f).sum) by ring]
  refine (abs_add_le _ _).trans ?_
  linarith

theorem sub_val {x m d : F64} (h : x.sub m = some d) : F64.real d = dv m x := by
  unfold F64.real dv
  rw [toF64_some h]

theorem powerSum_near (k : ℕ) (power : F64 → Option F64) (ρ X : ℝ) (m σ : F64) (xs : List F64) {a γ : ℝ} (ha : 0 < a) (g0 : 0 ≤ γ)
    (g1 : γ ≤ 1 / 8) (hσ : |F64.real σ - a| ≤ γ * a) (hgood : ∀ x ∈ xs, ∃ d, x.sub m = some d ∧ Good d)
    (hw : ∀ x ∈ xs, |(dv m x : ℝ) / a| ≤ 2 ^ 20)
    (hpow : ∀ z : F64, ∀ w : ℝ, |w| ≤ 2 ^ 20 → Near z w (8 / 7 * γ + 2 * ur) mu → ∃ c, power z = some c ∧ Near c (w ^ k) ρ tau)
    (hn : xs.length ≤ 2 ^ 40) (r0 : 0 ≤ ρ) (r1 : ρ ≤ 1 / 8)
    (hX : (xs.map fun x => |((dv m x : ℝ) / a) ^ k|).sum ≤ X) (x1 : 1 ≤ X) (hX' : X ≤ 2 ^ 100) :
    ∃ S, powerSum power m σ xs = some S ∧
      |F64.real S - (xs.map fun x => ((dv m x : ℝ) / a) ^ k).sum| ≤ (ρ + 9 / 4 * (ur * xs.length) + ur) * X := by
  obtain ⟨cs, hc, hF⟩ := mapM_total (fun x => do power (← (← F64.sub x m).div σ)) (fun x c => Near c (((dv m x : ℝ) / a) ^ k) ρ tau) xs (by
    intro x hx
    obtain ⟨d, hd, -⟩ := hgood x hx
    obtain ⟨z, hz, hze⟩ := standard_near (d := d) (w := (dv m x : ℝ) / a) ha g0 g1 hσ (by rw [sub_val hd]) (hw x hx)
    obtain ⟨c, hc, hce⟩ := hpow z _ (hw x hx) hze
    exact ⟨c, by simp only [Option.bind_eq_bind, Option.bind_some, hd, hz, hc], hce⟩)
  obtain ⟨S, hS, hSe⟩ := sum_near _ ρ X xs cs hF hn r0 r1 hX x1 hX'
  refine ⟨S, ?_, hSe⟩
  unfold powerSum
  rw [hc]
  exact hS

/-! ## Factors -/

theorem nat_sub {L k : ℕ} {n : F64} (hnv : n.val = L) (hk : k ≤ L) (hL : L ≤ 2 ^ 40) :
    ∃ o r, ofNat k = some o ∧ n.sub o = some r ∧ F64.real r = L - k := by
  obtain ⟨o, ho, hov⟩ := ofNat_small k (by omega)
  obtain ⟨r, hr, hrv⟩ := ofNat_small (L - k) (by omega)
  refine ⟨o, r, ho, ?_, ?_⟩
  · have e : n.val - o.val = ((L - k : ℕ) : ℚ) := by rw [hnv, hov, Nat.cast_sub hk]
    unfold F64.sub
    rw [e]
    exact hr
  · unfold F64.real
    rw [hrv, Nat.cast_sub hk]
    push_cast
    rfl

theorem nat_add {L k : ℕ} {n : F64} (hnv : n.val = L) (hk : k ≤ 10) (hL : L ≤ 2 ^ 40) :
    ∃ o r, ofNat k = some o ∧ n.add o = some r ∧ F64.real r = L + k := by
  obtain ⟨o, ho, hov⟩ := ofNat_small k (by omega)
  obtain ⟨r, hr, hrv⟩ := ofNat_small (L + k) (by omega)
  refine ⟨o, r, ho, ?_, ?_⟩
  · have e : n.val + o.val = ((L + k : ℕ) : ℚ) := by rw [hnv, hov, Nat.cast_add]
    unfold F64.add
    rw [e]
    exact hr
  · unfold F64.real
    rw [hrv]
    push_cast
    rfl

/-- A relative error alone, for products that are at least 1. -/
theorem near_one {x : F64} {X ρ : ℝ} (h : Near x X ρ mu) (h1 : 1 ≤ X) : Near x X (ρ + ur) 0 := by
  unfold Near at h ⊢
  have h2 := mu_le
  have h3 := ur_pos
  rw [abs_of_pos (show 0 < X by linarith)] at h ⊢
  have : ur * 1 ≤ ur * X := mul_le_mul_of_nonneg_left h1 h3.le
  linarith

theorem mulOne {x y : F64} {X Y ρ₁ ρ₂ : ℝ} (h1 : 0 ≤ ρ₁) (h1' : ρ₁ ≤ 10 * ur) (h2 : 0 ≤ ρ₂) (h2' : ρ₂ ≤ 10 * ur)
    (hX : 1 ≤ X) (hY : 1 ≤ Y) (hX' : X ≤ 2 ^ 125) (hY' : Y ≤ 2 ^ 125) (hx : Near x X ρ₁ 0) (hy : Near y Y ρ₂ 0) :
    ∃ p, x.mul y = some p ∧ Near p (X * Y) (ρ₁ + ρ₂ + 7 / 2 * ur) 0 := by
  have hu := ur_pos
  have hu1 := ur_small
  obtain ⟨p, hp, hpe⟩ := mulNear h1 (by linarith) h2 (by linarith) le_rfl (by norm_num) le_rfl (by norm_num)
    (by rw [abs_of_pos (by linarith)]; exact hX') (by rw [abs_of_pos (by linarith)]; exact hY') hx hy
  refine ⟨p, hp, ?_⟩
  have h3 : Near p (X * Y) (ρ₁ + ρ₂ + ρ₁ * ρ₂ + 2 * ur) mu := near_mono hpe le_rfl (by rw [_root_.add_zero, mul_zero, _root_.zero_add])
  have h4 : 1 ≤ X * Y := by nlinarith
  refine near_mono (near_one h3 h4) ?_ le_rfl
  have : ρ₁ * ρ₂ ≤ (10 * ur) * (10 * ur) := mul_le_mul h1' h2' h2 (by positivity)
  have : ur * ur ≤ 1 / 1000000 * ur := mul_le_mul_of_nonneg_right hu1 hu.le
  linarith

theorem real_of {n : F64} {L : ℕ} (h : n.val = L) : F64.real n = L := by
  unfold F64.real; rw [h]; push_cast; rfl

theorem exact_near {x : F64} {X : ℝ} (h : F64.real x = X) : Near x X 0 0 := by rw [← h]; exact near_self x

theorem size_le {x : ℝ} {L : ℕ} (hL : L ≤ 2 ^ 40) (h : x ≤ L + 1) : x ≤ 2 ^ 125 := by
  have h1 : (L : ℝ) ≤ 2 ^ 40 := by exact_mod_cast hL
  have h2 : (2 : ℝ) ^ 40 + 1 ≤ 2 ^ 125 := by norm_num
  linarith

theorem scaleSkew_near {t n : F64} {L : ℕ} (hnv : n.val = L) (h3 : 3 ≤ L) (hL : L ≤ 2 ^ 40) (ht : |F64.real t| ≤ 2 ^ 85) :
    ∃ r, scaleSkew t n = some r ∧ Near r (F64.real t * L / ((L - 1) * (L - 2))) (9 * ur) (3 * mu) := by
  have hu := ur_pos
  have hu1 := ur_small
  have hm := mu_pos
  have hm1 := mu_le
  have hL3 : (3 : ℝ) ≤ L := by exact_mod_cast h3
  have hL40 : (L : ℝ) ≤ 2 ^ 40 := by exact_mod_cast hL
  obtain ⟨o1, n1, ho1, hn1, e1⟩ := nat_sub (k := 1) hnv (by omega) hL
  obtain ⟨o2, n2, ho2, hn2, e2⟩ := nat_sub (k := 2) hnv (by omega) hL
  push_cast at e1 e2
  obtain ⟨p, hp, hpe⟩ := mulNear (x := t) (y := n) le_rfl (by norm_num) le_rfl (by norm_num) le_rfl (by norm_num) le_rfl (by norm_num)
    (ht.trans (pow_le_pow_right₀ (by norm_num) (by norm_num))) (Y := (L : ℝ)) (by rw [abs_of_pos (by linarith)]; exact size_le hL (by linarith))
    (near_self t) (exact_near (real_of hnv))
  obtain ⟨q, hq, hqe⟩ := mulOne le_rfl (by linarith) le_rfl (by linarith) (X := (L : ℝ) - 1) (Y := (L : ℝ) - 2) (by linarith) (by linarith)
    (size_le hL (by linarith)) (size_le hL (by linarith)) (exact_near e1) (exact_near e2)
  obtain ⟨r, hr, hre⟩ := divNear (P := F64.real t * L) (Q := (L - 1) * (L - 2)) (ρ := 2 * ur) (τ := mu) (κ := 7 / 2 * ur) (by linarith) (by linarith) hm.le (by linarith)
    (by linarith) (by linarith) (by
      rw [abs_mul, abs_of_pos (show (0 : ℝ) < L by linarith)]
      calc |F64.real t| * L ≤ 2 ^ 85 * 2 ^ 40 := mul_le_mul ht hL40 (by linarith) (by positivity)
        _ ≤ 2 ^ 250 := by rw [← pow_add]; exact pow_le_pow_right₀ (by norm_num) (by norm_num)) (by nlinarith)
    (near_mono hpe (by linarith) (by linarith)) (near_mono hqe (by linarith) le_rfl)
  refine ⟨r, ?_, near_mono hre (by linarith) (by linarith)⟩
  unfold scaleSkew
  simp only [Option.bind_eq_bind, Option.bind_some, hp, ho1, hn1, ho2, hn2, hq, hr]

theorem scaleKurt_near {t n : F64} {L : ℕ} (hnv : n.val = L) (h4 : 4 ≤ L) (hL : L ≤ 2 ^ 40) (ht : |F64.real t| ≤ 2 ^ 84) :
    ∃ r, scaleKurt t n = some r ∧
      |F64.real r - (F64.real t * L * (L + 1) / ((L - 1) * (L - 2) * (L - 3)) - 3 * ((L - 1) * (L - 1)) / ((L - 2) * (L - 3)))| ≤
        22 * ur * (|F64.real t * L * (L + 1) / ((L - 1) * (L - 2) * (L - 3))| + 3 * ((L - 1) * (L - 1)) / ((L - 2) * (L - 3))) + ur / 2 := by
  have hu := ur_pos
  have hu1 := ur_small
  have hm := mu_pos
  have hm1 := mu_le
  have hL4 : (4 : ℝ) ≤ L := by exact_mod_cast h4
  have hL40 : (L : ℝ) ≤ 2 ^ 40 := by exact_mod_cast hL
  obtain ⟨o1, n1, ho1, hn1, e1⟩ := nat_sub (k := 1) hnv (by omega) hL
  obtain ⟨o2, n2, ho2, hn2, e2⟩ := nat_sub (k := 2) hnv (by omega) hL
  obtain ⟨o3, n3, ho3, hn3, e3⟩ := nat_sub (k := 3) hnv (by omega) hL
  obtain ⟨o1', np, ho1', hnp, ep⟩ := nat_add (k := 1) hnv (by omega) hL
  have ho11 : o1' = o1 := by rw [ho1] at ho1'; exact (Option.some.inj ho1').symm
  subst ho11
  have e3' : F64.real o3 = 3 := by
    obtain ⟨o, ho, hov⟩ := ofNat_small 3 (by norm_num)
    rw [ho3] at ho
    cases ho
    unfold F64.real
    rw [hov]; norm_num
  push_cast at e1 e2 e3 ep
  have s0 : (2 : ℝ) ^ 40 * 2 ^ 85 = 2 ^ 125 := by rw [← pow_add]
  -- the first numerator
  obtain ⟨p, hp, hpe⟩ := mulNear (x := t) (y := n) le_rfl (by norm_num) le_rfl (by norm_num) le_rfl (by norm_num) le_rfl (by norm_num)
    (ht.trans (pow_le_pow_right₀ (by norm_num) (by norm_num))) (Y := (L : ℝ)) (by rw [abs_of_pos (by linarith)]; exact size_le hL (by linarith))
    (near_self t) (exact_near (real_of hnv))
  have hpe' : Near p (F64.real t * L) (2 * ur) mu := near_mono hpe (by linarith) (by linarith)
  have htl : |F64.real t * L| ≤ 2 ^ 124 := by
    rw [abs_mul, abs_of_pos (show (0 : ℝ) < L by linarith)]
    calc |F64.real t| * L ≤ 2 ^ 84 * 2 ^ 40 := mul_le_mul ht hL40 (by linarith) (by positivity)
      _ = 2 ^ 124 := by rw [← pow_add]
  obtain ⟨p', hp', hpe2⟩ := mulNear (x := p) (y := np) (by linarith) (by linarith) le_rfl (by norm_num) hm.le (by linarith) le_rfl (by norm_num)
    (htl.trans (pow_le_pow_right₀ (by norm_num) (by norm_num))) (Y := (L : ℝ) + 1) (by rw [abs_of_pos (by linarith)]; exact size_le hL (by linarith))
    hpe' (exact_near ep)
  have hms : (2 : ℝ) ^ 128 * mu ≤ ur / 16 := by
    refine (mu_scale 128 (-100) (by norm_num)).trans ?_
    unfold ur; norm_num
  have hpe3 : Near p' (F64.real t * L * (L + 1)) (4 * ur) (ur / 16) := by
    refine near_mono hpe2 (by linarith) ?_
    refine le_trans ?_ hms
    norm_num
    linarith
  -- the denominators
  obtain ⟨q, hq, hqe⟩ := mulOne le_rfl (by linarith) le_rfl (by linarith) (X := (L : ℝ) - 1) (Y := (L : ℝ) - 2) (by linarith) (by linarith)
    (size_le hL (by linarith)) (size_le hL (by linarith)) (exact_near e1) (exact_near e2)
  have s1 : ((L : ℝ) - 1) * (L - 2) ≤ 2 ^ 125 := by
    calc ((L : ℝ) - 1) * (L - 2) ≤ 2 ^ 40 * 2 ^ 85 := by
          have h1 : (2 : ℝ) ^ 40 ≤ 2 ^ 85 := pow_le_pow_right₀ (by norm_num) (by norm_num)
          exact mul_le_mul (by linarith) (by linarith) (by linarith) (by positivity)
      _ = 2 ^ 125 := s0
  obtain ⟨q', hq', hqe2⟩ := mulOne (by linarith) (by linarith) le_rfl (by linarith) (X := ((L : ℝ) - 1) * (L - 2)) (Y := (L : ℝ) - 3) (by nlinarith) (by linarith)
    s1 (size_le hL (by linarith)) hqe (exact_near e3)
  obtain ⟨a, ha, hae⟩ := divNear (P := F64.real t * L * (L + 1)) (Q := (L - 1) * (L - 2) * (L - 3)) (ρ := 4 * ur) (τ := ur / 16) (κ := 7 * ur) (by linarith) (by linarith)
    (by linarith) (by linarith) (by linarith) (by linarith) (by
      rw [abs_mul, abs_of_pos (show (0 : ℝ) < L + 1 by linarith)]
      calc |F64.real t * L| * (L + 1) ≤ 2 ^ 124 * 2 ^ 125 := mul_le_mul htl (size_le hL le_rfl) (by linarith) (by positivity)
        _ ≤ 2 ^ 250 := by rw [← pow_add]; exact pow_le_pow_right₀ (by norm_num) (by norm_num)) (by
          have h1 : (1 : ℝ) ≤ (L - 1) * (L - 2) := by nlinarith
          nlinarith)
    hpe3 (near_mono hqe2 (by linarith) le_rfl)
  -- the second term
  have s2 : ((L : ℝ) - 1) * (L - 1) ≤ 2 ^ 125 := by
    calc ((L : ℝ) - 1) * (L - 1) ≤ 2 ^ 40 * 2 ^ 85 := by
          have h1 : (2 : ℝ) ^ 40 ≤ 2 ^ 85 := pow_le_pow_right₀ (by norm_num) (by norm_num)
          exact mul_le_mul (by linarith) (by linarith) (by linarith) (by positivity)
      _ = 2 ^ 125 := s0
  obtain ⟨v, hv, hve⟩ := mulOne le_rfl (by linarith) le_rfl (by linarith) (X := (L : ℝ) - 1) (Y := (L : ℝ) - 1) (by linarith) (by linarith)
    (size_le hL (by linarith)) (size_le hL (by linarith)) (exact_near e1) (exact_near e1)
  obtain ⟨v', hv', hve2⟩ := mulOne le_rfl (by linarith) (by linarith) (by linarith) (X := (3 : ℝ)) (Y := ((L : ℝ) - 1) * (L - 1)) (by norm_num) (by nlinarith)
    (by norm_num) s2 (exact_near e3') hve
  obtain ⟨y, hy, hye⟩ := mulOne le_rfl (by linarith) le_rfl (by linarith) (X := (L : ℝ) - 2) (Y := (L : ℝ) - 3) (by linarith) (by linarith)
    (size_le hL (by linarith)) (size_le hL (by linarith)) (exact_near e2) (exact_near e3)
  have hQ2 : (1 : ℝ) ≤ (L - 2) * (L - 3) := by nlinarith
  obtain ⟨b, hb, hbe⟩ := divNear (P := 3 * (((L : ℝ) - 1) * (L - 1))) (Q := (L - 2) * (L - 3)) (ρ := 7 * ur) (τ := 0) (κ := 7 / 2 * ur) (by linarith) (by linarith)
    le_rfl (by linarith) (by linarith) (by linarith) (by
      rw [abs_of_nonneg (by nlinarith)]
      have h1 : (2 : ℝ) ^ 125 * 4 ≤ 2 ^ 250 := by
        rw [show (4 : ℝ) = 2 ^ 2 by norm_num, ← pow_add]; exact pow_le_pow_right₀ (by norm_num) (by norm_num)
      refine le_trans ?_ h1
      nlinarith) hQ2
    (near_mono hve2 (by linarith) le_rfl) (near_mono hye (by linarith) le_rfl)
  have hB0 : 0 ≤ 3 * (((L : ℝ) - 1) * (L - 1)) / ((L - 2) * (L - 3)) := div_nonneg (by nlinarith) (by linarith)
  have hA250 : |F64.real t * L * (L + 1) / ((L - 1) * (L - 2) * (L - 3))| ≤ 2 ^ 250 := by
    have hQ3 : (1 : ℝ) ≤ (L - 1) * (L - 2) * (L - 3) := by
      have h1 : (1 : ℝ) ≤ (L - 1) * (L - 2) := by nlinarith
      nlinarith
    rw [abs_div, abs_of_pos (show 0 < ((L : ℝ) - 1) * (L - 2) * (L - 3) by linarith)]
    refine (div_le_self (abs_nonneg _) hQ3).trans ?_
    rw [abs_mul, abs_of_pos (show (0 : ℝ) < L + 1 by linarith)]
    calc |F64.real t * L| * (L + 1) ≤ 2 ^ 124 * 2 ^ 125 := mul_le_mul htl (size_le hL le_rfl) (by linarith) (by positivity)
      _ ≤ 2 ^ 250 := by rw [← pow_add]; exact pow_le_pow_right₀ (by norm_num) (by norm_num)
  have hB250 : 3 * (((L : ℝ) - 1) * (L - 1)) / ((L - 2) * (L - 3)) ≤ 2 ^ 250 := by
    refine (div_le_self (by nlinarith) hQ2).trans ?_
    have h1 : (2 : ℝ) ^ 125 * 4 ≤ 2 ^ 250 := by
      rw [show (4 : ℝ) = 2 ^ 2 by norm_num, ← pow_add]; exact pow_le_pow_right₀ (by norm_num) (by norm_num)
    refine le_trans ?_ h1
    nlinarith
  have hrun : ∀ r, a.sub b = some r → scaleKurt t n = some r := by
    intro r hr
    unfold scaleKurt
    simp only [Option.bind_eq_bind, Option.bind_some, hp, hp', ho1, hn1, ho2, hn2, ho3, hn3, hnp, hq, hq', ha, hv, hv', hy, hb, hr]
  clear hp hp' ho1 hn1 ho2 hn2 ho3 hn3 hnp hq hq' ha hv hv' hy hb hpe hpe' hpe2 hpe3 hqe hqe2 hve hve2 hye ho1' e1 e2 e3 e3' ep s0 s1 s2 htl ht hms hQ2 hnv
  unfold Near at hae hbe
  rw [abs_of_nonneg hB0] at hbe
  generalize F64.real t * L * (L + 1) / ((L - 1) * (L - 2) * (L - 3)) = A at *
  generalize 3 * (((L : ℝ) - 1) * (L - 1)) / ((L - 2) * (L - 3)) = B at *
  have hA0 := abs_nonneg A
  have uA : 0 ≤ ur * |A| := by positivity
  have uB : 0 ≤ ur * B := by positivity
  have hm16 : mu ≤ ur / 16 := by
    have h1 := mu_scale 4 (-53) (by norm_num)
    change _ ≤ ur at h1
    norm_num at h1
    linarith
  have d1 : |F64.real a - A| ≤ 15 * ur * |A| + ur / 4 := hae.trans (by linarith)
  have d2 : |F64.real b - B| ≤ 15 * ur * B + ur / 16 := hbe.trans (by linarith)
  have d3 : |(F64.real a - F64.real b) - (A - B)| ≤ 15 * ur * (|A| + B) + 5 / 16 * ur := by
    rw [show (F64.real a - F64.real b) - (A - B) = (F64.real a - A) - (F64.real b - B) by ring]
    refine (abs_sub _ _).trans ?_
    linarith
  have d4 : |F64.real a - F64.real b| ≤ 2 * (|A| + B) + 1 / 16 := by
    have h1 := abs_sub_abs_le_abs_sub (F64.real a - F64.real b) (A - B)
    have h2 : |A - B| ≤ |A| + B := by
      refine (abs_sub _ _).trans ?_
      rw [abs_of_nonneg hB0]
    have h3 : ur * (|A| + B) ≤ 1 / 1000000 * (|A| + B) := mul_le_mul_of_nonneg_right hu1 (by linarith)
    linarith
  obtain ⟨r, hr, hre⟩ := subR (a := a) (b := b) (top_of' (k := 260) (by norm_num) (d4.trans (by
    have e : (2 : ℝ) ^ 260 = 2 ^ 250 * 1024 := by rw [show (260 : ℕ) = 250 + 10 by norm_num, pow_add]; norm_num
    have h1 : (1 : ℝ) ≤ 2 ^ 250 := one_le_pow₀ (by norm_num)
    rw [e]
    clear e hL40
    generalize (2 : ℝ) ^ 250 = T at *
    linarith)))
  refine ⟨r, hrun r hr, ?_⟩
  have d5 := mul_le_mul_of_nonneg_left d4 hu.le
  rw [show F64.real r - (A - B) = (F64.real r - (F64.real a - F64.real b)) + ((F64.real a - F64.real b) - (A - B)) by ring]
  refine (abs_add_le _ _).trans ?_
  clear hA250 hB250
  linarith

end Verif.Float.Corr
