import Verif.Float.CorrelationLemmas
import Verif.Float.CorrelationCore
import Verif.Float.BlackScholesProps

/-!
# The stages of `covariance`, `standard_deviation` and `correlation` in `f64`
-/

namespace Verif.Float.Corr
open Verif.Float Verif.Float.Fft Verif.Float.Sim Verif.Float.Bsm

/-- The rounded deviations, as a vector. -/
noncomputable def devs (m : F64) (xs : List F64) : EuclideanSpace ℝ (Fin xs.length) := vec xs fun x => (dv m x : ℝ)

/-- The relative error of a sum of products. -/
noncomputable def gam (n : ℕ) : ℝ := n * 2 ^ (-52 : ℤ)

theorem gam_nonneg (n : ℕ) : 0 ≤ gam n := by unfold gam; positivity

theorem gam_le {n : ℕ} (h : n ≤ 2 ^ 40) : gam n ≤ 1 / 1000 := by
  unfold gam
  have : (n : ℝ) ≤ 2 ^ 40 := by exact_mod_cast h
  calc (n : ℝ) * 2 ^ (-52 : ℤ) ≤ 2 ^ 40 * 2 ^ (-52 : ℤ) := by gcongr
    _ ≤ 1 / 1000 := by norm_num

theorem ur_small : ur ≤ 1 / 1000000 := by unfold ur; norm_num

theorem cast_sum {α : Type} (L : List α) (f : α → ℚ) : (((L.map f).sum : ℚ) : ℝ) = (L.map fun p => (f p : ℝ)).sum := by
  induction L with
  | nil => simp
  | cons x L ih => rw [List.map_cons, List.map_cons, List.sum_cons, List.sum_cons, Rat.cast_add, ih]

theorem devs_upper (m : F64) (xs : List F64) (h : ∀ x ∈ xs, ∃ d, x.sub m = some d ∧ Good d) (h2 : xs.length ≤ 2 ^ 40) :
    ‖devs m xs‖ ≤ 2 ^ 422 := by
  unfold devs
  rw [vec_norm]
  refine Real.sqrt_le_iff.2 ⟨by positivity, ?_⟩
  have h3 : (xs.map fun x => (dv m x : ℝ) ^ 2).sum ≤ xs.length * (2 ^ 402) ^ 2 := by
    clear h2
    induction xs with
    | nil => simp
    | cons x xs ih =>
      have h4 := ih fun y hy => h y (List.mem_cons_of_mem _ hy)
      obtain ⟨d, h5, h6⟩ := h x List.mem_cons_self
      have h7 : |dv m x| ≤ 2 ^ (402 : ℤ) := by
        unfold dv
        rw [← toF64_some h5]
        rcases h6 with h | h
        · rw [h, abs_zero]; exact (zpos _).le
        · exact h.2
      have h8 : |(dv m x : ℝ)| ≤ 2 ^ 402 := by
        have := (Rat.cast_le (K := ℝ)).2 h7
        push_cast at this
        exact_mod_cast this
      have h9 : (dv m x : ℝ) ^ 2 ≤ (2 ^ 402) ^ 2 := by
        rw [← sq_abs]; exact pow_le_pow_left₀ (abs_nonneg _) h8 2
      rw [List.map_cons, List.sum_cons, List.length_cons]
      push_cast
      have key : ∀ a b c l : ℝ, a ≤ c → b ≤ l * c → a + b ≤ (l + 1) * c := by intros; linarith
      exact key _ _ _ _ h9 h4
  refine h3.trans ?_
  have h4 : (xs.length : ℝ) ≤ 2 ^ 40 := by exact_mod_cast h2
  calc (xs.length : ℝ) * (2 ^ 402) ^ 2 ≤ 2 ^ 40 * (2 ^ 402) ^ 2 := by gcongr
    _ = (2 ^ 422) ^ 2 := by rw [← pow_mul, ← pow_mul, ← pow_add]

theorem list_sq_zero {α : Type} (L : List α) (f : α → ℝ) : (L.map fun p => f p ^ 2).sum = 0 ↔ ∀ p ∈ L, f p = 0 := by
  have hnn : ∀ L : List α, 0 ≤ (L.map fun p => f p ^ 2).sum := by
    intro L
    apply List.sum_nonneg
    intro y hy
    obtain ⟨x, _, rfl⟩ := List.mem_map.1 hy
    exact sq_nonneg _
  induction L with
  | nil => simp
  | cons x L ih =>
    rw [List.map_cons, List.sum_cons, List.forall_mem_cons]
    refine Iff.trans ?_ (and_congr_right fun _ => ih)
    have h1 := hnn L
    have h2 := sq_nonneg (f x)
    constructor
    · intro h
      exact ⟨by have : f x ^ 2 = 0 := by linarith
                simpa using this, by linarith⟩
    · rintro ⟨h3, h4⟩; rw [h3, h4]; simp

theorem devs_zero (m : F64) (xs : List F64) : ‖devs m xs‖ = 0 ↔ ∀ x ∈ xs, x = m := by
  have h0 : 0 ≤ (xs.map fun x => (dv m x : ℝ) ^ 2).sum := by
    apply List.sum_nonneg
    intro y hy
    obtain ⟨x, _, rfl⟩ := List.mem_map.1 hy
    exact sq_nonneg _
  unfold devs
  rw [vec_norm, Real.sqrt_eq_zero h0, list_sq_zero]
  refine forall₂_congr fun x _ => ?_
  rw [Rat.cast_eq_zero]
  unfold dv
  constructor
  · intro h
    have h1 := rnd_sub x.rep m.rep
    rw [h, sub_zero] at h1
    have h2 := u_lt
    have h3 := abs_nonneg (x.val - m.val)
    have h4 : |x.val - m.val| = 0 := by nlinarith
    exact F64.ext (sub_eq_zero.1 (abs_eq_zero.1 h4))
  · rintro rfl; rw [sub_self, rnd_zero]

theorem devs_lower (m : F64) (xs : List F64) (h : ∀ x ∈ xs, ∃ d, x.sub m = some d ∧ Good d) (h0 : ‖devs m xs‖ ≠ 0) :
    (2 : ℝ) ^ (-444 : ℤ) ≤ ‖devs m xs‖ := by
  have hne : ¬ ∀ x ∈ xs, (dv m x : ℝ) = 0 := by
    intro hc
    apply h0
    unfold devs
    rw [vec_norm, (list_sq_zero xs _).2 hc, Real.sqrt_zero]
  push Not at hne
  obtain ⟨x, hx, hx0⟩ := hne
  obtain ⟨d, h5, h6⟩ := h x hx
  have hd : dv m x = d.val := by unfold dv; rw [← toF64_some h5]
  have h7 := h6.resolve_left (by rw [← hd]; exact_mod_cast hx0)
  have h8 : (2 : ℝ) ^ (-444 : ℤ) ≤ |(dv m x : ℝ)| := by
    rw [hd]
    have := (Rat.cast_le (K := ℝ)).2 h7.1
    push_cast at this
    exact this
  refine h8.trans ?_
  obtain ⟨i, hi, rfl⟩ := List.getElem_of_mem hx
  have := PiLp.norm_apply_le (devs m xs) ⟨i, hi⟩
  rw [Real.norm_eq_abs] at this
  exact this

/-- Rounding errors of a sum of products, in terms of lengths of vectors. -/
theorem coSum_real (ps : List (F64 × F64)) (mx my : F64) (h2 : ps.length ≤ 2 ^ 40)
    (hx : ∀ p ∈ ps, ∃ d, p.1.sub mx = some d ∧ Good d) (hy : ∀ p ∈ ps, ∃ d, p.2.sub my = some d ∧ Good d) :
    ∃ S, coSum ps mx my = some S ∧
      |F64.real S - inner ℝ (vec ps fun p => (dv mx p.1 : ℝ)) (vec ps fun p => (dv my p.2 : ℝ))| ≤
        gam ps.length * (‖vec ps fun p => (dv mx p.1 : ℝ)‖ * ‖vec ps fun p => (dv my p.2 : ℝ)‖) := by
  obtain ⟨S, h3, h4⟩ := coSum_ok ps mx my h2 hx hy
  refine ⟨S, h3, ?_⟩
  have h5 := (Rat.cast_le (K := ℝ)).2 h4
  rw [Rat.cast_abs, Rat.cast_sub, Rat.cast_mul, cast_sum, cast_sum] at h5
  push_cast at h5
  rw [vec_inner]
  refine h5.trans ?_
  have h6 := cs_abs ps (fun p => (dv mx p.1 : ℝ)) (fun p => (dv my p.2 : ℝ))
  unfold gam
  refine mul_le_mul_of_nonneg_left h6 ?_
  positivity

theorem squares_coSum (xs : List F64) (m : F64) : squares xs m = coSum (xs.map fun x => (x, x)) m m := by
  unfold squares coSum
  rw [List.mapM_map]
  congr 1
  congr 1
  funext x
  simp only [Function.comp]
  cases x.sub m <;> rfl

theorem top_of' {x : ℝ} {k : ℕ} (hk : k ≤ 1023) (h : |x| ≤ 2 ^ k) : |x| ≤ top := by
  unfold top
  exact h.trans (pow_le_pow_right₀ (by norm_num) hk)

theorem mu_tiny {x : ℝ} {N : ℝ} (hN : N ≤ 2 ^ 40) (hx : (2 : ℝ) ^ (-444 : ℤ) * 2 ^ (-444 : ℤ) ≤ x) : mu * N ≤ ur * x := by
  have h1 : ur * ((2 : ℝ) ^ (-444 : ℤ) * 2 ^ (-444 : ℤ)) ≤ ur * x := mul_le_mul_of_nonneg_left hx ur_pos.le
  refine le_trans ?_ h1
  have h2 : mu * N ≤ mu * 2 ^ (40 : ℤ) := mul_le_mul_of_nonneg_left (by exact_mod_cast hN) mu_pos.le
  refine h2.trans ?_
  unfold mu ur
  rw [← zpow_add₀ (by norm_num), ← zpow_add₀ (by norm_num), ← zpow_add₀ (by norm_num)]
  exact zpow_le_zpow_right₀ (by norm_num) (by norm_num)

/-- The mean and the variance of one list. -/
theorem run_one (xs : List F64) (ht : Tame xs) (h1 : 2 ≤ xs.length) (h2 : xs.length ≤ 2 ^ 40) :
    ∃ s n m S v, sum xs = some s ∧ ofNat xs.length = some n ∧ n.val = xs.length ∧ s.div n = some m ∧
      (∀ x ∈ xs, ∃ d, x.sub m = some d ∧ Good d) ∧
      |F64.real m - avg xs| ≤ 2 ^ (-51 : ℤ) * (xs.map fun x => |(x.val : ℝ)|).sum ∧ variance xs = .ok v ∧
      |F64.real S - ‖devs m xs‖ ^ 2| ≤ gam xs.length * ‖devs m xs‖ ^ 2 ∧
      |F64.real v - F64.real S / (xs.length - 1)| ≤ ur * |F64.real S / (xs.length - 1)| + mu ∧
      (‖devs m xs‖ = 0 → v.val = 0) ∧ 0 ≤ v.val := by
  obtain ⟨s, n, m, hs, hn, hnv, hm, hme, hgood⟩ := mean_ok xs ht (by omega) h2
  obtain ⟨S, hS, hSe⟩ := coSum_real (xs.map fun x => (x, x)) m m (by simpa using h2)
    (by intro p hp; obtain ⟨x, hx, rfl⟩ := List.mem_map.1 hp; exact hgood x hx)
    (by intro p hp; obtain ⟨x, hx, rfl⟩ := List.mem_map.1 hp; exact hgood x hx)
  have hnorm : ‖vec (xs.map fun x => (x, x)) fun p => (dv m p.1 : ℝ)‖ = ‖devs m xs‖ := by
    unfold devs; rw [vec_norm, vec_norm, List.map_map]; rfl
  have hnorm2 : ‖vec (xs.map fun x => (x, x)) fun p => (dv m p.2 : ℝ)‖ = ‖devs m xs‖ := by
    unfold devs; rw [vec_norm, vec_norm, List.map_map]; rfl
  have hinner : inner ℝ (vec (xs.map fun x => (x, x)) fun p => (dv m p.1 : ℝ)) (vec (xs.map fun x => (x, x)) fun p => (dv m p.2 : ℝ)) =
      ‖devs m xs‖ ^ 2 := by
    unfold devs
    rw [← real_inner_self_eq_norm_sq, vec_inner, vec_inner, List.map_map]; rfl
  rw [hnorm, hnorm2, hinner, List.length_map, ← pow_two] at hSe
  have hup := devs_upper m xs hgood h2
  obtain ⟨k, hk, hkv⟩ := ofNat_small (xs.length - 1) (by omega)
  have hkR : F64.real k = xs.length - 1 := by
    unfold F64.real
    rw [hkv, Nat.cast_sub (by omega)]; push_cast; ring
  have hN : (1 : ℝ) ≤ xs.length - 1 := by
    have : (2 : ℝ) ≤ xs.length := by exact_mod_cast h1
    linarith
  have hg1 := gam_le h2
  have hSb : |F64.real S / F64.real k| ≤ 2 ^ 846 := by
    rw [hkR, abs_div, abs_of_pos (by linarith : (0 : ℝ) < xs.length - 1)]
    have h3 : |F64.real S| ≤ 2 * ‖devs m xs‖ ^ 2 := by
      have h4 : |F64.real S| ≤ |F64.real S - ‖devs m xs‖ ^ 2| + ‖devs m xs‖ ^ 2 := by
        calc |F64.real S| = |(F64.real S - ‖devs m xs‖ ^ 2) + ‖devs m xs‖ ^ 2| := by rw [sub_add_cancel]
          _ ≤ _ := (abs_add_le _ _).trans (by rw [abs_of_nonneg (sq_nonneg ‖devs m xs‖)])
      have := sq_nonneg ‖devs m xs‖
      nlinarith
    refine (div_le_self (abs_nonneg _) hN).trans (h3.trans ?_)
    calc 2 * ‖devs m xs‖ ^ 2 ≤ 2 * (2 ^ 422) ^ 2 := by gcongr
      _ = 2 ^ 845 := by rw [← pow_mul, ← pow_succ']
      _ ≤ 2 ^ 846 := pow_le_pow_right₀ (by norm_num) (by norm_num)
  obtain ⟨v, hv, hve⟩ := divR (a := S) (b := k) (by rw [hkR]; linarith) (top_of' (by norm_num) hSb)
  have hne : xs ≠ [] := by rintro rfl; simp at h1
  have hmv : meanVal xs = some m := by
    unfold meanVal
    rw [hs, hn]
    simp only [Option.bind_eq_bind, Option.bind_some, hm]
  have hsq : squares xs m = some S := by rw [squares_coSum]; exact hS
  have hvar : variance xs = .ok v := by
    unfold variance
    rw [if_neg hne, hmv, hk]
    simp only [Option.bind_eq_bind, Option.bind_some, hsq, hv, Res.of]
  refine ⟨s, n, m, S, v, hs, hn, hnv, hm, hgood, ?_, hvar, hSe, ?_, ?_, ?_⟩
  · have h3 := (Rat.cast_le (K := ℝ)).2 hme
    unfold exactSum absSum at h3
    rw [Rat.cast_abs, Rat.cast_sub, Rat.cast_div, Rat.cast_mul, cast_sum, cast_sum] at h3
    push_cast at h3
    exact h3
  · rw [hkR] at hve; exact hve
  · intro h0
    rw [h0] at hSe
    have h3 : F64.real S = 0 := by
      have : |F64.real S| ≤ 0 := by simpa using hSe
      exact abs_nonpos_iff.1 this
    have h4 : S.val = 0 := by unfold F64.real at h3; exact_mod_cast h3
    rw [(div_some hv).2, h4, zero_div, rnd_zero]
  · rw [(div_some hv).2]
    apply rnd_nonneg
    exact div_nonneg (squares_nonneg xs m S hsq) (by rw [hkv]; positivity)

/-- The covariance of two lists. -/
theorem run_two (xs ys : List F64) (hlen : xs.length = ys.length) (h1 : 2 ≤ xs.length) (h2 : xs.length ≤ 2 ^ 40)
    (sx sy n mx my : F64) (hsx : sum xs = some sx) (hsy : sum ys = some sy) (hn : ofNat xs.length = some n)
    (hnv : n.val = xs.length) (hmx : sx.div n = some mx) (hmy : sy.div n = some my)
    (gx : ∀ x ∈ xs, ∃ d, x.sub mx = some d ∧ Good d) (gy : ∀ y ∈ ys, ∃ d, y.sub my = some d ∧ Good d) :
    ∃ S c, covariance xs ys = .ok c ∧
      |F64.real S - inner ℝ (vec (xs.zip ys) fun p => (dv mx p.1 : ℝ)) (vec (xs.zip ys) fun p => (dv my p.2 : ℝ))| ≤
        gam xs.length * (‖devs mx xs‖ * ‖devs my ys‖) ∧
      |F64.real c - F64.real S / (xs.length - 1)| ≤ ur * |F64.real S / (xs.length - 1)| + mu := by
  have hzl : (xs.zip ys).length = xs.length := by rw [List.length_zip, hlen, min_self]
  obtain ⟨S, hS, hSe⟩ := coSum_real (xs.zip ys) mx my (by rw [hzl]; exact h2)
    (fun p hp => gx p.1 (List.of_mem_zip (show (p.1, p.2) ∈ xs.zip ys from hp)).1)
    (fun p hp => gy p.2 (List.of_mem_zip (show (p.1, p.2) ∈ xs.zip ys from hp)).2)
  have hnx : ‖vec (xs.zip ys) fun p => (dv mx p.1 : ℝ)‖ = ‖devs mx xs‖ := by
    unfold devs
    rw [vec_norm, vec_norm]
    conv_rhs => rw [← List.map_fst_zip (l₁ := xs) (l₂ := ys) hlen.le, List.map_map]
    rfl
  have hny : ‖vec (xs.zip ys) fun p => (dv my p.2 : ℝ)‖ = ‖devs my ys‖ := by
    unfold devs
    rw [vec_norm, vec_norm]
    conv_rhs => rw [← List.map_snd_zip (l₁ := xs) (l₂ := ys) hlen.ge, List.map_map]
    rfl
  have hcs := abs_real_inner_le_norm (vec (xs.zip ys) fun p => (dv mx p.1 : ℝ)) (vec (xs.zip ys) fun p => (dv my p.2 : ℝ))
  rw [hnx, hny] at hSe hcs
  have hgz : gam (xs.zip ys).length = gam xs.length := congrArg gam hzl
  rw [hgz] at hSe
  have hupx := devs_upper mx xs gx h2
  have hupy := devs_upper my ys gy (by rw [← hlen]; exact h2)
  obtain ⟨o, ho, hov⟩ := ofNat_small 1 (by norm_num)
  have hrep : Rep (n.val - o.val) := by
    rw [hnv, hov, show ((xs.length : ℚ) - (1 : ℕ)) = ((xs.length - 1 : ℕ) : ℚ) by rw [Nat.cast_sub (by omega)]]
    exact rep_nat _ (by omega)
  obtain ⟨k, hk, hkv⟩ := toF64_isSome (x := n.val - o.val) (by
    rw [rnd_rep hrep, hnv, hov, show ((xs.length : ℚ) - (1 : ℕ)) = ((xs.length - 1 : ℕ) : ℚ) by rw [Nat.cast_sub (by omega)],
      abs_of_nonneg (by positivity)]
    have h4 : ((xs.length - 1 : ℕ) : ℚ) ≤ 2 ^ 40 := by exact_mod_cast (by omega : xs.length - 1 ≤ 2 ^ 40)
    exact h4.trans_lt (pow_lt_pow_right₀ (by norm_num) (by norm_num)))
  rw [rnd_rep hrep, hnv, hov] at hkv
  have hkR : F64.real k = xs.length - 1 := by unfold F64.real; rw [hkv]; push_cast; ring
  have hN : (1 : ℝ) ≤ xs.length - 1 := by
    have : (2 : ℝ) ≤ xs.length := by exact_mod_cast h1
    linarith
  have hg1 := gam_le h2
  have hSb : |F64.real S / F64.real k| ≤ 2 ^ 846 := by
    rw [hkR, abs_div, abs_of_pos (by linarith : (0 : ℝ) < xs.length - 1)]
    have hD : 0 ≤ ‖devs mx xs‖ * ‖devs my ys‖ := by positivity
    have h3 : |F64.real S| ≤ 2 * (‖devs mx xs‖ * ‖devs my ys‖) := by
      generalize (inner ℝ (vec (xs.zip ys) fun p => (dv mx p.1 : ℝ)) (vec (xs.zip ys) fun p => (dv my p.2 : ℝ)) : ℝ) = c at *
      have h4 : |F64.real S| ≤ |F64.real S - c| + |c| := by
        calc |F64.real S| = |(F64.real S - c) + c| := by rw [sub_add_cancel]
          _ ≤ _ := abs_add_le _ _
      nlinarith
    refine (div_le_self (abs_nonneg _) hN).trans (h3.trans ?_)
    calc 2 * (‖devs mx xs‖ * ‖devs my ys‖) ≤ 2 * (2 ^ 422 * 2 ^ 422) := by gcongr
      _ = 2 ^ 845 := by rw [← pow_add, ← pow_succ']
      _ ≤ 2 ^ 846 := pow_le_pow_right₀ (by norm_num) (by norm_num)
  obtain ⟨c, hc, hce⟩ := divR (a := S) (b := k) (by rw [hkR]; linarith) (top_of' (by norm_num) hSb)
  refine ⟨S, c, ?_, hSe, by rw [hkR] at hce; exact hce⟩
  unfold covariance
  rw [if_neg (by simpa using hlen), if_neg (by omega)]
  unfold covVal
  rw [hn, hsx, hsy, ho]
  simp only [Option.bind_eq_bind, Option.bind_some, hmx, hmy, hS, show n.sub o = some k from hk, hc, Res.of]

/-! ## Square roots -/

theorem sq_zero {sq : F64 → F64} (hq : CorrectSqrt sq) (v : F64) (h : v.val = 0) : (sq v).val = 0 := by
  have h1 := hq v h.ge F64.zero
  rw [h, show F64.zero.val = 0 from rfl] at h1
  simp only [Rat.cast_zero, Real.sqrt_zero, sub_zero, abs_zero] at h1
  exact_mod_cast abs_nonpos_iff.1 h1

theorem sq_near {sq : F64 → F64} (hq : CorrectSqrt sq) (v : F64) (h : 0 ≤ v.val) :
    |F64.real (sq v) - √(F64.real v)| ≤ 2 * ur * √(F64.real v) := by
  rcases h.eq_or_lt with h0 | h0
  · have h1 := sq_zero hq v h0.symm
    unfold F64.real
    rw [h1, ← h0]; simp
  · obtain ⟨r, hr⟩ := sqrt_exists v h0
    exact (hq v h r).trans hr

end Verif.Float.Corr
