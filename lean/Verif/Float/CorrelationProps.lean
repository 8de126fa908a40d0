import Verif.Float.CorrelationRun
import Mathlib.Data.List.Zip

/-!
# C99: covariances, standard deviations and correlations in double precision
-/

namespace Verif.Float.Corr
open Verif.Float Verif.Float.Fft Verif.Float.Sim Verif.Float.Bsm

/-! ## Panics and symmetry, for all data -/

theorem res_of_ne (o : Option F64) : Res.of o ≠ .panic := by cases o <;> simp [Res.of]

/-- C99: a covariance panics exactly for lists of different lengths or with fewer than two entries, a standard deviation exactly for
fewer than two entries. -/
theorem C99_panics (sq : F64 → F64) (xs ys : List F64) :
    (covariance xs ys = .panic ↔ xs.length ≠ ys.length ∨ xs.length < 2) ∧
    (standardDeviation sq xs = .panic ↔ xs.length < 2) := by
  constructor
  · unfold covariance
    split_ifs with h1 h2
    · exact iff_of_true rfl (.inl h1)
    · exact iff_of_true rfl (.inr (by omega))
    · refine iff_of_false (res_of_ne _) ?_
      push Not at h1 ⊢
      exact ⟨h1, by omega⟩
  · unfold standardDeviation
    split_ifs with h1
    · exact iff_of_true rfl (by omega)
    · refine iff_of_false ?_ (by omega)
      unfold variance
      rw [if_neg (by rintro rfl; simp at h1)]
      generalize (do (← squares xs (← meanVal xs)).div (← ofNat (xs.length - 1)) : Option F64) = o
      cases o <;> simp [Res.of]

example (sq : F64 → F64) : covariance [lit 1, lit 2] [lit 3] = .panic ∧ standardDeviation sq [lit 7] = .panic :=
  ⟨(C99_panics sq _ _).1.2 (by simp), (C99_panics sq [lit 7] []).2.2 (by simp)⟩

theorem coSum_comm (xs ys : List F64) (mx my : F64) : coSum (xs.zip ys) mx my = coSum (ys.zip xs) my mx := by
  unfold coSum
  rw [← List.zip_swap xs ys, List.mapM_map]
  congr 2
  funext p
  simp only [Function.comp, Prod.fst_swap, Prod.snd_swap]
  cases p.1.sub mx with
  | none => cases p.2.sub my <;> rfl
  | some a =>
    cases p.2.sub my with
    | none => rfl
    | some b =>
      simp only [Option.bind_eq_bind, Option.bind_some]
      unfold F64.mul
      rw [mul_comm]

theorem covariance_comm (xs ys : List F64) : covariance xs ys = covariance ys xs := by
  unfold covariance
  by_cases h : xs.length = ys.length
  · have hv : covVal xs ys = covVal ys xs → (if xs.length ≠ ys.length then Res.panic else if xs.length ≤ 1 then .panic else .of (covVal xs ys)) =
        if ys.length ≠ xs.length then .panic else if ys.length ≤ 1 then .panic else .of (covVal ys xs) := by
      intro hv; rw [hv, h]
    apply hv
    unfold covVal
    rw [h]
    cases ofNat ys.length with
    | none => rfl
    | some n =>
      simp only [Option.bind_eq_bind, Option.bind_some]
      cases hx : sum xs with
      | none =>
        simp only [Option.bind_none]
        cases sum ys with
        | none => rfl
        | some s => simp only [Option.bind_some]; cases s.div n <;> rfl
      | some s =>
        cases hy : sum ys with
        | none => simp only [Option.bind_some, Option.bind_none]; cases s.div n <;> rfl
        | some t =>
          simp only [Option.bind_some]
          cases s.div n with
          | none => cases t.div n <;> rfl
          | some mx =>
            cases t.div n with
            | none => rfl
            | some my => simp only [Option.bind_some]; rw [coSum_comm]
  · rw [if_pos h, if_pos (Ne.symm h)]

/-- C99: covariances and correlations do not depend on the order of the two lists: the results are the same double (or the same
panic), for all data. -/
theorem C99_symmetric (sq : F64 → F64) (xs ys : List F64) :
    covariance xs ys = covariance ys xs ∧ correlation sq xs ys = correlation sq ys xs := by
  refine ⟨covariance_comm xs ys, ?_⟩
  unfold correlation
  rw [covariance_comm ys xs]
  generalize covariance xs ys = c
  generalize standardDeviation sq xs = sx
  generalize standardDeviation sq ys = sy
  cases c <;> cases sx <;> cases sy <;> try rfl
  rename_i c a b
  simp only [or_comm (a := a.val = 0)]
  have : a.mul b = b.mul a := by unfold F64.mul; rw [mul_comm]
  rw [this]

example : covariance [lit 1, lit (1 / 10), lit 7] [lit 2, lit (3 / 10), lit 5] =
    covariance [lit 2, lit (3 / 10), lit 5] [lit 1, lit (1 / 10), lit 7] := (C99_symmetric id _ _).1

theorem zip_same (xs : List F64) : xs.zip xs = xs.map fun x => (x, x) := by
  induction xs with
  | nil => rfl
  | cons x xs ih => simp [ih]

/-- C99: the covariance of a list with itself is its variance, the same double. -/
theorem C99_self (xs : List F64) (h1 : 2 ≤ xs.length) (h2 : xs.length ≤ 2 ^ 53) : covariance xs xs = variance xs := by
  obtain ⟨n, hn, hnv⟩ := ofNat_small xs.length h2
  obtain ⟨o, ho, hov⟩ := ofNat_small 1 (by norm_num)
  obtain ⟨k, hk, hkv⟩ := ofNat_small (xs.length - 1) (by omega)
  have hsub : n.sub o = some k := by
    have e : n.val - o.val = ((xs.length - 1 : ℕ) : ℚ) := by rw [hnv, hov, Nat.cast_sub (by omega)]
    unfold F64.sub
    rw [e]
    exact hk
  have hne : xs ≠ [] := by rintro rfl; simp at h1
  unfold covariance variance covVal
  rw [if_neg (by simp), if_neg (by omega), if_neg hne, hn, ho, hk, zip_same]
  congr 1
  unfold meanVal
  rw [hn]
  simp only [Option.bind_eq_bind, Option.bind_some, hsub]
  cases sum xs with
  | none => rfl
  | some s =>
    simp only [Option.bind_some]
    cases s.div n with
    | none => rfl
    | some m => simp only [Option.bind_some]; rw [squares_coSum]

example : covariance [lit 1, lit (1 / 10), lit 7] [lit 1, lit (1 / 10), lit 7] = variance [lit 1, lit (1 / 10), lit 7] :=
  C99_self _ (by simp) (by simp)

/-! ## Correlations stay near the interval from -1 to 1 -/

theorem real_zero {x : F64} : F64.real x = 0 ↔ x.val = 0 := by unfold F64.real; exact_mod_cast Iff.rfl

theorem mean_of {xs : List F64} {s n m : F64} (h : 2 ≤ xs.length) (hs : sum xs = some s) (hn : ofNat xs.length = some n)
    (hm : s.div n = some m) : mean xs = .ok m := by
  unfold mean meanVal
  rw [if_neg (by rintro rfl; simp at h), hs, hn]
  simp only [Option.bind_eq_bind, Option.bind_some, hm, Res.of]

/-- A standard deviation, in terms of the rounded deviations. -/
theorem run_sd (sq : F64 → F64) (hq : CorrectSqrt sq) (xs : List F64) (ht : Tame xs) (h1 : 2 ≤ xs.length)
    (h2 : xs.length ≤ 2 ^ 40) :
    ∃ s n m σ, sum xs = some s ∧ ofNat xs.length = some n ∧ n.val = xs.length ∧ s.div n = some m ∧
      (∀ x ∈ xs, ∃ d, x.sub m = some d ∧ Good d) ∧
      |F64.real m - avg xs| ≤ 2 ^ (-51 : ℤ) * (xs.map fun x => |(x.val : ℝ)|).sum ∧ standardDeviation sq xs = .ok σ ∧
      |F64.real σ - ‖devs m xs‖ / √(xs.length - 1 : ℝ)| ≤ (gam xs.length + 6 * ur) * (‖devs m xs‖ / √(xs.length - 1 : ℝ)) := by
  obtain ⟨s, n, m, S, v, hs, hn, hnv, hm, hgood, hme, hvar, hS, hv, hv0, hvn⟩ := run_one xs ht h1 h2
  refine ⟨s, n, m, sq v, hs, hn, hnv, hm, hgood, hme, ?_, ?_⟩
  · unfold standardDeviation
    rw [if_neg (by omega), hvar]
  · rcases eq_or_ne ‖devs m xs‖ 0 with h0 | h0
    · have := real_zero.2 (sq_zero hq v (hv0 h0))
      rw [h0, this]; simp
    · have hlow := devs_lower m xs hgood h0
      have hN : (1 : ℝ) ≤ xs.length - 1 := by
        have : (2 : ℝ) ≤ xs.length := by exact_mod_cast h1
        linarith
      have hN' : (xs.length - 1 : ℝ) ≤ 2 ^ 40 := by
        have : (xs.length : ℝ) ≤ 2 ^ 40 := by exact_mod_cast h2
        linarith
      refine sd_near hN (gam_nonneg _) (gam_le h2) ur_pos ur_small (lt_of_le_of_ne (norm_nonneg _) (Ne.symm h0)) ?_ hS hv (sq_near hq v hvn)
      refine mu_tiny hN' ?_
      rw [pow_two]
      exact mul_le_mul hlow hlow (by positivity) (norm_nonneg _)

/-- A correlation, in terms of the rounded deviations. -/
theorem run_three (sq : F64 → F64) (hq : CorrectSqrt sq) (xs ys : List F64) (hx : Tame xs) (hy : Tame ys)
    (hlen : xs.length = ys.length) (h1 : 2 ≤ xs.length) (h2 : xs.length ≤ 2 ^ 40) :
    ∃ mx my, mean xs = .ok mx ∧ mean ys = .ok my ∧
      |F64.real mx - avg xs| ≤ 2 ^ (-51 : ℤ) * (xs.map fun x => |(x.val : ℝ)|).sum ∧
      |F64.real my - avg ys| ≤ 2 ^ (-51 : ℤ) * (ys.map fun x => |(x.val : ℝ)|).sum ∧
      (‖devs mx xs‖ = 0 ∨ ‖devs my ys‖ = 0 → correlation sq xs ys = .panic) ∧
      (‖devs mx xs‖ ≠ 0 → ‖devs my ys‖ ≠ 0 → ∃ r, correlation sq xs ys = .ok r ∧
        |F64.real r - inner ℝ (vec (xs.zip ys) fun p => (dv mx p.1 : ℝ)) (vec (xs.zip ys) fun p => (dv my p.2 : ℝ)) /
          (‖devs mx xs‖ * ‖devs my ys‖)| ≤ (xs.length + 4) * 2 ^ (-50 : ℤ)) := by
  obtain ⟨s, n, mx, σ, hs, hn, hnv, hm, gx, hme, hsd, hσ⟩ := run_sd sq hq xs hx h1 h2
  obtain ⟨s', n', my, τ, hs', hn', _, hm', gy, hme', hsd', hτ⟩ := run_sd sq hq ys hy (by omega) (by omega)
  have hnn : n' = n := by rw [hlen] at hn; rw [hn] at hn'; exact (Option.some.inj hn').symm
  subst hnn
  obtain ⟨S, c, hc, hS, hce⟩ := run_two xs ys hlen h1 h2 s s' n' mx my hs hs' hn hnv hm hm' gx gy
  refine ⟨mx, my, mean_of h1 hs hn hm, mean_of (by omega) hs' hn' hm', hme, hme', ?_, ?_⟩
  · intro h
    unfold correlation
    rw [hc, hsd, hsd']
    simp only
    rw [if_pos]
    rcases h with h | h
    · left
      rw [h] at hσ
      simp only [zero_div, sub_zero, mul_zero] at hσ
      exact real_zero.1 (abs_nonpos_iff.1 hσ)
    · right
      rw [h] at hτ
      simp only [zero_div, sub_zero, mul_zero] at hτ
      exact real_zero.1 (abs_nonpos_iff.1 hτ)
  · intro ha hb
    have hu := ur_pos
    have hu1 := ur_small
    have hg := gam_nonneg xs.length
    have hg1 := gam_le h2
    have hlowx := devs_lower mx xs gx ha
    have hlowy := devs_lower my ys gy hb
    have hupx := devs_upper mx xs gx h2
    have hupy := devs_upper my ys gy (by omega)
    have hα : 0 < ‖devs mx xs‖ := lt_of_le_of_ne (norm_nonneg _) (Ne.symm ha)
    have hβ : 0 < ‖devs my ys‖ := lt_of_le_of_ne (norm_nonneg _) (Ne.symm hb)
    have hN : (1 : ℝ) ≤ xs.length - 1 := by
      have : (2 : ℝ) ≤ xs.length := by exact_mod_cast h1
      linarith
    have hN' : (xs.length - 1 : ℝ) ≤ 2 ^ 40 := by
      have : (xs.length : ℝ) ≤ 2 ^ 40 := by exact_mod_cast h2
      linarith
    have hμD : mu * (xs.length - 1) ≤ ur * (‖devs mx xs‖ * ‖devs my ys‖) :=
      mu_tiny hN' (mul_le_mul hlowx hlowy (by positivity) (norm_nonneg _))
    have hgl : gam ys.length = gam xs.length := by rw [hlen]
    have hll : (ys.length : ℝ) = xs.length := by rw [hlen]
    rw [hgl, hll] at hτ
    have hcs : |inner ℝ (vec (xs.zip ys) fun p => (dv mx p.1 : ℝ)) (vec (xs.zip ys) fun p => (dv my p.2 : ℝ))| ≤
        ‖devs mx xs‖ * ‖devs my ys‖ := by
      refine (abs_real_inner_le_norm _ _).trans (le_of_eq ?_)
      unfold devs
      rw [vec_norm, vec_norm, vec_norm, vec_norm]
      congr 2
      · conv_rhs => rw [← List.map_fst_zip (l₁ := xs) (l₂ := ys) hlen.le, List.map_map]
        rfl
      · conv_rhs => rw [← List.map_snd_zip (l₁ := xs) (l₂ := ys) hlen.ge, List.map_map]
        rfl
    generalize (inner ℝ (vec (xs.zip ys) fun p => (dv mx p.1 : ℝ)) (vec (xs.zip ys) fun p => (dv my p.2 : ℝ)) : ℝ) = ip at *
    have hcov := quot_near hN (by linarith) hu (mul_pos hα hβ) hcs hμD hS hce
    have hprod := fun p => prod_near (p := p) hN hg hg1 hu hu1 hα hβ hμD hσ hτ
    have hst : |F64.real σ * F64.real τ| ≤ 2 ^ 846 := by
      have h3 := (hprod (F64.real σ * F64.real τ) (by
        rw [sub_self, abs_zero]
        have := mu_pos
        positivity)).1
      refine h3.trans ?_
      have h4 : ‖devs mx xs‖ * ‖devs my ys‖ / (xs.length - 1) ≤ ‖devs mx xs‖ * ‖devs my ys‖ := div_le_self (by positivity) hN
      calc 2 * (‖devs mx xs‖ * ‖devs my ys‖ / (xs.length - 1)) ≤ 2 * (2 ^ 422 * 2 ^ 422) := by
            refine mul_le_mul_of_nonneg_left (h4.trans ?_) (by norm_num)
            exact mul_le_mul hupx hupy (norm_nonneg _) (by positivity)
        _ = 2 ^ 845 := by rw [← pow_add, ← pow_succ']
        _ ≤ 2 ^ 846 := pow_le_pow_right₀ (by norm_num) (by norm_num)
    obtain ⟨p, hp, hpe⟩ := mulR (top_of' (by norm_num) hst)
    have hp2 := (hprod _ hpe).2
    have hfin := fun r => corr_near (r := r) hN hg hg1 hu hu1 (mul_pos hα hβ) hcs mu_le hcov hp2
    obtain ⟨hp0, hq2, _⟩ := hfin (F64.real c / F64.real p) (by
      rw [sub_self, abs_zero]
      have := mu_pos
      positivity)
    obtain ⟨r, hr, hre⟩ := divR (a := c) (b := p) hp0.ne' (top_of' (k := 1) (by norm_num) (by simpa using hq2))
    refine ⟨r, ?_, ?_⟩
    · unfold correlation
      rw [hc, hsd, hsd']
      simp only
      have hσ0 : σ.val ≠ 0 := by
        intro h
        have h3 := real_zero.2 h
        have : 0 < ‖devs mx xs‖ / √(xs.length - 1 : ℝ) := div_pos hα (Real.sqrt_pos.2 (by linarith))
        rw [h3, zero_sub, abs_neg, abs_of_pos this] at hσ
        nlinarith
      have hτ0 : τ.val ≠ 0 := by
        intro h
        have h3 := real_zero.2 h
        have : 0 < ‖devs my ys‖ / √(xs.length - 1 : ℝ) := div_pos hβ (Real.sqrt_pos.2 (by linarith))
        rw [h3, zero_sub, abs_neg, abs_of_pos this] at hτ
        nlinarith
      rw [if_neg (by push Not; exact ⟨hσ0, hτ0⟩)]
      simp only [Option.bind_eq_bind, Option.bind_some, hp, hr, Res.of]
    · refine ((hfin _ hre).2.2).trans (le_of_eq ?_)
      unfold gam ur
      norm_num
      ring

/-- C99: for data of ordinary size, a correlation is never infinite or NaN; it panics exactly when every entry of one of the lists
equals the computed mean of that list; and otherwise it exceeds 1 in absolute value by at most `(n + 4) 2^-50`, however much the
data cancel. -/
theorem C99_correlation (sq : F64 → F64) (hq : CorrectSqrt sq) (xs ys : List F64) (hx : Tame xs) (hy : Tame ys)
    (hlen : xs.length = ys.length) (h1 : 2 ≤ xs.length) (h2 : xs.length ≤ 2 ^ 40) :
    correlation sq xs ys ≠ .nonfinite ∧
    (correlation sq xs ys = .panic ↔ (∀ x ∈ xs, mean xs = .ok x) ∨ ∀ y ∈ ys, mean ys = .ok y) ∧
    ∀ r, correlation sq xs ys = .ok r → |(r.val : ℝ)| ≤ 1 + (xs.length + 4) * 2 ^ (-50 : ℤ) := by
  obtain ⟨mx, my, hmx, hmy, -, -, hpan, hok⟩ := run_three sq hq xs ys hx hy hlen h1 h2
  have ex : (∀ x ∈ xs, mean xs = .ok x) ↔ ‖devs mx xs‖ = 0 := by
    rw [devs_zero, hmx]
    exact forall₂_congr fun x _ => ⟨fun h => (Res.ok.inj h).symm, fun h => by rw [h]⟩
  have ey : (∀ y ∈ ys, mean ys = .ok y) ↔ ‖devs my ys‖ = 0 := by
    rw [devs_zero, hmy]
    exact forall₂_congr fun x _ => ⟨fun h => (Res.ok.inj h).symm, fun h => by rw [h]⟩
  rw [ex, ey]
  by_cases h : ‖devs mx xs‖ = 0 ∨ ‖devs my ys‖ = 0
  · have h3 := hpan h
    rw [h3]
    exact ⟨by simp, iff_of_true rfl h, by simp⟩
  · push Not at h
    obtain ⟨r, hr, hre⟩ := hok h.1 h.2
    rw [hr]
    refine ⟨by simp, iff_of_false (by simp) (by push Not; exact h), ?_⟩
    intro r' hr'
    cases hr'
    have hα : 0 < ‖devs mx xs‖ := lt_of_le_of_ne (norm_nonneg _) (Ne.symm h.1)
    have hβ : 0 < ‖devs my ys‖ := lt_of_le_of_ne (norm_nonneg _) (Ne.symm h.2)
    have hcs : |inner ℝ (vec (xs.zip ys) fun p => (dv mx p.1 : ℝ)) (vec (xs.zip ys) fun p => (dv my p.2 : ℝ)) / (‖devs mx xs‖ * ‖devs my ys‖)| ≤ 1 := by
      rw [abs_div, abs_of_pos (mul_pos hα hβ), div_le_one (mul_pos hα hβ)]
      refine (abs_real_inner_le_norm _ _).trans (le_of_eq ?_)
      unfold devs
      rw [vec_norm, vec_norm, vec_norm, vec_norm]
      congr 2
      · conv_rhs => rw [← List.map_fst_zip (l₁ := xs) (l₂ := ys) hlen.le, List.map_map]
        rfl
      · conv_rhs => rw [← List.map_snd_zip (l₁ := xs) (l₂ := ys) hlen.ge, List.map_map]
        rfl
    generalize (inner ℝ (vec (xs.zip ys) fun p => (dv mx p.1 : ℝ)) (vec (xs.zip ys) fun p => (dv my p.2 : ℝ)) / (‖devs mx xs‖ * ‖devs my ys‖) : ℝ) = t at *
    change |F64.real r| ≤ _
    calc |F64.real r| = |(F64.real r - t) + t| := by rw [sub_add_cancel]
      _ ≤ _ := (abs_add_le _ _).trans (by linarith)

/-! ## Accuracy -/

/-- The rounded deviations are near the exact ones. -/
theorem devs_near (xs : List F64) (m : F64) (hsp : 0 < spread xs)
    (hm : |F64.real m - avg xs| ≤ 2 ^ (-51 : ℤ) * (xs.map fun x => |(x.val : ℝ)|).sum) :
    ‖vec xs fun x => (dv m x : ℝ) - ((x.val : ℝ) - avg xs)‖ ≤ ((1 + ur) * 2 ^ (-51 : ℤ) * cond xs + ur) * spread xs := by
  have hu := ur_pos
  have h1 : (vec xs fun x => (dv m x : ℝ) - ((x.val : ℝ) - avg xs)) =
      (vec xs fun x => (dv m x : ℝ) - ((x.val : ℝ) - F64.real m)) - vec xs fun _ => F64.real m - avg xs := by
    rw [vec_sub]; congr 1; funext x; ring
  have hconst : ∀ c : ℝ, ‖vec xs fun _ => c‖ = √xs.length * |c| := by
    intro c
    rw [vec_norm]
    simp only [List.map_const', List.sum_replicate, nsmul_eq_mul]
    rw [Real.sqrt_mul (by positivity), Real.sqrt_sq_eq_abs]
  have hmono : ∀ f g : F64 → ℝ, ∀ c : ℝ, 0 ≤ c → (∀ x, |f x| ≤ c * |g x|) → ‖vec xs f‖ ≤ c * ‖vec xs g‖ := by
    intro f g c hc h
    rw [vec_norm, vec_norm, ← Real.sqrt_sq hc, ← Real.sqrt_mul (by positivity)]
    apply Real.sqrt_le_sqrt
    rw [← List.sum_map_mul_left]
    apply List.sum_le_sum
    intro x _
    rw [← mul_pow, ← sq_abs, ← sq_abs (c * g x), abs_mul c, abs_of_nonneg hc]
    exact pow_le_pow_left₀ (abs_nonneg _) (h x) 2
  have h2 : ‖vec xs fun x => (dv m x : ℝ) - ((x.val : ℝ) - F64.real m)‖ ≤ ur * ‖vec xs fun x => (x.val : ℝ) - F64.real m‖ :=
    hmono _ _ _ hu.le fun x => sub_real x.rep m.rep
  have h3 : (vec xs fun x => (x.val : ℝ) - F64.real m) =
      (vec xs fun x => (x.val : ℝ) - avg xs) - vec xs fun _ => F64.real m - avg xs := by
    rw [vec_sub]; congr 1; funext x; ring
  have h4 : ‖vec xs fun x => (x.val : ℝ) - avg xs‖ = spread xs := vec_norm _ _
  have h5 : ‖vec xs fun _ => F64.real m - avg xs‖ ≤ 2 ^ (-51 : ℤ) * cond xs * spread xs := by
    rw [hconst]
    unfold cond
    have : (2 : ℝ) ^ (-51 : ℤ) * (√xs.length * (xs.map fun x => |(x.val : ℝ)|).sum / spread xs) * spread xs =
        √xs.length * (2 ^ (-51 : ℤ) * (xs.map fun x => |(x.val : ℝ)|).sum) := by field_simp
    rw [this]
    exact mul_le_mul_of_nonneg_left hm (Real.sqrt_nonneg _)
  have h6 : ‖vec xs fun x => (x.val : ℝ) - F64.real m‖ ≤ spread xs + 2 ^ (-51 : ℤ) * cond xs * spread xs := by
    rw [h3]
    exact (norm_sub_le _ _).trans (by linarith)
  rw [h1]
  refine (norm_sub_le _ _).trans ?_
  have h7 := mul_le_mul_of_nonneg_left h6 hu.le
  linarith

theorem cond_nonneg (xs : List F64) : 0 ≤ cond xs := by
  unfold cond spread
  refine div_nonneg (mul_nonneg (Real.sqrt_nonneg _) ?_) (Real.sqrt_nonneg _)
  apply List.sum_nonneg
  intro y hy
  obtain ⟨x, _, rfl⟩ := List.mem_map.1 hy
  exact abs_nonneg _

theorem eta_lt {k : ℝ} (h : k ≤ 2 ^ 48) : (1 + ur) * 2 ^ (-51 : ℤ) * k + ur ≤ 1 / 4 := by
  have hu := ur_pos
  have hu1 := ur_small
  have e : (2 : ℝ) ^ (-51 : ℤ) * 2 ^ 48 = 1 / 8 := by norm_num
  have h1 : (2 : ℝ) ^ (-51 : ℤ) * k ≤ 1 / 8 := by rw [← e]; exact mul_le_mul_of_nonneg_left h (by positivity)
  have h2 : (1 + ur) * (2 ^ (-51 : ℤ) * k) ≤ (1 + ur) * (1 / 8) := mul_le_mul_of_nonneg_left h1 (by linarith)
  linarith

theorem devs_ne (xs : List F64) (m : F64) (hsp : 0 < spread xs) (hc : cond xs ≤ 2 ^ 48)
    (hm : |F64.real m - avg xs| ≤ 2 ^ (-51 : ℤ) * (xs.map fun x => |(x.val : ℝ)|).sum) : ‖devs m xs‖ ≠ 0 := by
  have h1 := devs_near xs m hsp hm
  have h2 := eta_lt hc
  intro h0
  have h3 : devs m xs = 0 := norm_eq_zero.1 h0
  have h4 : (vec xs fun x => (dv m x : ℝ) - ((x.val : ℝ) - avg xs)) = devs m xs - vec xs fun x => (x.val : ℝ) - avg xs := by
    unfold devs; rw [vec_sub]
  rw [h4, h3, zero_sub, norm_neg, vec_norm] at h1
  change spread xs ≤ _ at h1
  have h5 := h1.trans (mul_le_mul_of_nonneg_right h2 hsp.le)
  clear h1 h2 hm
  linarith

theorem norm_zip_fst (xs ys : List F64) (hlen : xs.length = ys.length) (f : F64 → ℝ) :
    ‖vec (xs.zip ys) fun p => f p.1‖ = ‖vec xs f‖ := by
  rw [vec_norm, vec_norm]
  conv_rhs => rw [← List.map_fst_zip (l₁ := xs) (l₂ := ys) hlen.le, List.map_map]
  rfl

theorem norm_zip_snd (xs ys : List F64) (hlen : xs.length = ys.length) (f : F64 → ℝ) :
    ‖vec (xs.zip ys) fun p => f p.2‖ = ‖vec ys f‖ := by
  rw [vec_norm, vec_norm]
  conv_rhs => rw [← List.map_snd_zip (l₁ := xs) (l₂ := ys) hlen.ge, List.map_map]
  rfl

/-- C99: for data of ordinary size whose spread is not lost in rounding, the correlation is returned, and differs from the correlation
coefficient by at most `2^-49 (K(xs) + K(ys) + n + 4)`, where `K` compares the size of the data with their spread. -/
theorem C99_correlation_error (sq : F64 → F64) (hq : CorrectSqrt sq) (xs ys : List F64) (hx : Tame xs) (hy : Tame ys)
    (hlen : xs.length = ys.length) (h1 : 2 ≤ xs.length) (h2 : xs.length ≤ 2 ^ 40) (sx : 0 < spread xs) (sy : 0 < spread ys)
    (kx : cond xs ≤ 2 ^ 48) (ky : cond ys ≤ 2 ^ 48) :
    ∃ r, correlation sq xs ys = .ok r ∧
      |(r.val : ℝ) - rho xs ys| ≤ 2 ^ (-49 : ℤ) * (cond xs + cond ys + xs.length + 4) := by
  obtain ⟨mx, my, hmx, hmy, hex, hey, hpan, hok⟩ := run_three sq hq xs ys hx hy hlen h1 h2
  have ha := devs_ne xs mx sx kx hex
  have hb := devs_ne ys my sy ky hey
  obtain ⟨r, hr, hre⟩ := hok ha hb
  refine ⟨r, hr, ?_⟩
  have nx := devs_near xs mx sx hex
  have ny := devs_near ys my sy hey
  have na := norm_zip_fst xs ys hlen fun x => (dv mx x : ℝ)
  have nb := norm_zip_snd xs ys hlen fun x => (dv my x : ℝ)
  have nd := norm_zip_fst xs ys hlen fun x => (x.val : ℝ) - avg xs
  have ne := norm_zip_snd xs ys hlen fun x => (x.val : ℝ) - avg ys
  have hcos := cos_near (vec (xs.zip ys) fun p => (dv mx p.1 : ℝ)) (vec (xs.zip ys) fun p => (dv my p.2 : ℝ))
    (vec (xs.zip ys) fun p => (p.1.val : ℝ) - avg xs) (vec (xs.zip ys) fun p => (p.2.val : ℝ) - avg ys)
    (by rw [← norm_ne_zero_iff, na]; exact ha) (by rw [← norm_ne_zero_iff, nb]; exact hb)
    (by rw [← norm_ne_zero_iff, nd, vec_norm]; exact sx.ne') (by rw [← norm_ne_zero_iff, ne, vec_norm]; exact sy.ne')
  rw [vec_sub, vec_sub, norm_zip_fst xs ys hlen fun x => (dv mx x : ℝ) - ((x.val : ℝ) - avg xs),
    norm_zip_snd xs ys hlen fun x => (dv my x : ℝ) - ((x.val : ℝ) - avg ys), na, nb, nd, ne, vec_inner (xs.zip ys) (fun p => (p.1.val : ℝ) - avg xs) (fun p => (p.2.val : ℝ) - avg ys),
    vec_norm xs (fun x => (x.val : ℝ) - avg xs), vec_norm ys (fun x => (x.val : ℝ) - avg ys)] at hcos
  change |inner ℝ _ _ / (‖devs mx xs‖ * ‖devs my ys‖) - rho xs ys| ≤ 2 * (_ / spread xs) + 2 * (_ / spread ys) at hcos
  generalize (inner ℝ (vec (xs.zip ys) fun p => (dv mx p.1 : ℝ)) (vec (xs.zip ys) fun p => (dv my p.2 : ℝ)) / (‖devs mx xs‖ * ‖devs my ys‖) : ℝ) = t at *
  have qx := (div_le_iff₀ sx).2 nx
  have qy := (div_le_iff₀ sy).2 ny
  have cx := cond_nonneg xs
  have cy := cond_nonneg ys
  have hn : (0 : ℝ) ≤ xs.length := by positivity
  change |F64.real r - _| ≤ _
  rw [show F64.real r - rho xs ys = (F64.real r - t) + (t - rho xs ys) by ring]
  refine (abs_add_le _ _).trans ?_
  have e1 : (2 : ℝ) ^ (-49 : ℤ) = 16 * ur := by unfold ur; norm_num
  have e2 : (2 : ℝ) ^ (-50 : ℤ) = 8 * ur := by unfold ur; norm_num
  have e3 : (2 : ℝ) ^ (-51 : ℤ) = 4 * ur := by unfold ur; norm_num
  rw [e1]
  rw [e2] at hre
  rw [e3] at qx qy
  have hu := ur_pos
  have hu1 := ur_small
  have px : ur * (ur * cond xs) ≤ 1 * (ur * cond xs) := mul_le_mul_of_nonneg_right (by linarith) (by positivity)
  have py : ur * (ur * cond ys) ≤ 1 * (ur * cond ys) := mul_le_mul_of_nonneg_right (by linarith) (by positivity)
  have un : 0 ≤ ur * (xs.length : ℝ) := by positivity
  nlinarith

/-- C99: for data of ordinary size a standard deviation is a number; it is zero exactly when every entry equals the computed mean; and
if the spread is not lost in rounding, its relative error is at most `2^-49 (K(xs) + n + 4)`. -/
theorem C99_standard_deviation (sq : F64 → F64) (hq : CorrectSqrt sq) (xs : List F64) (hx : Tame xs) (h1 : 2 ≤ xs.length)
    (h2 : xs.length ≤ 2 ^ 40) :
    ∃ s, standardDeviation sq xs = .ok s ∧ 0 ≤ s.val ∧ (s.val = 0 ↔ ∀ x ∈ xs, mean xs = .ok x) ∧
      (0 < spread xs → cond xs ≤ 2 ^ 48 → |(s.val : ℝ) - sd xs| ≤ 2 ^ (-49 : ℤ) * (cond xs + xs.length + 4) * sd xs) := by
  obtain ⟨s, n, m, σ, hs, hn, hnv, hm, gx, hme, hsd, hσ⟩ := run_sd sq hq xs hx h1 h2
  have hg := gam_nonneg xs.length
  have hg1 := gam_le h2
  have hu := ur_pos
  have hu1 := ur_small
  have hN : (1 : ℝ) ≤ xs.length - 1 := by
    have : (2 : ℝ) ≤ xs.length := by exact_mod_cast h1
    linarith
  have hsq := Real.sqrt_pos.2 (show (0 : ℝ) < xs.length - 1 by linarith)
  have hmean := mean_of h1 hs hn hm
  have hq0 : 0 ≤ ‖devs m xs‖ / √(xs.length - 1 : ℝ) := by positivity
  refine ⟨σ, hsd, ?_, ?_, ?_⟩
  · have : 0 ≤ F64.real σ := by
      have := (abs_le.1 hσ).1
      nlinarith
    unfold F64.real at this
    exact_mod_cast this
  · have ex : (∀ x ∈ xs, mean xs = .ok x) ↔ ‖devs m xs‖ = 0 := by
      rw [devs_zero, hmean]
      exact forall₂_congr fun x _ => ⟨fun h => (Res.ok.inj h).symm, fun h => by rw [h]⟩
    rw [ex, ← real_zero]
    constructor
    · intro h
      rw [h, zero_sub, abs_neg, abs_of_nonneg hq0] at hσ
      have h3 : ‖devs m xs‖ / √(xs.length - 1 : ℝ) = 0 := by nlinarith
      rcases div_eq_zero_iff.1 h3 with h4 | h4
      · exact h4
      · exact absurd h4 hsq.ne'
    · intro h
      rw [h] at hσ
      simp only [zero_div, sub_zero, mul_zero] at hσ
      exact abs_nonpos_iff.1 hσ
  · intro hsp hk
    have hnear := devs_near xs m hsp hme
    have hη := eta_lt hk
    have hc0 := cond_nonneg xs
    have hsde : sd xs = spread xs / √(xs.length - 1 : ℝ) := by
      unfold sd spread
      rw [Real.sqrt_div' _ (by linarith)]
    have hd : |‖devs m xs‖ - spread xs| ≤ ((1 + ur) * 2 ^ (-51 : ℤ) * cond xs + ur) * spread xs := by
      have h3 := abs_norm_sub_norm_le (devs m xs) (vec xs fun x => (x.val : ℝ) - avg xs)
      have h4 : devs m xs - (vec xs fun x => (x.val : ℝ) - avg xs) = vec xs fun x => (dv m x : ℝ) - ((x.val : ℝ) - avg xs) := by
        unfold devs; rw [vec_sub]
      rw [h4, vec_norm xs fun x => (x.val : ℝ) - avg xs] at h3
      exact h3.trans hnear
    have hd' : |‖devs m xs‖ / √(xs.length - 1 : ℝ) - sd xs| ≤ ((1 + ur) * 2 ^ (-51 : ℤ) * cond xs + ur) * sd xs := by
      rw [hsde, ← sub_div, abs_div, abs_of_pos hsq, ← mul_div_assoc]
      exact div_le_div_of_nonneg_right hd hsq.le
    have hs0 : 0 < sd xs := by rw [hsde]; positivity
    generalize ‖devs m xs‖ / √(xs.length - 1 : ℝ) = a at *
    generalize sd xs = d at *
    have ha : a ≤ 5 / 4 * d := by
      have h3 := ((abs_le.1 hd').2).trans (mul_le_mul_of_nonneg_right hη hs0.le)
      clear hd' hη hd hnear
      linarith
    change |F64.real σ - d| ≤ _
    rw [show F64.real σ - d = (F64.real σ - a) + (a - d) by ring]
    refine (abs_add_le _ _).trans ?_
    have h5 : (gam xs.length + 6 * ur) * a ≤ (gam xs.length + 6 * ur) * (5 / 4 * d) := mul_le_mul_of_nonneg_left ha (by linarith)
    have e1 : (2 : ℝ) ^ (-49 : ℤ) = 16 * ur := by unfold ur; norm_num
    have e3 : (2 : ℝ) ^ (-51 : ℤ) = 4 * ur := by unfold ur; norm_num
    have e4 : gam xs.length = 2 * ur * xs.length := by unfold gam ur; norm_num; ring
    rw [e1]
    rw [e3] at hd'
    rw [e4] at hσ h5
    have pc : ur * (ur * cond xs) ≤ 1 * (ur * cond xs) := mul_le_mul_of_nonneg_right (by linarith) (by positivity)
    have key : (2 * ur * xs.length + 6 * ur) * (5 / 4) + ((1 + ur) * (4 * ur) * cond xs + ur) ≤ 16 * ur * (cond xs + xs.length + 4) := by
      have un : 0 ≤ ur * (xs.length : ℝ) := by positivity
      have uc : 0 ≤ ur * cond xs := by positivity
      nlinarith
    have := mul_le_mul_of_nonneg_right key hs0.le
    linarith

/-! ## The hypotheses can be met -/

instance : Nonempty F64 := ⟨F64.zero⟩

theorem finite_f64 : Finite F64 := by
  have h : ∀ x : F64, ∃ n : Set.Icc (-(2 : ℤ) ^ 2098) (2 ^ 2098), x.val = (n : ℤ) * 2 ^ (-1074 : ℤ) := by
    intro x
    obtain ⟨n, hn⟩ := rep_grid x.rep
    have h1 : |(n : ℚ)| < 2 ^ (2098 : ℤ) := by
      have h2 := x.fin
      rw [hn, abs_mul, abs_of_pos (zpos _), ← zpow_natCast, ← lt_div_iff₀ (zpos _), ← zpow_sub₀ (by norm_num)] at h2
      exact h2
    have h2 : |n| < 2 ^ 2098 := by
      rw [← Int.cast_abs] at h1
      exact_mod_cast h1
    exact ⟨⟨n, by rw [abs_lt] at h2; exact ⟨h2.1.le, h2.2.le⟩⟩, hn⟩
  choose f hf using h
  exact Finite.of_injective f fun x y hxy => F64.ext (by rw [hf x, hf y, hxy])

/-- There is a correctly rounded square root. -/
theorem correct_exists : ∃ sq, CorrectSqrt sq := by
  have := finite_f64
  have h : ∀ x : F64, ∃ r : F64, ∀ y : F64, |(r.val : ℝ) - √(x.val : ℝ)| ≤ |(y.val : ℝ) - √(x.val : ℝ)| :=
    fun x => Finite.exists_min _
  choose sq hsq using h
  exact ⟨sq, fun x _ y => hsq x y⟩

theorem lit0 : (lit 0).val = 0 := by decide +kernel
theorem lit1 : (lit 1).val = 1 := by decide +kernel
theorem lit2 : (lit 2).val = 2 := by decide +kernel
theorem lit3 : (lit 3).val = 3 := by decide +kernel

theorem tame_lit (x : F64) (h : x.val = 0 ∨ (2 ^ (-10 : ℤ) ≤ |x.val| ∧ |x.val| ≤ 2 ^ (10 : ℤ))) :
    x.val = 0 ∨ (2 ^ (-300 : ℤ) ≤ |x.val| ∧ |x.val| ≤ 2 ^ (400 : ℤ)) := by
  refine h.imp_right fun h => ⟨le_trans ?_ h.1, h.2.trans ?_⟩ <;> rw [zpow_le_iff] <;> norm_num

theorem tame_three (a b c : F64) (ha : a.val = 0 ∨ (2 ^ (-10 : ℤ) ≤ |a.val| ∧ |a.val| ≤ 2 ^ (10 : ℤ)))
    (hb : b.val = 0 ∨ (2 ^ (-10 : ℤ) ≤ |b.val| ∧ |b.val| ≤ 2 ^ (10 : ℤ)))
    (hc : c.val = 0 ∨ (2 ^ (-10 : ℤ) ≤ |c.val| ∧ |c.val| ≤ 2 ^ (10 : ℤ))) : Tame [a, b, c] := by
  intro x hx
  apply tame_lit
  simp only [List.mem_cons, List.not_mem_nil, or_false] at hx
  rcases hx with rfl | rfl | rfl <;> assumption

theorem tame_a : Tame [lit 0, lit 0, lit 3] :=
  tame_three _ _ _ (.inl lit0) (.inl lit0) (.inr (by rw [lit3]; norm_num))

theorem tame_b : Tame [lit 1, lit 2, lit 3] :=
  tame_three _ _ _ (.inr (by rw [lit1]; norm_num)) (.inr (by rw [lit2]; norm_num)) (.inr (by rw [lit3]; norm_num))

theorem len_three (a b c : F64) : 2 ≤ [a, b, c].length ∧ [a, b, c].length ≤ 2 ^ 40 := by simp

theorem spread_a : spread [lit 0, lit 0, lit 3] = √6 := by
  unfold spread avg
  simp only [List.map_cons, List.map_nil, List.sum_cons, List.sum_nil, List.length_cons, List.length_nil, lit0, lit3]
  norm_num

theorem spread_b : spread [lit 1, lit 2, lit 3] = √2 := by
  unfold spread avg
  simp only [List.map_cons, List.map_nil, List.sum_cons, List.sum_nil, List.length_cons, List.length_nil, lit1, lit2, lit3]
  norm_num

theorem cond_a : cond [lit 0, lit 0, lit 3] ≤ 2 ^ 48 := by
  unfold cond
  rw [spread_a, div_le_iff₀ (by positivity)]
  simp only [List.map_cons, List.map_nil, List.sum_cons, List.sum_nil, List.length_cons, List.length_nil, lit0, lit3]
  have h1 : √(3 : ℝ) ≤ √6 := Real.sqrt_le_sqrt (by norm_num)
  have h2 := Real.sqrt_nonneg (6 : ℝ)
  norm_num
  linarith

theorem cond_b : cond [lit 1, lit 2, lit 3] ≤ 2 ^ 48 := by
  unfold cond
  rw [spread_b, div_le_iff₀ (by positivity)]
  simp only [List.map_cons, List.map_nil, List.sum_cons, List.sum_nil, List.length_cons, List.length_nil, lit1, lit2, lit3]
  have h1 : √(3 : ℝ) ≤ √8 := Real.sqrt_le_sqrt (by norm_num)
  have h3 : √(8 : ℝ) = 2 * √2 := by
    rw [show (8 : ℝ) = 2 ^ 2 * 2 by norm_num, Real.sqrt_mul (by norm_num), Real.sqrt_sq (by norm_num)]
  have h2 := Real.sqrt_nonneg (2 : ℝ)
  norm_num
  linarith

example : ∃ sq, CorrectSqrt sq ∧ ∃ r, correlation sq [lit 0, lit 0, lit 3] [lit 1, lit 2, lit 3] = .ok r ∧
    |(r.val : ℝ) - rho [lit 0, lit 0, lit 3] [lit 1, lit 2, lit 3]| ≤
      2 ^ (-49 : ℤ) * (cond [lit 0, lit 0, lit 3] + cond [lit 1, lit 2, lit 3] + [lit 0, lit 0, lit 3].length + 4) := by
  obtain ⟨sq, hq⟩ := correct_exists
  have ha := tame_a
  have hb := tame_b
  have sa := spread_a
  have sb := spread_b
  have ca := cond_a
  have cb := cond_b
  generalize lit 0 = a at *
  generalize lit 1 = b at *
  generalize lit 2 = c at *
  generalize lit 3 = d at *
  exact ⟨sq, hq, C99_correlation_error sq hq _ _ ha hb rfl (len_three _ _ _).1 (len_three _ _ _).2 (by rw [sa]; positivity)
    (by rw [sb]; positivity) ca cb⟩

example : ∃ sq, CorrectSqrt sq ∧ correlation sq [lit 0, lit 0, lit 3] [lit 1, lit 2, lit 3] ≠ .nonfinite := by
  obtain ⟨sq, hq⟩ := correct_exists
  have ha := tame_a
  have hb := tame_b
  generalize lit 0 = a at *
  generalize lit 1 = b at *
  generalize lit 2 = c at *
  generalize lit 3 = d at *
  exact ⟨sq, hq, (C99_correlation sq hq _ _ ha hb rfl (len_three _ _ _).1 (len_three _ _ _).2).1⟩

example : ∃ sq, CorrectSqrt sq ∧ ∃ s, standardDeviation sq [lit 0, lit 0, lit 3] = .ok s ∧
    |(s.val : ℝ) - sd [lit 0, lit 0, lit 3]| ≤
      2 ^ (-49 : ℤ) * (cond [lit 0, lit 0, lit 3] + [lit 0, lit 0, lit 3].length + 4) * sd [lit 0, lit 0, lit 3] := by
  obtain ⟨sq, hq⟩ := correct_exists
  have ha := tame_a
  have sa := spread_a
  have ca := cond_a
  generalize lit 0 = a at *
  generalize lit 3 = d at *
  obtain ⟨s, h1, -, -, h2⟩ := C99_standard_deviation sq hq _ ha (len_three _ _ _).1 (len_three _ _ _).2
  exact ⟨sq, hq, s, h1, h2 (by rw [sa]; positivity) ca⟩

/-! ## Defects -/

/-- The double nearest to the square root of 3. -/
def root3 : F64 := lit (3900231685776981 / 2251799813685248)

theorem root3_val : root3.val = 3900231685776981 / 2251799813685248 := by decide +kernel

theorem sqrt_three (sq : F64 → F64) (hq : CorrectSqrt sq) : sq (lit 3) = root3 := by
  have h1 := hq (lit 3) (by rw [lit3]; norm_num) root3
  rw [root3_val, lit3] at h1
  push_cast at h1
  have hlo : (3900231685776981 / 2251799813685248 : ℝ) ≤ √3 := Real.le_sqrt_of_sq_le (by norm_num)
  have hhi : √3 ≤ (3900231685776981 / 2251799813685248 : ℝ) + 24 / 100 * (1 / 2251799813685248) :=
    Real.sqrt_le_iff.2 ⟨by norm_num, by norm_num⟩
  have h2 : |((sq (lit 3)).val : ℝ) - 3900231685776981 / 2251799813685248| < 1 / 4503599627370496 := by
    have h3 : |(3900231685776981 / 2251799813685248 : ℝ) - √3| ≤ 24 / 100 * (1 / 2251799813685248) := by
      rw [abs_le]; constructor <;> linarith
    calc |((sq (lit 3)).val : ℝ) - 3900231685776981 / 2251799813685248|
        = |(((sq (lit 3)).val : ℝ) - √3) + (√3 - 3900231685776981 / 2251799813685248)| := by congr 1; ring
      _ ≤ |((sq (lit 3)).val : ℝ) - √3| + |√3 - 3900231685776981 / 2251799813685248| := abs_add_le _ _
      _ < 1 / 4503599627370496 := by
        rw [abs_sub_comm √3]
        norm_num at h1 h3 ⊢
        linarith
  have h5 : |(sq (lit 3)).val - 3900231685776981 / 2251799813685248| < 1 / 4503599627370496 := by
    have : ((|(sq (lit 3)).val - 3900231685776981 / 2251799813685248| : ℚ) : ℝ) < ((1 / 4503599627370496 : ℚ) : ℝ) := by
      push_cast; exact h2
    exact_mod_cast this
  apply F64.ext
  rw [root3_val]
  have h6 : (2 : ℚ) ^ (0 : ℤ) ≤ |(sq (lit 3)).val| := by
    rw [zpow_zero]
    refine le_trans ?_ (le_abs_self _)
    have := (abs_lt.1 h5).1
    linarith
  obtain ⟨n, hn⟩ := rep_big (sq (lit 3)).rep 0 (.inr h6)
  have e : (2 : ℚ) ^ (0 - 52 : ℤ) = 1 / 4503599627370496 := by norm_num
  rw [e] at hn
  rw [hn] at h5 ⊢
  have h7 : |(n : ℚ) - 7800463371553962| < 1 := by
    have : (n : ℚ) * (1 / 4503599627370496) - 3900231685776981 / 2251799813685248 = ((n : ℚ) - 7800463371553962) * (1 / 4503599627370496) := by
      ring
    rw [this, abs_mul, abs_of_pos (by norm_num : (0 : ℚ) < 1 / 4503599627370496)] at h5
    linarith
  have h8 : n = 7800463371553962 := by
    have h9 : |n - 7800463371553962| < 1 := by exact_mod_cast h7
    have := Int.abs_lt_one_iff.1 h9
    omega
  rw [h8]; norm_num

theorem over_cov : covariance [lit 0, lit 0, lit 3] [lit 0, lit 0, lit 3] = .ok (lit 3) := by decide +kernel

theorem over_var : variance [lit 0, lit 0, lit 3] = .ok (lit 3) := by decide +kernel

theorem over_div : (do (lit 3).div (← root3.mul root3)) = some (lit (4503599627370497 / 4503599627370496)) := by decide +kernel

/-- C99 (defect): a correlation can exceed 1: with any correctly rounded square root, the correlation of `[0, 0, 3]` with itself is
`1 + 2^-52`. -/
theorem C99_correlation_over_one (sq : F64 → F64) (hq : CorrectSqrt sq) :
    ∃ r, correlation sq [lit 0, lit 0, lit 3] [lit 0, lit 0, lit 3] = .ok r ∧ 1 < r.val := by
  refine ⟨lit (4503599627370497 / 4503599627370496), ?_, by decide +kernel⟩
  unfold correlation standardDeviation
  rw [over_cov, over_var]
  simp only [List.length_cons, List.length_nil]
  rw [if_neg (by norm_num), sqrt_three sq hq]
  simp only
  rw [if_neg (by rw [root3_val]; norm_num), over_div]
  rfl

theorem dv_sign (m x : F64) (h : m ≠ x) : (dv m x : ℝ) ≠ 0 ∧ ((dv m x : ℝ) < 0 ↔ x.val < m.val) := by
  have h1 := rnd_sub_neg x.rep m.rep
  have h2 := rnd_sub_pos x.rep m.rep
  have h3 : m.val ≠ x.val := fun hc => h (F64.ext hc)
  unfold dv
  constructor
  · rw [Ne, Rat.cast_eq_zero]
    intro hc
    rcases lt_or_gt_of_ne h3 with h4 | h4
    · have := h2.2 h4; rw [hc] at this; exact lt_irrefl _ this
    · have := h1.2 h4; rw [hc] at this; exact lt_irrefl _ this
  · rw [← h1]; exact_mod_cast Iff.rfl

/-- C99 (defect): the correlation of constant lists should panic, for their standard deviations are zero. If the computed means of two
constant lists are not exactly the constants, the correlation is instead a number next to 1, or next to -1 if one mean is rounded up
and the other down. -/
theorem C99_constant (sq : F64 → F64) (hq : CorrectSqrt sq) (n : ℕ) (h1 : 2 ≤ n) (h2 : n ≤ 2 ^ 40) (x y mx my : F64)
    (hx : Tame [x]) (hy : Tame [y]) (hmx : mean (List.replicate n x) = .ok mx) (hmy : mean (List.replicate n y) = .ok my)
    (nx : mx ≠ x) (ny : my ≠ y) :
    sd (List.replicate n x) = 0 ∧ sd (List.replicate n y) = 0 ∧
    ∃ r, correlation sq (List.replicate n x) (List.replicate n y) = .ok r ∧
      |(r.val : ℝ) - if x.val < mx.val ↔ y.val < my.val then 1 else -1| ≤ (n + 4) * 2 ^ (-50 : ℤ) := by
  have hn0 : (n : ℝ) ≠ 0 := by
    have : n ≠ 0 := by omega
    exact_mod_cast this
  have hsd : ∀ z : F64, sd (List.replicate n z) = 0 := by
    intro z
    unfold sd avg
    simp only [List.map_replicate, List.sum_replicate, nsmul_eq_mul, List.length_replicate]
    rw [mul_div_cancel_left₀ _ hn0]
    simp
  refine ⟨hsd x, hsd y, ?_⟩
  have tame : ∀ z : F64, Tame [z] → Tame (List.replicate n z) := by
    intro z hz w hw
    rw [List.eq_of_mem_replicate hw]
    exact hz z List.mem_cons_self
  obtain ⟨mx', my', e1, e2, -, -, -, hok⟩ := run_three sq hq (List.replicate n x) (List.replicate n y) (tame x hx) (tame y hy)
    (by simp) (by simpa using h1) (by simpa using h2)
  rw [hmx] at e1
  rw [hmy] at e2
  cases e1
  cases e2
  have hnorm : ∀ m z : F64, ‖devs m (List.replicate n z)‖ = √n * |(dv m z : ℝ)| := by
    intro m z
    unfold devs
    rw [vec_norm]
    simp only [List.map_replicate, List.sum_replicate, nsmul_eq_mul]
    rw [Real.sqrt_mul (by positivity), Real.sqrt_sq_eq_abs]
  obtain ⟨a0, a1⟩ := dv_sign mx x nx
  obtain ⟨b0, b1⟩ := dv_sign my y ny
  have hs : 0 < √(n : ℝ) := Real.sqrt_pos.2 (lt_of_le_of_ne (by positivity) (Ne.symm hn0))
  obtain ⟨r, hr, hre⟩ := hok (by rw [hnorm]; exact mul_ne_zero hs.ne' (abs_ne_zero.2 a0))
    (by rw [hnorm]; exact mul_ne_zero hs.ne' (abs_ne_zero.2 b0))
  refine ⟨r, hr, ?_⟩
  rw [hnorm, hnorm, vec_inner, List.zip_replicate, min_self] at hre
  simp only [List.map_replicate, List.sum_replicate, nsmul_eq_mul, List.length_replicate] at hre
  rw [if_congr (iff_congr a1 b1).symm rfl rfl]
  have e3 : (n : ℝ) * ((dv mx x : ℝ) * (dv my y : ℝ)) / (√n * |(dv mx x : ℝ)| * (√n * |(dv my y : ℝ)|)) =
      if (dv mx x : ℝ) < 0 ↔ (dv my y : ℝ) < 0 then 1 else -1 := by
    rw [show √(n : ℝ) * |(dv mx x : ℝ)| * (√n * |(dv my y : ℝ)|) = (√n * √n) * (|(dv mx x : ℝ)| * |(dv my y : ℝ)|) by ring,
      Real.mul_self_sqrt (by positivity), mul_div_mul_left _ _ hn0]
    generalize (dv mx x : ℝ) = a at *
    generalize (dv my y : ℝ) = b at *
    rcases lt_or_gt_of_ne a0 with ha | ha <;> rcases lt_or_gt_of_ne b0 with hb | hb
    · rw [if_pos (by simp [ha, hb]), abs_of_neg ha, abs_of_neg hb, neg_mul_neg, div_self (mul_ne_zero a0 b0)]
    · rw [if_neg (by simp [ha, hb.le]), abs_of_neg ha, abs_of_pos hb, neg_mul, div_neg, div_self (mul_ne_zero a0 b0)]
    · rw [if_neg (by simp [hb, ha.le]), abs_of_pos ha, abs_of_neg hb, mul_neg, div_neg, div_self (mul_ne_zero a0 b0)]
    · rw [if_pos (iff_of_false (not_lt.2 ha.le) (not_lt.2 hb.le)), abs_of_pos ha, abs_of_pos hb, div_self (mul_ne_zero a0 b0)]
  rw [e3] at hre
  exact hre

theorem const_means : ∃ mx my, mean (List.replicate 3 (lit (1 / 10))) = .ok mx ∧ mean (List.replicate 3 (lit (7 / 10))) = .ok my ∧
    (lit (1 / 10)).val < mx.val ∧ my.val < (lit (7 / 10)).val :=
  ⟨lit (7205759403792795 / 72057594037927936), lit (6305039478318693 / 9007199254740992), by decide +kernel, by decide +kernel,
    by decide +kernel, by decide +kernel⟩

theorem tame_tenths : Tame [lit (1 / 10)] ∧ Tame [lit (7 / 10)] := by
  have h1 : 2 ^ (-10 : ℤ) ≤ |(lit (1 / 10)).val| ∧ |(lit (1 / 10)).val| ≤ 2 ^ (10 : ℤ) := by decide +kernel
  have h2 : 2 ^ (-10 : ℤ) ≤ |(lit (7 / 10)).val| ∧ |(lit (7 / 10)).val| ≤ 2 ^ (10 : ℤ) := by decide +kernel
  have key : ∀ z : F64, 2 ^ (-10 : ℤ) ≤ |z.val| ∧ |z.val| ≤ 2 ^ (10 : ℤ) → Tame [z] := by
    intro z hz w hw
    rw [List.mem_singleton.1 hw]
    exact tame_lit z (.inr hz)
  exact ⟨key _ h1, key _ h2⟩

/-- C99 (defect): the correlation of `[0.1, 0.1, 0.1]` and `[0.7, 0.7, 0.7]` is -1, up to rounding, instead of a panic. -/
theorem C99_constant_minus_one (sq : F64 → F64) (hq : CorrectSqrt sq) :
    ∃ r, correlation sq (List.replicate 3 (lit (1 / 10))) (List.replicate 3 (lit (7 / 10))) = .ok r ∧
      |(r.val : ℝ) - -1| ≤ 2 ^ (-47 : ℤ) := by
  obtain ⟨mx, my, h1, h2, h3, h4⟩ := const_means
  obtain ⟨t1, t2⟩ := tame_tenths
  generalize lit (1 / 10) = x at *
  generalize lit (7 / 10) = y at *
  obtain ⟨-, -, r, hr, hre⟩ := C99_constant sq hq 3 (by norm_num) (by norm_num) x y mx my t1 t2 h1 h2
    (by rintro rfl; exact lt_irrefl _ h3) (by rintro rfl; exact lt_irrefl _ h4)
  refine ⟨r, hr, ?_⟩
  rw [if_neg (by simp [h3, h4.le])] at hre
  refine hre.trans ?_
  norm_num

example : ∃ sq, CorrectSqrt sq ∧ ∃ r, correlation sq (List.replicate 3 (lit (1 / 10))) (List.replicate 3 (lit (7 / 10))) = .ok r ∧
    |(r.val : ℝ) - -1| ≤ 2 ^ (-47 : ℤ) := by
  obtain ⟨sq, hq⟩ := correct_exists
  exact ⟨sq, hq, C99_constant_minus_one sq hq⟩

example : ∃ sq, CorrectSqrt sq ∧ ∃ r, correlation sq [lit 0, lit 0, lit 3] [lit 0, lit 0, lit 3] = .ok r ∧ 1 < r.val := by
  obtain ⟨sq, hq⟩ := correct_exists
  exact ⟨sq, hq, C99_correlation_over_one sq hq⟩

end Verif.Float.Corr
