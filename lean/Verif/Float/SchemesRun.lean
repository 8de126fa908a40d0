import Verif.Float.SchemesLemmas
import Verif.Float.SimulationProps

/-! Helper lemmas: Milstein steps without correction, and the times of the middle of the steps. -/

namespace Verif.Float.Sim

open Verif.Float.Fft (ur mu top rnd_real add_real sub_real toF64_total ur_pos mu_pos ur_le)

/-! ## Values too large for `1e-5` -/

theorem rep_multiple_of_ge {y : ℚ} (h : Rep y) (hy : 2 ^ (37 : ℤ) ≤ |y|) : ∃ n : ℤ, y = n * 2 ^ (-15 : ℤ) := by
  have h0 : y ≠ 0 := by rintro rfl; norm_num at hy
  obtain ⟨n, hn⟩ := rep_multiple h h0
  have h1 : 37 < ilog2 |y| + 1 := (zpow_lt_iff _ _).1 (hy.trans_lt (ilog2_abs y h0).2)
  have h2 : -15 ≤ ulpExp y := by
    have := le_max_left (ilog2 |y| - 52) (-1074)
    unfold ulpExp
    omega
  obtain ⟨j, hj⟩ := Int.eq_ofNat_of_zero_le (show 0 ≤ ulpExp y - -15 by omega)
  refine ⟨n * 2 ^ j, ?_⟩
  rw [hn, show ulpExp y = (j : ℤ) + -15 by omega, zpow_add₀ (by norm_num)]
  push_cast
  rw [zpow_natCast, mul_assoc]

/-- Adding at most `2^-16` to a value of `2^38` or more changes nothing. -/
theorem absorb {x d : ℚ} (hx : Rep x) (h : 2 ^ (38 : ℤ) ≤ |x|) (hd : |d| < 2 ^ (-16 : ℤ)) : rnd (x + d) = x := by
  have h1 := rnd_nearest (x + d) hx
  rw [add_sub_cancel_left] at h1
  have h2 : |x - rnd (x + d)| < 2 ^ (-15 : ℤ) := by
    have := abs_sub_le x (x + d) (rnd (x + d))
    rw [sub_add_cancel_left, abs_neg] at this
    have e : (2 : ℚ) ^ (-15 : ℤ) = 2 ^ (-16 : ℤ) + 2 ^ (-16 : ℤ) := by norm_num
    linarith
  have h3 : (2 : ℚ) ^ (37 : ℤ) ≤ |rnd (x + d)| := by
    have := abs_sub_abs_le_abs_sub x (rnd (x + d))
    norm_num at h h2 ⊢
    linarith
  obtain ⟨m, hm⟩ := rep_multiple_of_ge hx (le_trans (by norm_num) h)
  obtain ⟨n, hn⟩ := rep_multiple_of_ge (rep_rnd (x + d)) h3
  have h4 : |((m - n : ℤ) : ℚ)| < 1 := by
    have e : x - rnd (x + d) = ((m - n : ℤ) : ℚ) * 2 ^ (-15 : ℤ) := by rw [hm] at hn ⊢; rw [hn]; push_cast; ring
    rw [e, abs_mul, abs_of_pos (zpos _)] at h2
    exact lt_of_mul_lt_mul_right (by rw [one_mul]; exact h2) (zpos _).le
  have h5 : m - n = 0 := by
    rw [← Int.cast_abs] at h4
    exact Int.abs_lt_one_iff.1 (by exact_mod_cast h4)
  rw [hn, hm, show m = n by omega]

/-- `1e-5`. -/
theorem tiny_some : ∃ e, toF64 (1 / 100000) = some e ∧ 0 < e.val ∧ e.val < 2 ^ (-16 : ℤ) := by
  have h : ((toF64 (1 / 100000)).map fun e => decide (0 < e.val ∧ e.val < 2 ^ (-16 : ℤ))) = some true := by decide +kernel
  obtain ⟨e, he, h1⟩ := Option.map_eq_some_iff.1 h
  exact ⟨e, he, of_decide_eq_true h1⟩

theorem add_absorb {x e : F64} (h : 2 ^ (38 : ℤ) ≤ |x.val|) (he : |e.val| < 2 ^ (-16 : ℤ)) : x.add e = some x ∧ x.sub e = some x := by
  have key : ∀ d : ℚ, |d| < 2 ^ (-16 : ℤ) → toF64 (x.val + d) = some x := by
    intro d hd
    have hr := absorb x.rep h hd
    obtain ⟨r, h1, h2⟩ := toF64_isSome (x := x.val + d) (by rw [hr]; exact x.fin)
    rw [h1]
    congr 1
    exact F64.ext (h2.trans hr)
  refine ⟨key _ he, ?_⟩
  unfold F64.sub
  rw [sub_eq_add_neg]
  exact key _ (by rw [abs_neg]; exact he)

/-- The two values at which the diffusion is evaluated are finite. -/
theorem bump_some {x e : F64} (he : |e.val| < 2 ^ (-16 : ℤ)) : ∃ a b, x.add e = some a ∧ x.sub e = some b := by
  by_cases h : 2 ^ (38 : ℤ) ≤ |x.val|
  · exact ⟨x, x, add_absorb h he⟩
  · have h1 : |x.val| < 2 ^ (38 : ℤ) := not_le.1 h
    have key : ∀ d : ℚ, |d| < 2 ^ (-16 : ℤ) → ∃ r, toF64 (x.val + d) = some r := by
      intro d hd
      have h2 : |x.val + d| ≤ 2 ^ 39 := by
        refine (abs_add_le _ _).trans ?_
        norm_num at h1 hd ⊢
        linarith
      have h3 : |rnd (x.val + d)| ≤ 2 ^ 39 := rnd_abs_le ⟨1, 39, by norm_num, by norm_num, by norm_num⟩ h2
      obtain ⟨r, hr, _⟩ := toF64_isSome (h3.trans_lt (pow_lt_pow_right₀ (by norm_num) (by norm_num)))
      exact ⟨r, hr⟩
    obtain ⟨a, ha⟩ := key _ he
    obtain ⟨b, hb⟩ := key (-e.val) (by rw [abs_neg]; exact he)
    exact ⟨a, b, ha, by unfold F64.sub; rw [sub_eq_add_neg]; exact hb⟩

theorem zero_exact {q : ℚ} (h : q = 0) : toF64 q = some F64.zero := by rw [h]; exact toF64_val F64.zero

/-- Without a difference between the two diffusions there is no correction. -/
theorem milstein_plain {P : Process} {dt t dw x : F64} (hdt : 0 ≤ dt.val) (hdw : |dw.val| ≤ 2 ^ 500)
    (h : ∀ e a, toF64 (1 / 100000) = some e → x.add e = some a ∨ x.sub e = some a → P.diffusion a t = P.diffusion x t) :
    milsteinStep P dt t dw x = unscaledStep P dt t dw x := by
  obtain ⟨e, he, he1, he2⟩ := tiny_some
  obtain ⟨a, b, ha, hb⟩ := bump_some (x := x) (e := e) (by rw [abs_of_pos he1]; exact he2)
  obtain ⟨two, h2, h2v⟩ : ∃ two, toF64 2 = some two ∧ two.val ≠ 0 := by
    have h : ((toF64 2).map fun e => decide (e.val ≠ 0)) = some true := by decide +kernel
    obtain ⟨e, he, h1⟩ := Option.map_eq_some_iff.1 h
    exact ⟨e, he, of_decide_eq_true h1⟩
  obtain ⟨hf, hhf, _⟩ := half_real
  have hz0 : F64.zero.val = 0 := rfl
  obtain ⟨sq, hsq, hsqv⟩ : ∃ sq, dw.mul dw = some sq ∧ sq.val = rnd (dw.val * dw.val) := by
    refine toF64_isSome ?_
    have h1 : |dw.val * dw.val| ≤ 2 ^ 1000 := by
      rw [abs_mul]
      calc |dw.val| * |dw.val| ≤ 2 ^ 500 * 2 ^ 500 := mul_le_mul hdw hdw (abs_nonneg _) (by positivity)
        _ = 2 ^ 1000 := by rw [← pow_add]
    have h2 : Rep ((2 : ℚ) ^ 1000) := ⟨1, 1000, by push_cast; rw [one_mul]; exact (zpow_natCast (2 : ℚ) 1000).symm, by norm_num, by norm_num⟩
    exact (rnd_abs_le h2 h1).trans_lt (pow_lt_pow_right₀ (by norm_num) (by norm_num))
  have hsq0 : 0 ≤ sq.val := by rw [hsqv]; exact rnd_nonneg (mul_self_nonneg _)
  obtain ⟨df, hdf⟩ : ∃ df, sq.sub dt = some df := by
    have : |rnd (sq.val - dt.val)| < 2 ^ 1024 := by
      rcases le_total dt.val sq.val with h | h
      · refine fin_of_le sq ?_
        rw [abs_of_nonneg (by linarith), abs_of_nonneg hsq0]; linarith
      · refine fin_of_le dt ?_
        rw [abs_of_nonpos (by linarith), abs_of_nonneg hdt]; linarith
    obtain ⟨r, hr, _⟩ := toF64_isSome this
    exact ⟨r, hr⟩
  have hA := h e a he (Or.inl ha)
  have hB := h e b he (Or.inr hb)
  have z2 : F64.zero.div two = some F64.zero := by
    unfold F64.div; rw [if_neg h2v]; exact zero_exact (by rw [hz0, zero_div])
  have z3 : F64.zero.mul e = some F64.zero := zero_exact (by rw [hz0, zero_mul])
  have z5 : F64.zero.mul df = some F64.zero := zero_exact (by rw [hz0, zero_mul])
  have z6 : hf.mul F64.zero = some F64.zero := zero_exact (by rw [hz0, mul_zero])
  clear h hsqv hdw
  unfold milsteinStep unscaledStep
  rw [he, h2, hhf, hsq]
  simp only [Option.bind_eq_bind, Option.bind_some, ha, hb, hA, hB, hdf]
  generalize P.drift x t = od
  generalize P.diffusion x t = os
  cases od with
  | none => rfl
  | some d =>
    cases os with
    | none => rfl
    | some s =>
      have z1 : s.sub s = some F64.zero := zero_exact (sub_self _)
      have z4 : s.mul F64.zero = some F64.zero := zero_exact (by rw [hz0, mul_zero])
      simp only [Option.bind_some, z1, z2, z3, z4, z5, z6, add_zero_some]
      generalize d.mul dt = op
      cases op with
      | none => rfl
      | some p =>
        simp only [Option.bind_some]
        generalize x.add p = oq
        cases oq with
        | none => rfl
        | some q =>
          simp only [Option.bind_some]
          generalize s.mul dw = ow
          cases ow with
          | none => rfl
          | some w =>
            simp only [Option.bind_some]
            generalize q.add w = orr
            cases orr <;> rfl

/-! ## The unscaled Euler-Maruyama scheme -/

theorem one_some : ∃ one, toF64 1 = some one ∧ one.val = 1 := by
  obtain ⟨one, h1, h2⟩ := toF64_isSome (x := 1) (by rw [rnd_rep rep_one, abs_one]; exact one_lt_pow₀ (by norm_num) (by norm_num))
  exact ⟨one, h1, by rw [h2, rnd_rep rep_one]⟩

theorem unscaled_eq {P : Process} {dt one t z x : F64} (h : one.val = 1) : unscaledStep P dt t z x = emStep P dt one t z x := by
  have h1 : ∀ b : F64, b.mul one = some b := fun b => by unfold F64.mul; rw [h, mul_one]; exact toF64_val b
  unfold unscaledStep emStep
  cases P.drift x t with
  | none => rfl
  | some a =>
    simp only [Option.bind_eq_bind, Option.bind_some]
    cases a.mul dt with
    | none => rfl
    | some p =>
      simp only [Option.bind_some]
      cases x.add p with
      | none => rfl
      | some q =>
        simp only [Option.bind_some]
        cases P.diffusion x t with
        | none => rfl
        | some b =>
          simp only [Option.bind_some, h1]
          cases b.mul z with
          | none => rfl
          | some w =>
            simp only [Option.bind_some]
            cases q.add w with
            | none => rfl
            | some r => simp only [Option.bind_some, add_zero_some]

theorem runWith_unscaled {P : Process} {dt one x0 : F64} {times : List F64} {z : ℕ → F64} (h : one.val = 1) (n : ℕ) :
    runWith (unscaledStep P dt) times z x0 n = runPath P dt one times z x0 n := by
  induction n with
  | zero => rfl
  | succ n ih => simp only [runWith, runPath, ih, unscaled_eq h]

/-- Two steps that agree for the noise at hand give the same path. -/
theorem runWith_congr {f g : F64 → F64 → F64 → Option F64} {times : List F64} {z : ℕ → F64} {x0 : F64} {n : ℕ}
    (h : ∀ k < n, ∀ t x, f t (z k) x = g t (z k) x) : runWith f times z x0 n = runWith g times z x0 n := by
  induction n with
  | zero => rfl
  | succ n ih =>
    simp only [runWith]
    rw [ih fun k hk => h k (by omega)]
    simp only [h n (by omega)]

theorem Computes.tracks {f : F64 → F64 → Option F64} {b : F64 → ℝ → ℝ} {B C η η' : ℝ} (h : Computes f b B C η) (hη : η ≤ η') :
    Tracks f b B C η' := by
  refine ⟨⟨h.slope.1, h.slope.2.trans (by norm_num)⟩, ⟨h.offset.1, h.offset.2.trans (pow_le_pow_right₀ (by norm_num) (by norm_num))⟩,
    h.lipschitz, h.growth, fun x t hx => ?_⟩
  obtain ⟨y, h1, h2⟩ := h.computed x t hx
  refine ⟨y, h1, h2.trans (add_le_add_left (mul_le_mul_of_nonneg_right hη ?_) _)⟩
  exact (abs_nonneg _).trans (h.growth t (F64.real x))

end Verif.Float.Sim
