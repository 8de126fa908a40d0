import Verif.Float.FdExplicit

/-! Property C96: finite-difference prices in double precision. -/

namespace Verif.Float.Fd

open X64
open Verif.Options (TypeFlag ExerciseFlag dateMin dateMax)

/-- A platform for the examples: a coarse `exp`, the logarithm constantly 0 (right for a spot price of 1), the square root constantly 2
(right for an expiry of 4 years). -/
def someLibm : Libm := ⟨fun x => if x.lt (c 0) then c (1 / 2) else c 2, fun _ => c 0, fun _ => c 2⟩

/-- A put with spot and strike 1, rate 6.25 %, volatility 50 %, four years, `n` price steps and `k` time steps. -/
def somePricer (n k : ℕ) (e : ExerciseFlag) : Pricer := ⟨c 1, c 1, c (1 / 16), c (1 / 2), c 4, k, n, .put, e⟩

theorem someOrdinary (n k : ℕ) (e : ExerciseFlag) (h1 : 100 ≤ n) (h2 : n ≤ 2 ^ 20) (h3 : 1 ≤ k) (h4 : k ≤ 5 * n ^ 2) :
    Ordinary someLibm (somePricer n k e) := by
  obtain ⟨r, r1, r2⟩ : ∃ a, c (1 / 16) = fin a ∧ a.val = 1 / 16 :=
    c_rep (by have := rep_of_le 1 (-4) (by norm_num) (by norm_num); norm_num at this ⊢; exact this) (by norm_num)
  obtain ⟨s, s1, s2⟩ := c_half
  obtain ⟨t, t1, t2⟩ : ∃ a, c 4 = fin a ∧ a.val = 4 := by
    have hr : Rep 4 := by simpa using rep_of_le 4 0 (by norm_num) (by norm_num)
    obtain ⟨a, a1, a2⟩ := fin_of_le (q := 4) (b := 4) (by norm_num) (by norm_num)
    exact ⟨a, a1, by rw [a2, rnd_rep hr]⟩
  obtain ⟨l, l1, l2⟩ : ∃ a, c 0 = fin a ∧ a.val = 0 :=
    c_rep (by simpa using rep_of_le 0 0 (by norm_num) (by norm_num)) (by norm_num)
  obtain ⟨q, q1, q2⟩ := c_two
  refine ⟨⟨r, s, t, l, q, ?_, ?_, ?_, ?_, ?_, ?_⟩, ?_, ?_, ?_, ?_⟩
  · exact r1
  · exact s1
  · exact t1
  · simp only [someLibm]
    exact l1
  · simp only [someLibm]
    exact q1
  · have hn : (100:ℚ) ≤ n := by exact_mod_cast h1
    rw [r2, s2, t2, l2, q2]
    norm_num [somePricer]
    nlinarith
  · show 4 ≤ n; omega
  · exact h2
  · exact h3
  · exact h4

/-- C96 (defect): `implicit` answers NaN for ordinary options as soon as the grid is fine: the determinants behind its matrix inverse
grow by the factor `1 + N^2 / (201 M)` per price step and overflow to infinity, and infinity minus infinity is NaN. -/
theorem C96_implicit_nan (m : Libm) (o : Pricer) (h : Ordinary m o) (hE : o.exerciseFlag ≠ .american dateMin dateMax)
    (hbig : (2:ℚ) ^ 1024 ≤ (1 + (o.priceSteps : ℚ) ^ 2 / (201 * o.timeSteps)) ^ (o.priceSteps - 4)) : o.implicit m = some nan := by
  obtain ⟨X, Y, hx, hy, h1, h2, h3, h4, _⟩ := Pricer.coefficients h
  obtain ⟨d, p, hd, hp, g⟩ := implicit_grows h1 h2 h3
  have hN := h.steps.1
  exact Pricer.run_nan (by omega) h.steps.2.2.1 (Pricer.implicitStep_nan hx hy hd hp g (o.priceSteps - 4)
    (hbig.trans (pow_le_pow_left₀ (by positivity) (by linarith) _)) (by omega)) hE

/-- C96 (defect): so does `crank_nicolson`, on grids a little finer. -/
theorem C96_crank_nicolson_nan (m : Libm) (o : Pricer) (h : Ordinary m o) (hE : o.exerciseFlag ≠ .american dateMin dateMax)
    (hbig : (2:ℚ) ^ 1024 ≤ (1 + (o.priceSteps : ℚ) ^ 2 / (402 * o.timeSteps)) ^ (o.priceSteps - 4)) :
    o.crankNicolson m = some nan := by
  obtain ⟨X, Y, hx, hy, h1, h2, h3, h4, _⟩ := Pricer.coefficients h
  obtain ⟨d, p, hd, hp, g⟩ := cn_grows h1 h2 h3
  have hN := h.steps.1
  have e : (o.priceSteps : ℚ) ^ 2 / (402 * o.timeSteps) = (o.priceSteps : ℚ) ^ 2 / (201 * o.timeSteps) / 2 := by
    rw [div_div]; congr 1; ring
  exact Pricer.run_nan (by omega) h.steps.2.2.1 (Pricer.cnStep_nan hx hy hd hp g (o.priceSteps - 4)
    (hbig.trans (pow_le_pow_left₀ (by positivity) (by rw [e]; linarith) _)) (by omega)) hE

theorem square_big {N M : ℕ} (h1 : 800 ≤ N) (hM : 1 ≤ M) (h2 : M ≤ N) :
    (2:ℚ) ^ 1024 ≤ (1 + (N : ℚ) ^ 2 / (402 * M)) ^ (N - 4) := by
  have hM0 : (0:ℚ) < M := by exact_mod_cast hM
  have hN : (800:ℚ) ≤ N := by exact_mod_cast h1
  have hMN : (M:ℚ) ≤ N := by exact_mod_cast h2
  have b : (5 / 2 : ℚ) ≤ 1 + (N : ℚ) ^ 2 / (402 * M) := by
    have : (3 / 2 : ℚ) ≤ (N : ℚ) ^ 2 / (402 * M) := by
      rw [le_div_iff₀ (by positivity)]
      nlinarith
    linarith
  refine le_trans ?_ (pow_le_pow_left₀ (by norm_num) b _)
  refine le_trans ?_ (pow_le_pow_right₀ (by norm_num) (show 788 ≤ N - 4 by omega))
  have : (2:ℚ) ^ 1024 = (2 ^ 26) ^ 39 * 2 ^ 10 := by rw [← pow_mul, ← pow_add]
  rw [this]
  have g : (2:ℚ) ^ 26 ≤ (5 / 2) ^ 20 := by norm_num
  have g' := pow_le_pow_left₀ (by positivity) g 39
  refine (mul_le_mul g' (show (2:ℚ) ^ 10 ≤ (5 / 2) ^ 8 by norm_num) (by positivity) (by positivity)).trans ?_
  rw [← pow_mul, ← pow_add]

/-- C96 (defect): with 800 price steps or more and no more time steps than price steps, both implicit methods answer NaN for every
ordinary European option. -/
theorem C96_square_grids (m : Libm) (o : Pricer) (h : Ordinary m o) (hE : o.exerciseFlag ≠ .american dateMin dateMax)
    (hN : 800 ≤ o.priceSteps) (hM : o.timeSteps ≤ o.priceSteps) : o.implicit m = some nan ∧ o.crankNicolson m = some nan := by
  have hb := square_big hN h.steps.2.2.1 hM
  refine ⟨C96_implicit_nan m o h hE (hb.trans (pow_le_pow_left₀ (by positivity) ?_ _)), C96_crank_nicolson_nan m o h hE hb⟩
  have : (0:ℚ) < o.timeSteps := by exact_mod_cast h.steps.2.2.1
  gcongr
  norm_num

/-- An at-the-money put with a thousand steps each way. -/
example : (somePricer 1000 1000 (.european 0)).implicit someLibm = some nan ∧ (somePricer 1000 1000 (.european 0)).crankNicolson someLibm = some nan :=
  C96_square_grids _ _ (someOrdinary 1000 1000 _ (by norm_num) (by norm_num) (by norm_num) (by norm_num)) (by simp [somePricer]) (by norm_num [somePricer]) le_rfl

example : (2:ℚ) ^ 1024 ≤ (1 + ((somePricer 1000 1000 (.european 0)).priceSteps : ℚ) ^ 2 / (402 * (somePricer 1000 1000 (.european 0)).timeSteps)) ^
    ((somePricer 1000 1000 (.european 0)).priceSteps - 4) := square_big (by norm_num [somePricer]) (by norm_num [somePricer]) le_rfl

/-- C96 (defect): an American option on such a grid is priced as if it were exercised at once: the NaN of the matrix loses against the
exercise value in `f64::max`, and the price is the payoff at the middle of the grid times `exp (-r T) * exp (r M dt)`. No later
exercise is considered: neither volatility nor boundary values enter. -/
theorem C96_american_intrinsic (m : Libm) (o : Pricer) (h : Ordinary m o) (hE : o.exerciseFlag = .american dateMin dateMax)
    (he : o.priceSteps % 2 = 0) (hN : 800 ≤ o.priceSteps) (hM : o.timeSteps ≤ o.priceSteps) :
    let price := some ((m.exp (o.riskFreeRate.neg.mul o.T)).mul ((m.exp (o.riskFreeRate.mul ((X64.ofNat o.timeSteps).mul o.dt))).mul
      (o.payoff (m.exp ((o.xMin m).add ((X64.ofNat (o.priceSteps / 2)).mul (o.dx m)))))))
    o.implicit m = price ∧ o.crankNicolson m = price := by
  obtain ⟨X, Y, hx, hy, h1, h2, h3, h4, _⟩ := Pricer.coefficients h
  obtain ⟨d, p, hd, hp, g⟩ := implicit_grows h1 h2 h3
  obtain ⟨d', p', hd', hp', g'⟩ := cn_grows h1 h2 h3
  have hb := square_big hN h.steps.2.2.1 hM
  have e : (o.priceSteps : ℚ) ^ 2 / (402 * o.timeSteps) = (o.priceSteps : ℚ) ^ 2 / (201 * o.timeSteps) / 2 := by
    rw [div_div]; congr 1; ring
  rw [e] at hb
  have pos : (0:ℚ) ≤ (o.priceSteps : ℚ) ^ 2 / (201 * o.timeSteps) := by positivity
  exact ⟨Pricer.run_american (by omega) he h.steps.2.2.1 (Pricer.implicitStep_nan hx hy hd hp g (o.priceSteps - 4)
      (hb.trans (pow_le_pow_left₀ (by positivity) (by linarith) _)) (by omega)) hE,
    Pricer.run_american (by omega) he h.steps.2.2.1 (Pricer.cnStep_nan hx hy hd' hp' g' (o.priceSteps - 4)
      (hb.trans (pow_le_pow_left₀ (by positivity) (by linarith) _)) (by omega)) hE⟩

example : Ordinary someLibm (somePricer 1000 1000 (.american dateMin dateMax)) ∧
    (somePricer 1000 1000 (.american dateMin dateMax)).priceSteps % 2 = 0 :=
  ⟨someOrdinary 1000 1000 _ (by norm_num) (by norm_num) (by norm_num) (by norm_num), rfl⟩

/-- C96: the explicit method has no such failure. For an ordinary option on a grid with `N^2 ≤ 99 M` (just inside its limit of
stability), European or American, with payoffs, boundary and exercise values up to `B` in size, `explicit` returns a finite number, and
this differs from the discounted value of the scheme without rounding errors by at most `(M + 1) 2^-49 B` times the discount factor. -/
theorem C96_explicit_error (m : Libm) (o : Pricer) (h : Ordinary m o) (hNM : o.priceSteps ^ 2 ≤ 99 * o.timeSteps) (B : ℚ)
    (hB : o.Bounded m B) (hD : Within (2 ^ 50) (m.exp (o.riskFreeRate.neg.mul o.T))) :
    ∃ p, o.explicit m = some (fin p) ∧ |p.val - num (m.exp (o.riskFreeRate.neg.mul o.T)) * o.exactMiddle m| ≤
      |num (m.exp (o.riskFreeRate.neg.mul o.T))| * ((o.timeSteps + 1) * 2 ^ (-49 : ℤ) * B) + 2 ^ (-1074 : ℤ) := by
  obtain ⟨X, Y, hx, hy, h1, h2, h3, _, h5⟩ := Pricer.coefficients h
  obtain ⟨N1, N2, M1, M2⟩ := h.steps
  have hM : (1:ℚ) ≤ o.timeSteps := by exact_mod_cast M1
  have hX : X.val ≤ 499 / 1000 := by
    refine h5.trans ?_
    rw [div_le_iff₀ (by linarith)]
    have : (o.priceSteps : ℚ) ^ 2 ≤ 99 * o.timeSteps := by exact_mod_cast hNM
    linarith
  obtain ⟨a, b, d, hw⟩ := Pricer.weights hx hy h1 hX h3
  obtain ⟨D, D1, D2⟩ := hD
  rw [D1]
  have hN2 : o.priceSteps ^ 2 ≤ 2 ^ 40 := (Nat.pow_le_pow_left N2 2).trans (by norm_num)
  exact Pricer.explicit_error hw hB (n := o.priceSteps - 3) (by omega) (by norm_num at hN2 ⊢; omega) D1 D2

theorem someExp (x : X64) : ∃ a, someLibm.exp x = fin a ∧ 0 ≤ a.val ∧ a.val ≤ 2 := by
  obtain ⟨s, s1, s2⟩ := c_half
  obtain ⟨q, q1, q2⟩ := c_two
  simp only [someLibm]
  split_ifs
  · exact ⟨s, s1, by rw [s2]; norm_num, by rw [s2]; norm_num⟩
  · exact ⟨q, q1, by rw [q2]; norm_num, by rw [q2]⟩

theorem somePayoff (n k : ℕ) (e : ExerciseFlag) (x : X64) : ∃ a, (somePricer n k e).payoff (someLibm.exp x) = fin a ∧ |a.val| ≤ 2 := by
  obtain ⟨a, a1, a2, a3⟩ := someExp x
  obtain ⟨one, o1, o2⟩ := c_one
  obtain ⟨z, z1, z2⟩ : ∃ a, c 0 = fin a ∧ a.val = 0 :=
    c_rep (by simpa using rep_of_le 0 0 (by norm_num) (by norm_num)) (by norm_num)
  have hr : Rep (2:ℚ) := by simpa using rep_of_le 2 0 (by norm_num) (by norm_num)
  have hle : |one.val - a.val| ≤ 2 := by rw [o2, abs_le]; constructor <;> linarith
  obtain ⟨s, s1, s2⟩ := fin_of_le hle (by norm_num)
  obtain ⟨e, e1, e2⟩ := max_fin s z
  refine ⟨e, ?_, ?_⟩
  · simp only [Pricer.payoff, somePricer, a1, o1, z1]
    rw [sub_fin, s1, e1]
  · rw [e2, z2]
    have := rnd_abs_le hr hle
    rw [← s2] at this
    refine abs_max_le_max_abs_abs.trans (max_le this (by norm_num))

/-- The hypotheses can be met: 100 price steps and 200 time steps, European or American. -/
example (e : ExerciseFlag) : Ordinary someLibm (somePricer 100 200 e) ∧
    (somePricer 100 200 e).priceSteps ^ 2 ≤ 99 * (somePricer 100 200 e).timeSteps ∧ (somePricer 100 200 e).Bounded someLibm 8 ∧
    Within (2 ^ 50) (someLibm.exp ((somePricer 100 200 e).riskFreeRate.neg.mul (somePricer 100 200 e).T)) := by
  have hr : Rep (4:ℚ) := by simpa using rep_of_le 4 0 (by norm_num) (by norm_num)
  have prod : ∀ a b : F64, |a.val * b.val| ≤ 4 → ∃ e, (fin a).mul (fin b) = fin e ∧ |e.val| ≤ 4 := fun a b h => by
    obtain ⟨s, s1, s2⟩ := fin_of_le h (by norm_num)
    exact ⟨s, s1, by rw [s2]; exact rnd_abs_le hr h⟩
  refine ⟨someOrdinary _ _ _ (by norm_num) (by norm_num) (by norm_num) (by norm_num), by norm_num [somePricer],
    ⟨by norm_num, by norm_num, fun i _ => ?_, fun t _ _ => ?_, fun t _ _ => ?_, fun _ t i _ _ _ => ?_⟩, ?_⟩
  · obtain ⟨a, a1, a2⟩ := somePayoff 100 200 e _
    exact ⟨a, a1, a2.trans (by norm_num)⟩
  · show Within 8 ((((c 1).mul (someLibm.exp _)).sub (someLibm.exp _)))
    obtain ⟨one, o1, o2⟩ := c_one
    obtain ⟨a, a1, a2, a3⟩ := someExp ((somePricer 100 200 e).riskFreeRate.neg.mul ((X64.ofNat t).mul (somePricer 100 200 e).dt))
    obtain ⟨b, b1, b2, b3⟩ := someExp ((somePricer 100 200 e).xMin someLibm)
    rw [a1, b1, o1]
    obtain ⟨p, p1, p2⟩ := prod one a (by rw [o2, one_mul, abs_of_nonneg a2]; linarith)
    have p3 := abs_le.1 p2
    have hr8 : Rep (8:ℚ) := by simpa using rep_of_le 8 0 (by norm_num) (by norm_num)
    have hle : |p.val - b.val| ≤ 8 := by rw [abs_le]; constructor <;> linarith [p3.1, p3.2]
    obtain ⟨s, s1, s2⟩ := fin_of_le hle (by norm_num)
    rw [p1, sub_fin, s1]
    exact ⟨s, rfl, by rw [s2]; exact rnd_abs_le hr8 hle⟩
  · exact ⟨F64.zero, rfl, by show |(0:ℚ)| ≤ 8; norm_num⟩
  · obtain ⟨a, a1, a2, a3⟩ := someExp ((somePricer 100 200 e).riskFreeRate.mul ((X64.ofNat t).mul (somePricer 100 200 e).dt))
    obtain ⟨b, b1, b2⟩ := somePayoff 100 200 e (((somePricer 100 200 e).xMin someLibm).add ((X64.ofNat (i + 1)).mul
      ((somePricer 100 200 e).dx someLibm)))
    unfold Pricer.exerciseValue
    rw [a1, b1]
    obtain ⟨p, p1, p2⟩ := prod a b (by
      rw [abs_mul, abs_of_nonneg a2]
      exact (mul_le_mul a3 b2 (abs_nonneg _) (by norm_num)).trans (by norm_num))
    exact ⟨p, p1, p2.trans (by norm_num)⟩
  · obtain ⟨a, a1, a2, a3⟩ := someExp ((somePricer 100 200 e).riskFreeRate.neg.mul (somePricer 100 200 e).T)
    exact ⟨a, a1, by rw [abs_of_nonneg a2]; exact a3.trans (by norm_num)⟩

end Verif.Float.Fd
