import Verif.Float.SolversSame
import Verif.Float.NanPaths
import Verif.Float.BisectionProps

/-! C104, continued: wrong answers found by running the solvers, gradient descent, and cases that meet the hypotheses. -/

namespace Verif.Float.Solve

open X64
open Nan (zero le nan_lt lt_nan nan_le le_nan nan_div show' show_inj)

/-- What can be seen of an answer. -/
def showR : Ret → ℕ × Option (ℚ ⊕ Bool)
  | .panic => (0, none)
  | .gaveUp => (1, none)
  | .found x => (2, show' x)

theorem showR_inj {r s : Ret} (h : showR r = showR s) : r = s := by
  cases r <;> cases s <;> simp [showR] at h
  · rfl
  · rfl
  · rw [show_inj h]

/-- Accuracy `2^-10`, step 1, between -10 and 10. -/
def someConfig : Config := ⟨ofQ (1 / 2 ^ 10), ofQ 1, ofQ (-10), ofQ 10, true⟩

/-- `x * x - 2`, computed, except that there is no value between 1.3 and 1.6. -/
def gap : X64 → X64 := fun x => if (ofQ (13 / 10)).lt x && x.lt (ofQ (16 / 10)) then nan else (x.mul x).sub (ofQ 2)

theorem gap_brent : brent gap someConfig (ofQ 1) = .found (ofQ (683 / 512)) := showR_inj (by decide +kernel)

/-- C104 (defect): Brent's method can return a point where the objective is NaN. Looking for the zero of `x * x - 2` from 1, with no
value between 1.3 and 1.6, it returns 1.334. -/
theorem C104_brent_nan : ∃ (f : X64 → X64) (c : Config) (guess r : X64), brent f c guess = .found r ∧ f r = nan :=
  ⟨gap, someConfig, ofQ 1, _, gap_brent, show_inj (by decide +kernel)⟩

theorem gap_bisection : bisection gap someConfig (ofQ 1) = .found (ofQ (1331 / 1024)) := showR_inj (by decide +kernel)

/-- C104 (defect): bisection takes a NaN for a positive value and returns the edge of the gap: in the case above 1.2998, although the
accuracy is `2^-10` and the objective is not positive at any point below 1.4. -/
theorem C104_bisection_nan : ∃ r : F64, bisection gap someConfig (ofQ 1) = .found (fin r) ∧
    ∀ x : F64, |x.val| ≤ 14 / 10 → close (gap (fin x)) zero = false ∧ zero.lt (gap (fin x)) = false := by
  obtain ⟨r, hr, _⟩ := small_fin (q := 1331 / 1024) ⟨1331, -10, by norm_num, by norm_num, by norm_num⟩ (by rw [abs_of_pos (by norm_num)]; norm_num)
  refine ⟨r, by rw [← hr]; exact gap_bisection, ?_⟩
  intro x hx
  obtain ⟨lo, hlo, hlov⟩ : ∃ a, ofQ (13 / 10) = fin a ∧ a.val = rnd (13 / 10) := ofQ_fin (by decide +kernel)
  obtain ⟨hi, hhi, hhiv⟩ : ∃ a, ofQ (16 / 10) = fin a ∧ a.val = rnd (16 / 10) := ofQ_fin (by decide +kernel)
  obtain ⟨two, htwo, htwov⟩ := small_fin (q := 2) ⟨2, 0, by norm_num, by norm_num, by norm_num⟩ (by rw [abs_of_pos (by norm_num)]; norm_num)
  have hlo2 : rnd (13 / 10) ≤ 13 / 10 + 1 / 2 ^ 40 := by decide +kernel
  have hhi2 : 14 / 10 < rnd (16 / 10) := by decide +kernel
  unfold gap
  rw [hlo, hhi, htwo]
  have h1 : ((fin lo).lt (fin x) && (fin x).lt (fin hi)) = decide (lo.val < x.val) := by
    show (decide _ && decide (x.val < hi.val)) = _
    rw [decide_eq_true (show x.val < hi.val by rw [hhiv]; linarith [le_abs_self x.val])]
    exact Bool.and_true _
  rw [h1]
  by_cases hc : lo.val < x.val
  · rw [if_pos (decide_eq_true hc)]
    exact ⟨close_nan, rfl⟩
  · rw [if_neg (by simpa using hc)]
    have hx2 : x.val * x.val ≤ 196 / 100 := by
      have := mul_le_mul hx hx (abs_nonneg _) (by norm_num)
      rw [abs_mul_abs_self] at this
      linarith
    have hup : rnd (x.val * x.val) ≤ 2 - 1 / 32 := by
      refine rnd_le ⟨63, -5, by norm_num, by norm_num, by norm_num⟩ ?_
      linarith
    have hnn := rnd_nonneg (mul_self_nonneg x.val)
    obtain ⟨p, hp, hpv⟩ := ofQ_fin (q := x.val * x.val) (by
      rw [abs_of_nonneg hnn]
      exact lt_of_le_of_lt hup (lt_of_lt_of_le (by norm_num : (2 : ℚ) - 1 / 32 < 2) (le_self_pow₀ (by norm_num) (by norm_num))))
    have h2 : (fin x).mul (fin x) = fin p := hp
    rw [h2, sub_fin, htwov]
    have hd : rnd (p.val - 2) ≤ -(1 / 32) := rnd_le ⟨-1, -5, by norm_num, by norm_num, by norm_num⟩ (by rw [hpv]; linarith)
    have hd2 : -2 ≤ rnd (p.val - 2) := le_rnd ⟨-2, 0, by norm_num, by norm_num, by norm_num⟩ (by rw [hpv]; linarith)
    obtain ⟨d, hdd, hdv⟩ := ofQ_fin (q := p.val - 2) (by
      rw [abs_of_nonpos (by linarith)]
      refine lt_of_le_of_lt (b := 2) (by linarith) ?_
      exact lt_of_lt_of_le (by norm_num : (2 : ℚ) < 2 ^ 2) (pow_le_pow_right₀ (by norm_num) (by norm_num)))
    rw [hdd]
    refine ⟨?_, decide_eq_false (by show ¬ 0 < d.val; rw [hdv]; linarith)⟩
    rw [close_fin]
    refine decide_eq_false ?_
    rintro (h | h)
    · rw [hdv] at h; linarith
    · rw [hdv, abs_of_nonpos (by linarith), Bisect.tol_val] at h
      norm_num at h
      linarith

/-- A search that never gets to the method does not depend on it. -/
theorem search_indep {f : X64 → X64} {c : Config} {impl : Bracket → ℕ → Ret} :
    ∀ n flip b, search (pass f c) (fun _ _ => .panic) n flip b = .gaveUp → search (pass f c) impl n flip b = .gaveUp := by
  intro n
  induction n using Nat.strong_induction_on with
  | _ n ih =>
    intro flip b h
    cases n with
    | zero => rfl
    | succ n =>
      unfold search at h ⊢
      cases hp : pass f c flip b with
      | stop r => rw [hp] at h; exact h
      | refine => rw [hp] at h; cases h
      | again flip' b' => rw [hp] at h; exact ih n (by omega) _ _ h
      | skip b' =>
        rw [hp] at h
        cases n with
        | zero => rfl
        | succ n => exact ih n (by omega) _ _ h

/-- Zero at 1, infinite elsewhere. -/
def pole : X64 → X64 := fun x => if eq x (ofQ 1) then zero else inf false

/-- C104 (defect): a root at an end of the bracket is passed over when the value at the other end is infinite, since zero times infinity
is NaN: with guess 2 and step 1 the solvers evaluate the objective at its root 1, and return `0.0`. -/
theorem C104_lost_root : ∃ (f : X64 → X64) (c : Config) (guess : X64), f (c.bound (guess.sub c.stepsize)) = zero ∧
    (∀ f', GiveUp f f' c guess) ∧ f zero = inf false := by
  refine ⟨pole, someConfig, ofQ 2, show_inj (by decide +kernel), ?_, show_inj (by decide +kernel)⟩
  intro f'
  refine giveUp_of fun impl => ?_
  unfold solve
  rw [if_pos (by decide +kernel), if_neg (by decide +kernel)]
  exact search_indep _ _ _ (showR_inj (by decide +kernel))

/-- Negative at the finite numbers and at `-∞`, positive at `+∞`. -/
def atInfinity : X64 → X64
  | nan => nan
  | inf false => ofQ 1
  | _ => ofQ (-1)

/-- C104 (defect): Brent's method can return an infinity, where the objective is not near zero, when the interval is not enforced. -/
theorem C104_brent_infinite : ∃ (f : X64 → X64) (c : Config) (guess : X64), brent f c guess = .found (inf false) ∧
    close (f (inf false)) zero = false :=
  ⟨atInfinity, ⟨ofQ (1 / 2 ^ 10), ofQ (2 ^ 1023), ofQ (-10), ofQ 10, false⟩, zero, showR_inj (by decide +kernel), by decide +kernel⟩

/-! ## Gradient descent -/

theorem not_stationary {sqrt : X64 → X64} (hs : sqrt nan = nan) {gradient : List X64} (h : nan ∈ gradient) (tol : X64) :
    isStationary sqrt gradient tol = false := by
  unfold isStationary
  rw [Nan.foldl_add_mem (List.mem_map.2 ⟨nan, h, rfl⟩), hs, nan_lt]

theorem update_get {rate : X64} {x g : List X64} {i : ℕ} {v w : X64} (hx : x[i]? = some v) (hg : g[i]? = some w) :
    (update rate x g)[i]? = some (v.sub (rate.mul w)) := by
  have h1 : i < x.length := (List.getElem?_eq_some_iff.1 hx).1
  have h2 : i < g.length := (List.getElem?_eq_some_iff.1 hg).1
  unfold update
  rw [List.getElem?_append_left (by rw [List.length_zipWith]; omega), List.getElem?_zipWith, hx, hg]

theorem descend_nan {sqrt : X64 → X64} (hs : sqrt nan = nan) (f : List X64 → X64) {grad : List X64 → List X64} (rate tol : X64) {i : ℕ}
    (hg : ∀ x, x[i]? = some nan → (grad x)[i]? = some nan) :
    ∀ n k r, r.minimizer[i]? = some nan → r.iterations = k →
      (descend sqrt f grad rate tol n k r).minimizer[i]? = some nan ∧ (descend sqrt f grad rate tol n k r).iterations = k + n := by
  intro n
  induction n with
  | zero => intro k r h hk; exact ⟨h, hk⟩
  | succ n ih =>
    intro k r h hk
    have h1 := hg _ h
    unfold descend
    dsimp only
    rw [not_stationary hs (List.mem_of_getElem? h1), if_neg (by simp)]
    have h2 := ih (k + 1) ⟨update rate r.minimizer (grad r.minimizer), f r.minimizer, k + 1⟩
      (by rw [update_get h h1, nan_sub]) rfl
    exact ⟨h2.1, by rw [h2.2]; omega⟩

/-- C104 (defect): gradient descent does not notice a gradient that is NaN. If a partial derivative is NaN at the start, and wherever
that coordinate is NaN, all iterations are spent and the minimizer returned has NaN in that coordinate. -/
theorem C104_descent_nan (sqrt : X64 → X64) (hs : sqrt nan = nan) (f : List X64 → X64) (grad : List X64 → List X64) (rate : X64)
    (maxIterations : ℕ) (tol : Option X64) (x0 : List X64) (r : Descent) (i : ℕ) (hi : i < x0.length) (h0 : (grad x0)[i]? = some nan)
    (hg : ∀ x, x[i]? = some nan → (grad x)[i]? = some nan) (hm : 0 < maxIterations)
    (h : optimize sqrt f grad rate maxIterations tol x0 = some r) : r.minimizer[i]? = some nan ∧ r.iterations = maxIterations := by
  have key : ∀ t, (descend sqrt f grad rate t maxIterations 0 ⟨x0, zero, 0⟩).minimizer[i]? = some nan ∧
      (descend sqrt f grad rate t maxIterations 0 ⟨x0, zero, 0⟩).iterations = maxIterations := by
    intro t
    obtain ⟨n, rfl⟩ : ∃ n, maxIterations = n + 1 := ⟨maxIterations - 1, by omega⟩
    unfold descend
    dsimp only
    rw [not_stationary hs (List.mem_of_getElem? h0), if_neg (by simp)]
    have h2 := descend_nan hs f rate t hg n 1 ⟨update rate x0 (grad x0), f x0, 1⟩
      (by rw [update_get (List.getElem?_eq_getElem hi) h0, mul_nan, sub_nan]) rfl
    exact ⟨h2.1, by rw [h2.2]; omega⟩
  unfold optimize at h
  cases tol with
  | none => cases h; exact key _
  | some t =>
    simp only at h
    split_ifs at h
    cases h
    exact key _

theorem descend_stops {sqrt : X64 → X64} {f : List X64 → X64} {grad : List X64 → List X64} {rate tol : X64} :
    ∀ n k r, r.iterations = k → (descend sqrt f grad rate tol n k r).iterations ≤ k + n ∧
      ((descend sqrt f grad rate tol n k r).iterations < k + n →
        isStationary sqrt (grad (descend sqrt f grad rate tol n k r).minimizer) tol = true) := by
  intro n
  induction n with
  | zero => intro k r hk; exact ⟨by show r.iterations ≤ _; omega, fun h => by change r.iterations < _ at h; omega⟩
  | succ n ih =>
    intro k r hk
    unfold descend
    dsimp only
    by_cases hc : isStationary sqrt (grad r.minimizer) tol = true
    · rw [if_pos hc]
      exact ⟨by show k + 1 ≤ _; omega, fun _ => hc⟩
    · rw [if_neg hc]
      have h1 := ih (k + 1) ⟨update rate r.minimizer (grad r.minimizer), f r.minimizer, k + 1⟩ rfl
      exact ⟨by omega, fun h => h1.2 (by omega)⟩

/-- C104: gradient descent panics exactly on a tolerance that is not positive, NaN included. If it stops before the last iteration, the
gradient at the point returned is free of NaN and its computed norm is below the tolerance. -/
theorem C104_descent (sqrt : X64 → X64) (hs : sqrt nan = nan) (f : List X64 → X64) (grad : List X64 → List X64) (rate : X64)
    (maxIterations : ℕ) (tol : Option X64) (x0 : List X64) :
    (optimize sqrt f grad rate maxIterations tol x0 = none ↔ ∃ t, tol = some t ∧ zero.lt t = false) ∧
    ∀ r, optimize sqrt f grad rate maxIterations tol x0 = some r → r.iterations ≤ maxIterations ∧
      (r.iterations < maxIterations → nan ∉ grad r.minimizer ∧
        (sqrt (((grad r.minimizer).map fun x => x.mul x).foldl X64.add zero)).lt (tol.getD (ofQ (2 ^ (-26 : ℤ)))) = true) := by
  have key : ∀ t, (descend sqrt f grad rate t maxIterations 0 ⟨x0, zero, 0⟩).iterations ≤ maxIterations ∧
      ((descend sqrt f grad rate t maxIterations 0 ⟨x0, zero, 0⟩).iterations < maxIterations →
        nan ∉ grad (descend sqrt f grad rate t maxIterations 0 ⟨x0, zero, 0⟩).minimizer ∧
        isStationary sqrt (grad (descend sqrt f grad rate t maxIterations 0 ⟨x0, zero, 0⟩).minimizer) t = true) := by
    intro t
    have h1 := descend_stops (sqrt := sqrt) (f := f) (grad := grad) (rate := rate) (tol := t) maxIterations 0 ⟨x0, zero, 0⟩ rfl
    rw [Nat.zero_add] at h1
    refine ⟨h1.1, fun h => ⟨fun hc => ?_, h1.2 h⟩⟩
    have h2 := h1.2 h
    rw [not_stationary hs hc] at h2
    simp at h2
  unfold optimize
  cases tol with
  | none =>
    refine ⟨by simp, fun r h => ?_⟩
    cases h
    exact key _
  | some t =>
    by_cases ht : zero.lt t = true
    · simp only [ht, if_true]
      refine ⟨by simp [ht], fun r h => ?_⟩
      cases h
      exact key t
    · simp only [ht]
      refine ⟨by simpa using ht, fun r h => ?_⟩
      simp at h

/-! ## Cases that meet the hypotheses -/

/-- `x - 1/3`, computed. -/
def third : X64 → X64 := fun x => x.sub (ofQ (1 / 3))

theorem third_bisection : bisection third someConfig (ofQ 0) = .found (ofQ (341 / 1024)) := showR_inj (by decide +kernel)

theorem third_brent : brent third someConfig (ofQ 0) = .found (ofQ (6004799503160661 / 18014398509481984)) := showR_inj (by decide +kernel)

theorem third_newton : newton third (fun _ => ofQ 1) someConfig (ofQ 0) = .found (ofQ (6004799503160661 / 18014398509481984)) :=
  showR_inj (by decide +kernel)

example := C104_bisection _ _ _ _ third_bisection
example := C104_bisection _ _ _ _ gap_bisection
example := C104_newton _ _ _ _ _ third_newton

/-- `x * x - 2`, computed. -/
def square : X64 → X64 := fun x => (x.mul x).sub (ofQ 2)

theorem square_brent : brent square someConfig (ofQ 0) = .found (ofQ (6368978289408999 / 4503599627370496)) := showR_inj (by decide +kernel)

theorem ofQ_ne_nan (q : ℚ) : ofQ q ≠ nan := by
  unfold ofQ
  cases toF64 q <;> simp

theorem square_nan (x : X64) (hx : x ≠ nan) : square x ≠ nan := by
  obtain ⟨two, htwo, _⟩ := small_fin (q := 2) ⟨2, 0, by norm_num, by norm_num, by norm_num⟩ (by rw [abs_of_pos (by norm_num)]; norm_num)
  obtain ⟨m, hm, _⟩ := neg_fin two
  have key : ∀ y : X64, y ≠ nan → y.sub (fin two) ≠ nan := by
    intro y hy
    cases y with
    | nan => exact absurd rfl hy
    | inf s => unfold X64.sub; rw [hm]; simp [X64.add]
    | fin a => rw [sub_fin]; exact ofQ_ne_nan _
  unfold square
  rw [htwo]
  refine key _ ?_
  cases x with
  | nan => exact absurd rfl hx
  | inf s => simp [X64.mul]
  | fin a => exact ofQ_ne_nan _

-- Brent's method takes several steps to reach 1.41420 from the bracket found from 0; the value there does not count as zero.
example : ∃ A : F64, someConfig.accuracy = fin A := by
  obtain ⟨A, hA, _⟩ := small_fin (q := 1 / 2 ^ 10) ⟨1, -10, by norm_num, by norm_num, by norm_num⟩ (by rw [abs_of_pos (by norm_num)]; norm_num)
  exact ⟨A, hA⟩

example (A : F64) (hA : someConfig.accuracy = fin A) := C104_brent square rfl square_nan someConfig A hA _ _ square_brent

example : close (square (ofQ (6368978289408999 / 4503599627370496))) zero = false := by decide +kernel

example (f f' : X64 → X64) (guess : X64) := (C104_panics f f' { someConfig with accuracy := nan } guess).1.2 rfl

example (f' : X64 → X64) (guess : X64) := C104_no_sign_change (fun _ => inf true) f' someConfig guess (by decide +kernel)
  (fun _ => close_inf true) (fun _ _ => rfl)

example (f' : X64 → X64) (guess : X64) := C104_nan_objective f' someConfig guess (by decide +kernel)

example (f' : X64 → X64) := C104_nan_guess third f' rfl someConfig nan (by decide +kernel) (Or.inl rfl)

example (f' : X64 → X64) := C104_nan_guess third f' rfl { someConfig with stepsize := nan } (ofQ 1) (by decide +kernel)
  (Or.inr ⟨rfl, by decide +kernel⟩)

-- `x - 1/3` has a sign change between 0 and 1, where the other methods find it.
example := C104_newton_nan third (fun _ => nan) rfl someConfig (ofQ 0) (by decide +kernel) (by decide +kernel) (by decide +kernel)
  (by decide +kernel) (by decide +kernel) rfl

example : newton third (fun _ => inf false) someConfig (fin (lit 0)) = .found (fin (lit (1 / 2))) :=
  C104_newton_infinite third (fun _ => inf false) someConfig (lit 0) (lit 1) (lit (1 / 2)) (lit (3002399751580331 / 18014398509481984)) false (by decide +kernel)
    (show_inj (by decide +kernel)) (by decide +kernel) (show_inj (by decide +kernel)) (by decide +kernel) (by decide +kernel) (by decide +kernel)
    (by decide +kernel) (show_inj (by decide +kernel)) rfl

/-- An extension of a function on finite numbers. -/
def extend (f : F64 → F64) : X64 → X64
  | fin x => fin (f x)
  | _ => nan

example : bisection (extend Bisect.oneMinus) (lift Bisect.config) (fin (lit 3)) = .found (fin (lit (4503599734744679 / 4503599627370496))) := by
  have h := C104_same Bisect.oneMinus (extend Bisect.oneMinus) (fun _ => rfl) Bisect.config (lit 3)
  rw [Bisect.oneMinus_solve] at h
  exact h

-- Gradient descent on a square stops early; with a partial derivative that is NaN it does not. The identity stands for the square root.
example : (optimize id (fun _ => zero) (fun x => x.map fun v => (X64.ofNat 2).mul v) (ofQ (1 / 2)) 5 (some (ofQ 1)) [ofQ 3]).map
    (fun r => (r.minimizer.map show', r.iterations)) = some ([some (.inl 0)], 2) := by decide +kernel

example := C104_descent id rfl (fun _ => zero) (fun x => x.map fun v => (X64.ofNat 2).mul v) (ofQ (1 / 2)) 5 (some (ofQ 1)) [ofQ 3]

example (r : Descent) (h : optimize id (fun _ => zero) (fun x => x.map fun _ => nan) (ofQ 1) 7 none [ofQ 3] = some r) :=
  C104_descent_nan id rfl _ _ _ 7 none _ r 0 (by simp) rfl (fun x hx => by rw [List.getElem?_map, hx]; rfl) (by norm_num) h

end Verif.Float.Solve
