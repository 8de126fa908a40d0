import Verif.Float.SolversProps

/-! C104, continued: when the searches give up, and where they go wrong. -/

namespace Verif.Float.Solve

open X64
open Nan (zero le nan_lt lt_nan nan_le le_nan nan_div)

/-! ## When they panic -/

theorem search_no_panic (f : X64 → X64) (c : Config) {impl : Bracket → ℕ → Ret} (hi : ∀ b k, impl b k ≠ .panic) (n : ℕ) (flip : Bool)
    (b : Bracket) (hb : Good f b) : search (pass f c) impl n flip b ≠ .panic := by
  rcases search_cases f c impl n flip b hb with h | ⟨x, h, _⟩ | ⟨b', k, _, h, _⟩
  · rw [h]; simp
  · rw [h]; simp
  · rw [h]; exact hi b' k

theorem solve_panics {f : X64 → X64} {c : Config} {guess : X64} {impl : X64 → Bracket → ℕ → Ret} (hi : ∀ acc b k, impl acc b k ≠ .panic) :
    solve f c guess impl = .panic ↔ zero.lt c.accuracy = false := by
  unfold solve
  by_cases h : zero.lt c.accuracy = true
  · rw [if_pos h, h]
    constructor
    · intro h1
      split_ifs at h1
      exact absurd h1 (search_no_panic f c (hi _) _ _ _ (start_good f c guess))
    · intro h1; simp at h1
  · rw [if_neg h]; simpa using h

theorem bisectLoop_no_panic (f : X64 → X64) (acc : X64) : ∀ n root dx, bisectLoop f acc n root dx ≠ .panic := by
  intro n
  induction n with
  | zero => intro root dx; simp [bisectLoop]
  | succ n ih => intro root dx; unfold bisectLoop; dsimp only; split_ifs <;> first | exact ih _ _ | simp

theorem newtonLoop_no_panic (f f' : X64 → X64) (acc : X64) : ∀ n root xl xh dx dxold, newtonLoop f f' acc n root xl xh dx dxold ≠ .panic := by
  intro n
  induction n with
  | zero => intro root xl xh dx dxold; simp [newtonLoop]
  | succ n ih => intro root xl xh dx dxold; unfold newtonLoop; dsimp only; split_ifs <;> first | exact ih _ _ _ _ _ | simp

theorem brentLoop_no_panic (f : X64 → X64) (acc : X64) : ∀ n s, brentLoop f acc n s ≠ .panic := by
  intro n
  induction n with
  | zero => intro s; simp [brentLoop]
  | succ n ih =>
    intro s
    unfold brentLoop
    dsimp only
    split
    · simp
    · exact ih _

/-- C104: the solvers panic exactly when the accuracy is not positive, NaN included, whatever the objective does. -/
theorem C104_panics (f f' : X64 → X64) (c : Config) (guess : X64) :
    (bisection f c guess = .panic ↔ zero.lt c.accuracy = false) ∧ (brent f c guess = .panic ↔ zero.lt c.accuracy = false) ∧
    (newton f f' c guess = .panic ↔ zero.lt c.accuracy = false) := by
  refine ⟨solve_panics ?_, solve_panics ?_, solve_panics ?_⟩
  · intro acc b k; unfold bisectImpl; split_ifs <;> exact bisectLoop_no_panic _ _ _ _ _
  · intro acc b k; exact brentLoop_no_panic _ _ _ _
  · intro acc b k; unfold newtonImpl; split_ifs <;> exact newtonLoop_no_panic _ _ _ _ _ _ _ _ _

/-! ## When they give up -/

/-- A property of the brackets that the search keeps and under which it does not stop. -/
theorem search_gaveUp {f : X64 → X64} {c : Config} {impl : Bracket → ℕ → Ret} (P : Bracket → Prop)
    (h1 : ∀ b, P b → le (b.yMin.mul b.yMax) zero = false) (h2 : ∀ b, P b → P (b.down f c) ∧ P (b.up f c)) :
    ∀ n flip b, P b → search (pass f c) impl n flip b = .gaveUp := by
  intro n
  induction n using Nat.strong_induction_on with
  | _ n ih =>
    intro flip b hb
    cases n with
    | zero => rfl
    | succ n =>
      have hcase : (∃ flip' b', pass f c flip b = .again flip' b' ∧ P b') ∨ ∃ b', pass f c flip b = .skip b' ∧ P b' := by
        unfold pass
        rw [h1 b hb]
        simp only [Bool.false_eq_true, if_false]
        split_ifs
        · exact Or.inl ⟨_, _, rfl, (h2 b hb).1⟩
        · exact Or.inl ⟨_, _, rfl, (h2 b hb).2⟩
        · exact Or.inr ⟨_, rfl, (h2 b hb).1⟩
        · exact Or.inl ⟨_, _, rfl, (h2 b hb).2⟩
      unfold search
      rcases hcase with ⟨flip', b', h3, h4⟩ | ⟨b', h3, h4⟩
      · rw [h3]; exact ih n (by omega) _ _ h4
      · rw [h3]
        cases n with
        | zero => rfl
        | succ n => exact ih n (by omega) _ _ h4

theorem solve_gaveUp {f : X64 → X64} {c : Config} {guess : X64} {impl : X64 → Bracket → ℕ → Ret} (ha : zero.lt c.accuracy = true)
    (hg : close (f guess) zero = false) (P : Bracket → Prop) (h0 : P (start f c guess))
    (h1 : ∀ b, P b → le (b.yMin.mul b.yMax) zero = false) (h2 : ∀ b, P b → P (b.down f c) ∧ P (b.up f c)) :
    solve f c guess impl = .gaveUp := by
  unfold solve
  rw [if_pos ha, hg, if_neg (by simp)]
  exact search_gaveUp P h1 h2 _ _ _ h0

/-- All three solvers give up: the caller receives `0.0`. -/
def GiveUp (f f' : X64 → X64) (c : Config) (guess : X64) : Prop :=
  (bisection f c guess).value = some zero ∧ (brent f c guess).value = some zero ∧ (newton f f' c guess).value = some zero

theorem giveUp_of {f f' : X64 → X64} {c : Config} {guess : X64} (h : ∀ impl, solve f c guess impl = .gaveUp) : GiveUp f f' c guess := by
  refine ⟨?_, ?_, ?_⟩
  · unfold bisection; rw [h]; rfl
  · unfold brent; rw [h]; rfl
  · unfold newton; rw [h]; rfl

/-- C104: an objective that is nowhere near zero and whose values never have a nonpositive product (positive everywhere, negative
everywhere, infinite with one sign, or NaN) makes the three solvers return `0.0`, whatever the guess and the settings. -/
theorem C104_no_sign_change (f f' : X64 → X64) (c : Config) (guess : X64) (ha : zero.lt c.accuracy = true)
    (hz : ∀ x, close (f x) zero = false) (hp : ∀ x y, le ((f x).mul (f y)) zero = false) : GiveUp f f' c guess := by
  refine giveUp_of fun impl => solve_gaveUp ha (hz guess) (Good f) (start_good f c guess) ?_ ?_
  · intro b hb; rw [hb.lo, hb.hi]; exact hp _ _
  · intro b hb; exact ⟨⟨rfl, hb.hi⟩, ⟨hb.lo, rfl⟩⟩

/-- C104 (defect): when the objective is NaN everywhere, the three solvers return `0.0`, as they would for a root at zero. -/
theorem C104_nan_objective (f' : X64 → X64) (c : Config) (guess : X64) (ha : zero.lt c.accuracy = true) :
    GiveUp (fun _ => nan) f' c guess :=
  C104_no_sign_change _ f' c guess ha (fun _ => close_nan) (fun _ _ => rfl)

theorem bound_nan (c : Config) : c.bound nan = nan := by
  unfold Config.bound
  rw [nan_lt, lt_nan]; simp

theorem grow_nan (x y : X64) (h : x = nan ∨ y = nan) : grow x y = nan := by
  unfold grow
  rcases h with h | h
  · rw [h, nan_add]
  · rw [h, sub_nan, mul_nan, add_nan]

/-- C104 (defect): a guess that is NaN, or a step that is NaN when the guess is not already a root, makes the three solvers return
`0.0` if the objective passes NaN on. -/
theorem C104_nan_guess (f f' : X64 → X64) (hf : f nan = nan) (c : Config) (guess : X64) (ha : zero.lt c.accuracy = true)
    (hg : guess = nan ∨ (c.stepsize = nan ∧ close (f guess) zero = false)) : GiveUp f f' c guess := by
  have hclose : close (f guess) zero = false := by
    rcases hg with h | h
    · rw [h, hf]; exact close_nan
    · exact h.2
  have hsub : guess.sub c.stepsize = nan := by
    rcases hg with h | h
    · rw [h, nan_sub]
    · rw [h.1, sub_nan]
  have hadd : guess.add c.stepsize = nan := by
    rcases hg with h | h
    · rw [h, nan_add]
    · rw [h.1, add_nan]
  refine giveUp_of fun impl => solve_gaveUp ha hclose (fun b => (b.xMin = nan ∧ b.yMin = nan) ∨ (b.xMax = nan ∧ b.yMax = nan)) ?_ ?_ ?_
  · unfold start
    rw [hsub, hadd, bound_nan, hf]
    split_ifs
    · exact Or.inl ⟨rfl, rfl⟩
    · exact Or.inr ⟨rfl, rfl⟩
  · intro b hb
    rcases hb with ⟨_, h⟩ | ⟨_, h⟩
    · rw [h, nan_mul, nan_le]
    · rw [h, mul_nan, nan_le]
  · intro b hb
    have h1 : grow b.xMin b.xMax = nan := grow_nan _ _ (by rcases hb with ⟨h, _⟩ | ⟨h, _⟩ <;> simp [h])
    have h2 : grow b.xMax b.xMin = nan := grow_nan _ _ (by rcases hb with ⟨h, _⟩ | ⟨h, _⟩ <;> simp [h])
    unfold Bracket.down Bracket.up
    rw [h1, h2, bound_nan, hf]
    exact ⟨Or.inl ⟨rfl, rfl⟩, Or.inr ⟨rfl, rfl⟩⟩

theorem abs_nan : abs nan = nan := rfl

/-! ## Newton-Raphson with a derivative that is not finite -/

theorem newton_first {f f' : X64 → X64} {c : Config} {guess : X64} (ha : zero.lt c.accuracy = true) (hg : close (f guess) zero = false)
    (h1 : (f guess).lt zero = true) (hx : close (f (c.bound (guess.add c.stepsize))) zero = false)
    (h2 : zero.lt (f (c.bound (guess.add c.stepsize))) = true) :
    newton f f' c guess = newtonLoop f f' (c.accuracy.max epsilon) 998
      ((ofQ (1 / 2)).mul ((c.bound (guess.add c.stepsize)).add guess)) guess (c.bound (guess.add c.stepsize))
      ((c.bound (guess.add c.stepsize)).sub guess) ((c.bound (guess.add c.stepsize)).sub guess) := by
  have hlt : zero.lt (f guess) = false := by
    cases hc : zero.lt (f guess) with
    | false => rfl
    | true => rw [lt_asymm hc] at h1; simp at h1
  have hs : start f c guess = ⟨guess, c.bound (guess.add c.stepsize), f guess, f (c.bound (guess.add c.stepsize))⟩ := by
    unfold start; rw [hlt]; simp
  have hp : pass f c false (start f c guess) = .refine := by
    rw [hs]; unfold pass
    simp only [product_of_opposite h1 h2, hg, hx, if_true, Bool.false_eq_true, if_false]
  unfold newton solve
  rw [if_pos ha, hg, if_neg (by simp)]
  show search _ _ (998 + 1) _ _ = _
  unfold search
  rw [hp]
  show newtonImpl f f' _ _ 999 = _
  rw [hs]
  unfold newtonImpl Bracket.middle
  rw [if_pos h1]

/-- C104 (defect): a derivative that is NaN in the middle of the bracket makes Newton-Raphson give up and return `0.0`, although the
bracket holds a sign change that it could bisect. -/
theorem C104_newton_nan (f f' : X64 → X64) (hf : f nan = nan) (c : Config) (guess : X64) (ha : zero.lt c.accuracy = true)
    (hg : close (f guess) zero = false) (h1 : (f guess).lt zero = true) (hx : close (f (c.bound (guess.add c.stepsize))) zero = false)
    (h2 : zero.lt (f (c.bound (guess.add c.stepsize))) = true)
    (hd : f' ((ofQ (1 / 2)).mul ((c.bound (guess.add c.stepsize)).add guess)) = nan) :
    (newton f f' c guess).value = some zero := by
  have lost : ∀ n xl xh dx dxold, newtonLoop f f' (c.accuracy.max epsilon) n nan xl xh dx dxold = .gaveUp := by
    intro n
    induction n with
    | zero => intro xl xh dx dxold; rfl
    | succ n ih =>
      intro xl xh dx dxold
      unfold newtonLoop
      dsimp only
      simp only [nan_sub, nan_mul, hf, lt_nan, mul_nan, abs_nan, Bool.or_false, Bool.false_eq_true, if_false, nan_div, nan_lt, sub_nan]
      exact ih _ _ _ _
  rw [newton_first ha hg h1 hx h2]
  generalize (ofQ (1 / 2)).mul ((c.bound (guess.add c.stepsize)).add guess) = m at hd
  rw [show (998 : ℕ) = 997 + 1 from rfl]
  unfold newtonLoop
  dsimp only
  simp only [hd, mul_nan, nan_sub, lt_nan, div_nan, sub_nan, hf, abs_nan, nan_lt, Bool.or_false, Bool.false_eq_true, if_false]
  rw [lost]; rfl

theorem mul_inf_sub {q : ℚ} (s : Bool) (v : F64) (t : Bool) (hq : if t then q ≤ 0 else 0 ≤ q) :
    ((ofQ q).mul (inf s)).sub (fin v) = nan ∨ ((ofQ q).mul (inf s)).sub (fin v) = inf (s != t) := by
  obtain ⟨v', hv', _⟩ := neg_fin v
  have key : (ofQ q).mul (inf s) = nan ∨ (ofQ q).mul (inf s) = inf (s != t) := by
    by_cases h : |rnd q| < 2 ^ 1024
    · obtain ⟨a, ha, hav⟩ := ofQ_fin h
      rw [ha]
      show (if a.val = 0 then nan else inf (s != decide (a.val < 0))) = _ ∨ (if a.val = 0 then nan else inf (s != decide (a.val < 0))) = _
      by_cases h0 : a.val = 0
      · left; rw [if_pos h0]
      · right
        rw [if_neg h0]
        cases t with
        | true => rw [if_pos rfl] at hq; rw [decide_eq_true (lt_of_le_of_ne (hav ▸ rnd_le rep_zero hq) h0)]
        | false => rw [if_neg (by simp)] at hq; rw [decide_eq_false (not_lt.2 (hav ▸ rnd_nonneg hq))]
    · rw [ofQ_inf h]
      have hq0 : q ≠ 0 := by
        rintro rfl
        rw [rnd_zero, abs_zero] at h
        exact h (by positivity)
      right
      show inf (decide (q < 0) != s) = _
      cases t with
      | true =>
        rw [if_pos rfl] at hq; rw [decide_eq_true (lt_of_le_of_ne hq hq0)]
        cases s <;> rfl
      | false =>
        rw [if_neg (by simp)] at hq; rw [decide_eq_false (not_lt.2 hq)]
        cases s <;> rfl
  rcases key with h | h
  · left; rw [h, nan_sub]
  · right; rw [h]; unfold X64.sub; rw [hv']; rfl

/-- C104 (defect): a derivative that is infinite in the middle of the bracket makes Newton-Raphson return that middle at once, whatever
the accuracy and however far the objective is from zero there. -/
theorem C104_newton_infinite (f f' : X64 → X64) (c : Config) (a b m v : F64) (s : Bool) (ha : zero.lt c.accuracy = true)
    (hb : c.bound ((fin a).add c.stepsize) = fin b) (hab : a.val < b.val) (hm : (ofQ (1 / 2)).mul ((fin b).add (fin a)) = fin m)
    (hg : close (f (fin a)) zero = false) (h1 : (f (fin a)).lt zero = true) (hx : close (f (fin b)) zero = false)
    (h2 : zero.lt (f (fin b)) = true) (hv : f (fin m) = fin v) (hd : f' (fin m) = inf s) :
    newton f f' c (fin a) = .found (fin m) := by
  have hbetween : a.val ≤ m.val ∧ m.val ≤ b.val := by
    obtain ⟨h, hh, hhv⟩ := half_lit
    rw [hh] at hm
    have hsum : (fin b).add (fin a) = ofQ (b.val + a.val) := rfl
    rw [hsum] at hm
    have hk : |rnd (b.val + a.val)| < 2 ^ 1024 := by
      by_contra hc
      rw [ofQ_inf hc] at hm
      change (if h.val = 0 then nan else inf (_ != decide (h.val < 0))) = _ at hm
      split_ifs at hm
    obtain ⟨k, hk1, hk2⟩ := ofQ_fin hk
    rw [hk1] at hm
    have hprod : (fin h).mul (fin k) = ofQ (1 / 2 * k.val) := by show ofQ (h.val * k.val) = _; rw [hhv]
    rw [hprod] at hm
    have hl : |rnd (1 / 2 * k.val)| < 2 ^ 1024 := by
      by_contra hc
      rw [ofQ_inf hc] at hm
      cases hm
    obtain ⟨l, hl1, hl2⟩ := ofQ_fin hl
    rw [hl1] at hm
    cases hm
    rw [hl2]
    have hra : 2 * a.val ≤ k.val := by rw [hk2]; exact le_rnd (rep_double a.rep) (by linarith)
    have hrb : k.val ≤ 2 * b.val := by rw [hk2]; exact rnd_le (rep_double b.rep) (by linarith)
    exact ⟨le_rnd a.rep (by linarith), rnd_le b.rep (by linarith)⟩
  rw [newton_first ha hg h1 (hb ▸ hx) (hb ▸ h2), hb, hm]
  have e1 := mul_inf_sub (q := m.val - b.val) s v true (by simpa using hbetween.2)
  have e2 := mul_inf_sub (q := m.val - a.val) s v false (by simpa using hbetween.1)
  rw [← sub_fin] at e1 e2
  have e3 : zero.lt (((((fin m).sub (fin b)).mul (inf s)).sub (fin v)).mul ((((fin m).sub (fin a)).mul (inf s)).sub (fin v))) = false := by
    rcases e1 with e1 | e1
    · rw [e1, nan_mul, lt_nan]
    · rcases e2 with e2 | e2
      · rw [e2, mul_nan, lt_nan]
      · rw [e1, e2]; cases s <;> rfl
  have e4 : ∀ x y : X64, (abs (x.mul (inf s))).lt y = false := by
    have : ∀ t y, X64.lt (abs (inf t)) y = false := by intro t y; cases y <;> rfl
    intro x y
    cases x with
    | nan => rw [nan_mul]; exact nan_lt _
    | inf t => exact this _ _
    | fin d =>
      show X64.lt (abs (if d.val = 0 then nan else inf _)) y = false
      split_ifs
      · exact nan_lt _
      · exact this _ _
  have e5 : (fin v).div (inf s) = fin F64.zero := rfl
  have e6 : (fin m).sub (fin F64.zero) = fin m := by rw [sub_fin]; exact ofQ_of_eq m (sub_zero _)
  have e7 : abs (fin F64.zero) = zero := by
    obtain ⟨b, hb, hbv⟩ := abs_fin F64.zero
    exact hb.trans (congrArg fin (F64.ext (hbv.trans abs_zero)))
  have e8 : zero.lt (c.accuracy.max epsilon) = true := by
    rw [epsilon_fin]
    cases hacc : c.accuracy with
    | nan => rw [hacc, lt_nan] at ha; simp at ha
    | inf t =>
      rw [hacc] at ha
      cases t with
      | true => simp [X64.lt, zero] at ha
      | false => rfl
    | fin A =>
      rw [Nan.max_of]
      refine decide_eq_true ?_
      rw [Bisect.max_val]
      exact lt_of_lt_of_le (zpos _) (le_max_right _ _)
  rw [show (998 : ℕ) = 997 + 1 from rfl]
  unfold newtonLoop
  dsimp only
  simp only [hv, hd, e3, e4, e5, e6, e7, e8, Bool.or_false, Bool.false_eq_true, if_false, if_true]

end Verif.Float.Solve
