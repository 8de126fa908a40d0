import Verif.Float.BisectionLemmas
import Verif.Float.OrderProps
import Mathlib.Topology.Order.IntermediateValue
import Mathlib.Topology.Instances.Real.Lemmas

/-!
# C90: bisection in `f64`
-/

namespace Verif.Float.Bisect

/-- What the point `r` returned means for the computed function `f`, for a search between `lo` and `hi` and up to a distance `w`:
the value at `r` is below the closeness threshold `(42 * 2^-52)^2`; or it is not positive and a point within `w` of `r` has a
positive value; or it is not positive and the search stopped on another point between `lo` and `hi` whose value is positive and
below the threshold. -/
def Answer (f : F64 → F64) (lo hi : ℚ) (r : F64) (w : ℚ) : Prop :=
  |(f r).val| < (42 * 2 ^ (-52 : ℤ)) ^ 2 ∨ ((f r).val ≤ 0 ∧ ∃ x : F64, |x.val - r.val| < w ∧ 0 < (f x).val) ∨
    ((f r).val ≤ 0 ∧ ∃ x : F64, lo ≤ x.val ∧ x.val ≤ hi ∧ 0 < (f x).val ∧ (f x).val < (42 * 2 ^ (-52 : ℤ)) ^ 2)

theorem answer_of_close {f : F64 → F64} {r : F64} (h : closeZero (f r)) (lo hi w : ℚ) : Answer f lo hi r w := Or.inl (closeZero_lt h)

/-- C90: with an enforced interval inside `[-B, B]`, a successful search returns a point of the interval up to `2^-42 B`, within
the accuracy plus `2^-42 B` of a change of sign of the computed function, whatever that function is. -/
theorem C90_bisection (f : F64 → F64) (c : Config) (guess r : F64) (B : ℚ) (he : c.enforced = true)
    (hg : c.lower.val ≤ guess.val ∧ guess.val ≤ c.upper.val) (hl : |c.lower.val| ≤ B) (hu : |c.upper.val| ≤ B)
    (h : solve f c guess = .found r) :
    c.lower.val - 2 ^ (-42 : ℤ) * B ≤ r.val ∧ r.val ≤ c.upper.val + 2 ^ (-42 : ℤ) * B ∧
    Answer f (c.lower.val - 2 ^ (-42 : ℤ) * B) (c.upper.val + 2 ^ (-42 : ℤ) * B) r
      (max c.accuracy.val (2 ^ (-52 : ℤ)) + 2 ^ (-42 : ℤ) * B) := by
  have hB : 0 ≤ B := (abs_nonneg _).trans hl
  have hB' : 0 ≤ 2 ^ (-42 : ℤ) * B := mul_nonneg (zpos _).le hB
  have hc : c.enforced = true → c.lower.val ≤ c.upper.val := fun _ => hg.1.trans hg.2
  unfold solve at h
  by_cases ha : c.accuracy.val ≤ 0
  · rw [if_pos ha] at h; cases h
  rw [if_neg ha] at h
  simp only at h
  by_cases h0 : closeZero (f guess)
  · rw [if_pos h0] at h
    cases h
    exact ⟨by linarith [hg.1], by linarith [hg.2], answer_of_close h0 _ _ _⟩
  rw [if_neg h0] at h
  cases hs : start f c guess with
  | none => rw [hs] at h; cases h
  | some b =>
    rw [hs] at h
    obtain ⟨b', left, g1, g2, g3⟩ := search_cases f c hc _ _ _ b (start_good (fun _ => hg) hs) r h
    have hbd := g1.bounds he
    rcases g3 with ⟨k1, k2⟩ | ⟨k1, k2⟩ | ⟨k1, k2⟩
    · subst k2
      exact ⟨by linarith [hbd.1.1], by linarith [hbd.1.2], answer_of_close (g1.lo ▸ k1) _ _ _⟩
    · subst k2
      exact ⟨by linarith [hbd.2.1], by linarith [hbd.2.2], answer_of_close (g1.hi ▸ k1) _ _ _⟩
    · obtain ⟨r1, r2, r3, r4⟩ := impl_spec f c b' g1 left g2 c.lower.val c.upper.val B hl hu hbd.1 hbd.2 k1 r k2
      rw [max_val, epsilon_val] at r4
      refine ⟨r1, r2, ?_⟩
      rcases r4 with r4 | r4 | r4
      · exact Or.inl r4
      · exact Or.inr (Or.inl ⟨r3, r4⟩)
      · exact Or.inr (Or.inr ⟨r3, r4⟩)

/-- The other end of the first bracket: one step below the guess if the value there is positive, one step above it otherwise, moved
into the enforced interval. -/
def firstStep (f : F64 → F64) (c : Config) (guess : F64) : Option F64 :=
  (if 0 < (f guess).val then guess.sub c.stepsize else guess.add c.stepsize).map c.bound

theorem start_first {f : F64 → F64} {c : Config} {guess x : F64} (h : firstStep f c guess = some x) :
    start f c guess = some (if 0 < (f guess).val then ⟨x, guess, f x, f guess⟩ else ⟨guess, x, f guess, f x⟩) := by
  unfold firstStep at h
  unfold start
  by_cases h0 : 0 < (f guess).val
  · simp only [if_pos h0] at h ⊢
    cases hs : guess.sub c.stepsize with
    | none => rw [hs] at h; cases h
    | some y => rw [hs] at h; cases h; rfl
  · simp only [if_neg h0] at h ⊢
    cases hs : guess.add c.stepsize with
    | none => rw [hs] at h; cases h
    | some y => rw [hs] at h; cases h; rfl

theorem pow_fin {x : ℚ} {k : ℕ} (hk : k < 1024) (h : |x| ≤ 2 ^ k) : |rnd x| < 2 ^ 1024 := by
  have hr : Rep ((2 : ℚ) ^ k) := ⟨1, k, by rw [zpow_natCast]; norm_num, by norm_num, by omega⟩
  exact lt_of_le_of_lt (rnd_abs_le hr h) (pow_lt_pow_right₀ (by norm_num) hk)

theorem impl_succeeds (f : F64 → F64) (c : Config) (a z : F64) (ya yz : F64) (B : ℚ)
    (ha : |a.val| ≤ B) (hz : |z.val| ≤ B) (hB2 : B ≤ 2 ^ 900) :
    ∃ r, impl f (c.accuracy.max epsilon) ⟨a, z, ya, yz⟩ 999 = .found r := by
  have hB : 0 ≤ B := (abs_nonneg _).trans ha
  have hfin : ∀ x : ℚ, |x| ≤ 2 * B → |rnd x| < 2 ^ 1024 := by
    intro x hx
    refine pow_fin (k := 901) (by norm_num) ?_
    have e : (2 : ℚ) ^ 901 = 2 * 2 ^ 900 := pow_succ' 2 900
    rw [e]
    generalize (2 : ℚ) ^ 900 = t at *
    linarith
  have hacc : (2 : ℚ) ^ 902 ≤ (c.accuracy.max epsilon).val * 2 ^ 999 := by
    have h1 : (2 : ℚ) ^ (-52 : ℤ) ≤ (c.accuracy.max epsilon).val := by
      rw [max_val, epsilon_val]; exact le_max_right _ _
    refine le_trans ?_ (mul_le_mul_of_nonneg_right h1 (pow_pos (by norm_num) _).le)
    rw [← zpow_natCast, ← zpow_natCast, ← zpow_add₀ (by norm_num), zpow_le_iff]
    norm_num
  have key : ∀ p q : F64, |p.val| ≤ B → |q.val| ≤ B → ∃ dx, q.sub p = some dx ∧
      ∃ r, loop f (c.accuracy.max epsilon) 999 p dx = .found r := by
    intro p q hp hq
    have hpq : |q.val - p.val| ≤ 2 * B := by
      rw [abs_le] at hp hq ⊢
      exact ⟨by linarith [hp.2, hq.1], by linarith [hp.1, hq.2]⟩
    obtain ⟨dx, hdx, hv⟩ := toF64_isSome (hfin _ hpq)
    refine ⟨dx, hdx, ?_⟩
    have herr := rnd_sub q.rep p.rep
    rw [← hv] at herr
    have h4 := mul_le_mul_of_nonneg_left hpq u_pos.le
    have hs : |q.val - p.val - dx.val| ≤ slack B 0 := by
      unfold slack; push_cast; linarith
    have hs2 := (slack_le hB (show 0 ≤ 1000 by omega))
    refine loop_succeeds f _ (acc_half c.accuracy) B hB hfin 1000 (fun k hk => (slack_le hB hk).2) 999 0 (by norm_num) p dx
      (by linarith [hs2.2.2]) ?_ ?_ (by norm_num)
    · rw [abs_le] at hs hq ⊢
      exact ⟨by linarith [hs.2, hq.1], by linarith [hs.1, hq.2]⟩
    · refine lt_of_lt_of_le ?_ hacc
      have h5 : |dx.val| ≤ 3 * B := by
        rw [abs_le] at hs hpq ⊢
        exact ⟨by linarith [hs.2, hpq.1, hs2.2.1], by linarith [hs.1, hpq.2, hs2.2.1]⟩
      have e : (2 : ℚ) ^ 902 = 4 * 2 ^ 900 := by rw [show 902 = 900 + 2 by norm_num, pow_add]; norm_num; ring
      rw [e]
      have ht : (0 : ℚ) < 2 ^ 900 := pow_pos (by norm_num) _
      exact lt_of_le_of_lt (h5.trans (mul_le_mul_of_nonneg_left hB2 (by norm_num)))
        (mul_lt_mul_of_pos_right (by norm_num) ht)
  unfold impl
  by_cases h0 : ya.val < 0
  · rw [if_pos h0]
    obtain ⟨dx, h1, h2⟩ := key a z ha hz
    simp only [h1]
    exact h2
  · rw [if_neg h0]
    obtain ⟨dx, h1, h2⟩ := key z a hz ha
    simp only [h1]
    exact h2

/-- C90: if the computed function changes sign between the guess and the first step, and both are at most `B ≤ 2^900` in size, the
search succeeds, inside the bracket up to `2^-42 B` and within the accuracy plus `2^-42 B` of a change of sign. -/
theorem C90_bisection_succeeds (f : F64 → F64) (c : Config) (guess x : F64) (B : ℚ) (ha : 0 < c.accuracy.val)
    (hx : firstStep f c guess = some x) (hsign : (f guess).val * (f x).val < 0)
    (hg : |guess.val| ≤ B) (hxB : |x.val| ≤ B) (hB : B ≤ 2 ^ 900) :
    ∃ r, solve f c guess = .found r ∧ min guess.val x.val - 2 ^ (-42 : ℤ) * B ≤ r.val ∧
      r.val ≤ max guess.val x.val + 2 ^ (-42 : ℤ) * B ∧
      Answer f (min guess.val x.val - 2 ^ (-42 : ℤ) * B) (max guess.val x.val + 2 ^ (-42 : ℤ) * B) r
        (max c.accuracy.val (2 ^ (-52 : ℤ)) + 2 ^ (-42 : ℤ) * B) := by
  have hB0 : 0 ≤ B := (abs_nonneg _).trans hg
  have hB' : 0 ≤ 2 ^ (-42 : ℤ) * B := mul_nonneg (zpos _).le hB0
  have m1 := min_le_left guess.val x.val
  have m2 := min_le_right guess.val x.val
  have m3 := le_max_left guess.val x.val
  have m4 := le_max_right guess.val x.val
  have hlo : |min guess.val x.val| ≤ B := by rcases min_choice guess.val x.val with h | h <;> rw [h]; exacts [hg, hxB]
  have hhi : |max guess.val x.val| ≤ B := by rcases max_choice guess.val x.val with h | h <;> rw [h]; exacts [hg, hxB]
  have hstart := start_first hx
  unfold solve
  rw [if_neg (not_le.2 ha)]
  simp only
  by_cases h0 : closeZero (f guess)
  · rw [if_pos h0]
    exact ⟨guess, rfl, by linarith, by linarith, answer_of_close h0 _ _ _⟩
  rw [if_neg h0, hstart]
  simp only
  have hpass : ∀ b : Bracket, rnd (b.yMin.val * b.yMax.val) ≤ 0 → ∀ bis : Bracket → ℕ → Ret,
      search (pass f c) bis (maxIterations - 1) false b =
        if closeZero b.yMin then .found b.xMin else if closeZero b.yMax then .found b.xMax else bis b 999 := by
    intro b hb bis
    rw [show maxIterations - 1 = 998 + 1 from rfl, search.eq_def]
    simp only [pass, if_pos hb]
    by_cases k1 : closeZero b.yMin
    · simp only [if_pos k1]
    · simp only [if_neg k1]
      by_cases k2 : closeZero b.yMax
      · simp only [if_pos k2]
      · simp only [if_neg k2]
  by_cases hpos : 0 < (f guess).val
  · rw [if_pos hpos]
    have hneg : (f x).val < 0 := by
      by_contra hc
      exact absurd hsign (not_lt.2 (mul_nonneg hpos.le (not_lt.1 hc)))
    rw [hpass _ (rnd_le rep_zero (by simp only; linarith [mul_comm (f guess).val (f x).val]))]
    simp only [if_neg h0]
    by_cases h1 : closeZero (f x)
    · rw [if_pos h1]; exact ⟨x, rfl, by linarith, by linarith, answer_of_close h1 _ _ _⟩
    rw [if_neg h1]
    obtain ⟨r, hr⟩ := impl_succeeds f c x guess (f x) (f guess) B hxB hg hB
    obtain ⟨r1, r2, r3, r4⟩ := impl_spec f ⟨c.accuracy, c.stepsize, c.lower, c.upper, false⟩ ⟨x, guess, f x, f guess⟩
      ⟨rfl, rfl, fun h => by cases h⟩ 999 (by norm_num) _ _ B hlo hhi ⟨m2, m4⟩ ⟨m1, m3⟩ (Or.inl ⟨hneg, hpos⟩) r hr
    simp only [max_val, epsilon_val] at r4
    refine ⟨r, hr, r1, r2, ?_⟩
    rcases r4 with r4 | r4 | r4
    · exact Or.inl r4
    · exact Or.inr (Or.inl ⟨r3, r4⟩)
    · exact Or.inr (Or.inr ⟨r3, r4⟩)
  · rw [if_neg hpos]
    have hneg : (f guess).val < 0 := by
      rcases lt_or_eq_of_le (not_lt.1 hpos) with h | h
      · exact h
      · exact absurd (Or.inl h) h0
    have hposx : 0 < (f x).val := by
      by_contra hc
      exact absurd hsign (not_lt.2 (mul_nonneg_of_nonpos_of_nonpos hneg.le (not_lt.1 hc)))
    rw [hpass _ (rnd_le rep_zero (by simp only; linarith))]
    simp only [if_neg h0]
    by_cases h1 : closeZero (f x)
    · rw [if_pos h1]; exact ⟨x, rfl, by linarith, by linarith, answer_of_close h1 _ _ _⟩
    rw [if_neg h1]
    obtain ⟨r, hr⟩ := impl_succeeds f c guess x (f guess) (f x) B hg hxB hB
    obtain ⟨r1, r2, r3, r4⟩ := impl_spec f ⟨c.accuracy, c.stepsize, c.lower, c.upper, false⟩ ⟨guess, x, f guess, f x⟩
      ⟨rfl, rfl, fun h => by cases h⟩ 999 (by norm_num) _ _ B hlo hhi ⟨m1, m3⟩ ⟨m2, m4⟩ (Or.inl ⟨hneg, hposx⟩) r hr
    simp only [max_val, epsilon_val] at r4
    refine ⟨r, hr, r1, r2, ?_⟩
    rcases r4 with r4 | r4 | r4
    · exact Or.inl r4
    · exact Or.inr (Or.inl ⟨r3, r4⟩)
    · exact Or.inr (Or.inr ⟨r3, r4⟩)

/-- C90: what the answer means for a continuous real function `g` of which `f` is a computed version, in error by at most `e` near
the answer: unless the search met a computed value strictly between 0 and the closeness threshold, within the distance `w` of the
answer there is a real number where `|g|` is at most `e`, or `|g|` is at most `e` plus the threshold at the answer itself. -/
theorem C90_bisection_zero (f : F64 → F64) (g : ℝ → ℝ) (hg : Continuous g) (e : ℝ) (lo hi : ℚ) (r : F64) (w : ℚ) (hw : 0 < w)
    (hf : ∀ x : F64, |x.val - r.val| < w → |((f x).val : ℝ) - g x.val| ≤ e) (h : Answer f lo hi r w)
    (hno : ¬ ∃ x : F64, lo ≤ x.val ∧ x.val ≤ hi ∧ 0 < (f x).val ∧ (f x).val < (42 * 2 ^ (-52 : ℤ)) ^ 2) :
    |g r.val| ≤ e + (42 * 2 ^ (-52 : ℤ)) ^ 2 ∨ ∃ z : ℝ, |z - r.val| < w ∧ |g z| ≤ e := by
  have hfr := hf r (by rw [sub_self, abs_zero]; exact hw)
  have hr := abs_le.1 hfr
  rcases h with h | ⟨h1, x, h2, h3⟩ | ⟨_, h⟩
  · left
    have h' : |((f r).val : ℝ)| < (42 * 2 ^ (-52 : ℤ)) ^ 2 := by
      have h0 : ((|(f r).val| : ℚ) : ℝ) < (((42 * 2 ^ (-52 : ℤ)) ^ 2 : ℚ) : ℝ) := Rat.cast_lt.2 h
      rw [Rat.cast_abs] at h0
      refine h0.trans_eq ?_
      push_cast
      rfl
    rw [abs_lt] at h'
    rw [abs_le]
    exact ⟨by linarith [hr.2, h'.1], by linarith [hr.1, h'.2]⟩
  · right
    have hx := abs_le.1 (hf x h2)
    have h1' : ((f r).val : ℝ) ≤ 0 := by exact_mod_cast h1
    have h3' : (0 : ℝ) < (f x).val := by exact_mod_cast h3
    have h2' : |(x.val : ℝ) - r.val| < w := by exact_mod_cast h2
    have he : 0 ≤ e := (abs_nonneg _).trans hfr
    have hw : |(r.val : ℝ) - r.val| < w := by rw [sub_self, abs_zero]; exact (abs_nonneg _).trans_lt h2'
    by_cases hgr : -e ≤ g r.val
    · exact ⟨r.val, hw, abs_le.2 ⟨hgr, by linarith [hr.1]⟩⟩
    · rw [not_le] at hgr
      have hgx : -e ≤ g x.val := by linarith [hx.2]
      rcases le_total (r.val : ℝ) x.val with hrx | hrx
      · obtain ⟨z, hz, hz0⟩ := intermediate_value_Icc hrx hg.continuousOn ⟨hgr.le, hgx⟩
        refine ⟨z, ?_, by rw [hz0, abs_neg, abs_of_nonneg he]⟩
        rw [abs_lt] at h2' ⊢
        exact ⟨by linarith [hz.1, abs_nonneg ((r.val : ℝ) - r.val)], by linarith [hz.2, h2'.2]⟩
      · obtain ⟨z, hz, hz0⟩ := intermediate_value_Icc' hrx hg.continuousOn ⟨hgr.le, hgx⟩
        refine ⟨z, ?_, by rw [hz0, abs_neg, abs_of_nonneg he]⟩
        rw [abs_lt] at h2' ⊢
        exact ⟨by linarith [hz.1, h2'.1], by linarith [hz.2, abs_nonneg ((r.val : ℝ) - r.val)]⟩
  · exact absurd h hno

/-! ## Cases -/

/-- `1 - x`, computed. -/
def oneMinus : F64 → F64 := fun x => ((lit 1).sub x).getD F64.zero

/-- `x - 1/3`, computed. -/
def minusThird : F64 → F64 := fun x => (x.sub (lit (1 / 3))).getD F64.zero

/-- Accuracy `2^-20`, step 1, between -10 and 10. -/
def config : Config := ⟨lit (1 / 2 ^ 20), lit 1, lit (-10), lit 10, true⟩

-- The search from 3 widens the bracket twice and ends just above the zero of `1 - x`.
theorem oneMinus_solve : solve oneMinus config (lit 3) = .found (lit (4503599734744679 / 4503599627370496)) := by decide +kernel

example := C90_bisection oneMinus config (lit 3) _ 10 rfl (by decide +kernel) (by decide +kernel) (by decide +kernel) oneMinus_solve

-- The search from 0 starts with the bracket from 0 to 1.
example := C90_bisection_succeeds minusThird config (lit 0) (lit 1) 1 (by decide +kernel) (by decide +kernel) (by decide +kernel)
  (by decide +kernel) (by decide +kernel) (one_le_pow₀ (by norm_num))

example : solve minusThird config (lit 0) = .found (lit (349525 / 1048576)) := by decide +kernel

theorem oneMinus_val (x : F64) (hx : |1 - x.val| ≤ 2 ^ 4) : (oneMinus x).val = rnd (1 - x.val) := by
  have h1 : (lit 1).val = 1 := by decide +kernel
  obtain ⟨y, hy, hyv⟩ := toF64_isSome (pow_fin (by norm_num) hx)
  unfold oneMinus F64.sub
  rw [h1, hy]
  exact hyv

-- No value of `1 - x` lies between 0 and the threshold, so near the point returned the exact `1 - z` is at most `2^-53`.
example := C90_bisection_zero oneMinus (fun x => 1 - x) (continuous_const.sub continuous_id) (2 ^ (-53 : ℤ)) (-11) 11
  (lit (4503599734744679 / 4503599627370496)) (1 / 2 ^ 19) (by norm_num)
  (by
    intro x hx
    have hr : (lit (4503599734744679 / 4503599627370496)).val = 4503599734744679 / 4503599627370496 := by decide +kernel
    rw [hr, abs_lt] at hx
    have hd : |(1 : ℚ) - x.val| ≤ 1 := by
      rw [abs_le]
      constructor <;> linarith [hx.1, hx.2]
    rw [oneMinus_val x (hd.trans (by norm_num))]
    have h2 := (rnd_sub rep_one x.rep).trans (mul_le_of_le_one_right u_pos.le hd)
    rw [abs_sub_comm] at h2
    have h3 : ((|rnd (1 - x.val) - (1 - x.val)| : ℚ) : ℝ) ≤ ((u : ℚ) : ℝ) := Rat.cast_le.2 h2
    rw [Rat.cast_abs] at h3
    unfold u at h3
    push_cast at h3
    exact h3)
  (Or.inr (Or.inl ⟨by decide +kernel, lit (1 - 1 / 2 ^ 20), by decide +kernel, by decide +kernel⟩))
  (by
    rintro ⟨x, h1, h2, h3, h4⟩
    have hd : |(1 : ℚ) - x.val| ≤ 2 ^ 4 := by
      rw [abs_le]
      constructor <;> linarith
    rw [oneMinus_val x hd] at h3 h4
    have hx := rep_lt_one x.rep ((rnd_sub_pos rep_one x.rep).1 h3)
    have hu : Rep u := ⟨1, -53, by unfold u; norm_num, by norm_num, by norm_num⟩
    have h5 := le_rnd hu (show u ≤ 1 - x.val by linarith)
    have h6 : ((42 : ℚ) * 2 ^ (-52 : ℤ)) ^ 2 < u := by unfold u; norm_num
    exact absurd (h5.trans_lt (h4.trans h6)) (lt_irrefl _))

/-- The point `0.7 * 2^-49`. -/
def edge : F64 := lit (7 / 10 / 2 ^ 49)

/-- Positive at the point only. -/
def onlyAtEdge : F64 → F64 := fun x => if x.val = edge.val then lit 1 else lit (-1)

/-- C90 (defect): an enforced interval does not keep the search inside it. The width of the bracket is rounded up, and between -8 and
`0.7 * 2^-49` the midpoints pass the upper bound: the point returned lies above it. -/
theorem C90_leaves_interval : ∃ (f : F64 → F64) (c : Config) (guess r : F64), c.enforced = true ∧ c.lower.val ≤ guess.val ∧
    guess.val ≤ c.upper.val ∧ solve f c guess = .found r ∧ c.upper.val < r.val :=
  ⟨onlyAtEdge, ⟨lit (1 / 2 ^ 52), lit 100, lit (-8), edge, true⟩, lit (-8), lit (15 / 9007199254740992), rfl, by decide +kernel,
    by decide +kernel, by decide +kernel, by decide +kernel⟩

end Verif.Float.Bisect
