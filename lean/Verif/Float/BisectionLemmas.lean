import Verif.Float.Bisection
import Verif.Float.SumProps
import Mathlib.Tactic.Linarith

/-!
# Bisection in `f64`: the rounding errors of the search
-/

namespace Verif.Float.Bisect

theorem epsilon_val : epsilon.val = 2 ^ (-52 : ℤ) := rfl

theorem two_val : two.val = 2 := rfl

theorem rep_half {x : ℚ} (h : Rep x) (hx : 2 ^ (-52 : ℤ) ≤ |x|) : Rep (x / 2) := by
  have hx0 : x ≠ 0 := by
    intro h0; rw [h0, abs_zero] at hx; exact absurd hx (not_le.2 (zpos _))
  obtain ⟨n, hn⟩ := rep_multiple h hx0
  have h2 := abs_lt_ulp x hx0
  have h1 : |n| < 2 ^ 53 := by
    have := h2
    rw [zpow_add₀ (by norm_num), mul_comm] at this
    nth_rewrite 1 [hn] at this
    rw [abs_mul, abs_of_pos (zpos (ulpExp x))] at this
    exact int_abs_lt (zpos (ulpExp x)) this
  have h3 : -52 < ulpExp x + 53 := (zpow_lt_iff _ _).1 (lt_of_le_of_lt hx h2)
  refine ⟨n, ulpExp x - 1, ?_, h1, by omega⟩
  rw [zpow_sub₀ (by norm_num), zpow_one, ← mul_div_assoc, ← hn]

theorem div_two {dx d : F64} (h : dx.div two = some d) : d.val = rnd (dx.val / 2) := by
  unfold F64.div at h
  rw [if_neg (by rw [two_val]; norm_num)] at h
  exact toF64_some h

/-- Half of a value lies between zero and the value, also after rounding. -/
theorem half_between {dx d : F64} (h : dx.div two = some d) :
    (0 ≤ dx.val → 0 ≤ d.val ∧ d.val ≤ dx.val) ∧ (dx.val ≤ 0 → dx.val ≤ d.val ∧ d.val ≤ 0) := by
  rw [div_two h]
  constructor <;> intro h0
  · exact ⟨le_rnd rep_zero (by linarith), rnd_le dx.rep (by linarith)⟩
  · exact ⟨le_rnd dx.rep (by linarith), rnd_le rep_zero (by linarith)⟩

theorem closeZero_lt {x : F64} (h : closeZero x) : |x.val| < tol := by
  rcases h with h | h
  · rw [h, abs_zero]; unfold tol; norm_num
  · exact h

/-- The total rounding error allowed after `k` steps between points of size at most `B`. -/
def slack (B : ℚ) (k : ℕ) : ℚ := 2 * (k + 1) * u * B

theorem slack_succ (B : ℚ) (k : ℕ) : slack B (k + 1) = slack B k + 2 * u * B := by
  unfold slack; push_cast; ring

theorem slack_le {B : ℚ} (hB : 0 ≤ B) {k : ℕ} (hk : k ≤ 1000) : slack B k ≤ 2 ^ (-42 : ℤ) * B ∧ slack B k ≤ B / 2 ∧ 0 ≤ slack B k := by
  have hk' : (k : ℚ) ≤ 1000 := by exact_mod_cast hk
  have e : slack B k = (k + 1) * (2 * u) * B := by unfold slack; ring
  have h0 : (0 : ℚ) ≤ k := Nat.cast_nonneg k
  have h1 : (k + 1 : ℚ) * (2 * u) ≤ 1001 * (2 * u) :=
    mul_le_mul_of_nonneg_right (by linarith) (by linarith [u_pos])
  have h2 : (1001 : ℚ) * (2 * u) ≤ 2 ^ (-42 : ℤ) := by unfold u; norm_num
  have h3 : (2 : ℚ) ^ (-42 : ℤ) ≤ 1 / 2 := by norm_num
  rw [e]
  refine ⟨mul_le_mul_of_nonneg_right (h1.trans h2) hB, ?_, ?_⟩
  · have := mul_le_mul_of_nonneg_right ((h1.trans h2).trans h3) hB
    linarith
  · exact mul_nonneg (mul_nonneg (by linarith) (by linarith [u_pos])) hB

theorem step_found {f : F64 → F64} {acc root dx d m : F64} (hd : dx.div two = some d) (hm : root.add d = some m) :
    step f acc root dx =
      if |d.val| < acc.val ∨ closeZero (f m) then .inl (.found (if (f m).val ≤ 0 then m else root))
      else .inr (if (f m).val ≤ 0 then m else root, d) := by
  unfold step
  simp only [hd, hm]

theorem step_cases (f : F64 → F64) (acc root dx : F64) : step f acc root dx = .inl .nonfinite ∨
    ∃ d m, dx.div two = some d ∧ root.add d = some m := by
  unfold step
  cases hd : dx.div two with
  | none => left; rfl
  | some d =>
    cases hm : root.add d with
    | none => left; simp only [hm]
    | some m => right; exact ⟨d, m, rfl, hm⟩

/-- How the bisection loop ends. -/
theorem loop_spec (f : F64 → F64) (acc : F64) (hacc : ∀ x : ℚ, Rep x → acc.val ≤ |x| → Rep (x / 2)) (lo hi B : ℚ) (hlo : |lo| ≤ B) (hhi : |hi| ≤ B)
    (δ : ℚ) (N : ℕ) (hδ : ∀ k ≤ N, slack B k ≤ δ ∧ slack B k ≤ B / 2 ∧ 0 ≤ slack B k)     (n k : ℕ) (hk : n + k ≤ N) (root dx p r : F64) (h1 : (f root).val ≤ 0) (h2 : 0 < (f p).val)
    (hp : |p.val - (root.val + dx.val)| ≤ slack B k)
    (hl : lo - slack B k ≤ root.val ∧ root.val ≤ hi + slack B k)
    (hl' : lo - slack B k ≤ root.val + dx.val ∧ root.val + dx.val ≤ hi + slack B k)
    (h : loop f acc n root dx = .found r) :
    lo - δ ≤ r.val ∧ r.val ≤ hi + δ ∧ (f r).val ≤ 0 ∧
      (|(f r).val| < tol ∨ (∃ x : F64, |x.val - r.val| < acc.val + δ ∧ 0 < (f x).val) ∨
        ∃ x : F64, lo - δ ≤ x.val ∧ x.val ≤ hi + δ ∧ 0 < (f x).val ∧ (f x).val < tol) := by
  have hB : 0 ≤ B := (abs_nonneg _).trans hlo
  induction n generalizing k root dx p with
  | zero => unfold loop at h; rw [repeatWith] at h; cases h
  | succ n ih =>
    unfold loop at h ih
    rw [repeatWith] at h
    rcases step_cases f acc root dx with hc | ⟨d, m, hd, hm⟩
    · rw [hc] at h; cases h
    have hmv := toF64_some hm
    obtain ⟨s1, s2, s3⟩ := hδ k (by omega)
    have s1' := (hδ (k + 1) (by omega)).1
    rw [slack_succ] at s1'
    have hb := half_between hd
    -- the exact midpoint lies between the two ends
    have hq : lo - slack B k ≤ root.val + d.val ∧ root.val + d.val ≤ hi + slack B k := by
      rcases le_total 0 dx.val with h0 | h0
      · have := hb.1 h0; exact ⟨by linarith [hl.1], by linarith [hl'.2]⟩
      · have := hb.2 h0; exact ⟨by linarith [hl'.1], by linarith [hl.2]⟩
    have habs : |root.val + d.val| ≤ 2 * B := by
      rw [abs_le] at hlo hhi ⊢
      exact ⟨by linarith [hq.1, hlo.1], by linarith [hq.2, hhi.2]⟩
    have herr : |m.val - (root.val + d.val)| ≤ 2 * u * B := by
      rw [hmv, abs_sub_comm]
      have := rnd_add root.rep d.rep
      have h3 := mul_le_mul_of_nonneg_left habs u_pos.le
      linarith
    rw [abs_le] at herr
    have hmr : lo - slack B (k + 1) ≤ m.val ∧ m.val ≤ hi + slack B (k + 1) := by
      rw [slack_succ]
      exact ⟨by linarith [hq.1], by linarith [hq.2]⟩
    have hu : 0 ≤ 2 * u * B := mul_nonneg (by linarith [u_pos]) hB
    rw [abs_le] at hp
    -- what remains of the step
    have hrest : |dx.val - d.val| < acc.val ∨ dx.val = 2 * d.val := by
      by_cases hx : |dx.val| < acc.val
      · left
        refine lt_of_le_of_lt ?_ hx
        rcases le_total 0 dx.val with h0 | h0
        · have := hb.1 h0
          rw [abs_of_nonneg h0, abs_of_nonneg (by linarith)]; linarith
        · have := hb.2 h0
          rw [abs_of_nonpos h0, abs_of_nonpos (by linarith)]; linarith
      · right
        have := div_two hd
        rw [rnd_rep (hacc _ dx.rep (not_lt.1 hx))] at this
        linarith
    by_cases hf : (f m).val ≤ 0
    · rw [step_found hd hm, if_pos hf] at h
      split_ifs at h with hs
      · simp only [Ret.found.injEq] at h
        subst h
        refine ⟨by rw [slack_succ] at hmr; linarith [hmr.1], by rw [slack_succ] at hmr; linarith [hmr.2], hf, ?_⟩
        rcases hs with hs | hs
        · refine Or.inr (Or.inl ⟨p, ?_, h2⟩)
          have hr : |dx.val - d.val| < acc.val := by
            rcases hrest with h | h
            · exact h
            · rw [h, show 2 * d.val - d.val = d.val by ring]; exact hs
          rw [abs_lt] at hr ⊢
          exact ⟨by linarith [hr.1, hp.1, herr.2], by linarith [hr.2, hp.2, herr.1]⟩
        · exact Or.inl (closeZero_lt hs)
      · rw [not_or, not_lt] at hs
        have hex : dx.val = 2 * d.val := by
          rcases hrest with h' | h'
          · by_contra hne
            have hx : ¬ |dx.val| < acc.val := by
              intro hx
              have h5 : |d.val| ≤ |dx.val| := by
                rcases le_total 0 dx.val with h0 | h0
                · have := hb.1 h0
                  rw [abs_of_nonneg h0, abs_of_nonneg this.1]; exact this.2
                · have := hb.2 h0
                  rw [abs_of_nonpos h0, abs_of_nonpos this.2]; linarith
              linarith [hs.1]
            have := div_two hd
            rw [rnd_rep (hacc _ dx.rep (not_lt.1 hx))] at this
            exact hne (by linarith)
          · exact h'
        refine ih (k + 1) (by omega) m d p hf h2 ?_ hmr ?_ h
        · rw [slack_succ, abs_le]
          exact ⟨by linarith [hp.1, herr.2], by linarith [hp.2, herr.1]⟩
        · rw [slack_succ]
          exact ⟨by linarith [hl'.1, herr.1], by linarith [hl'.2, herr.2]⟩
    · rw [step_found hd hm, if_neg hf] at h
      rw [not_le] at hf
      split_ifs at h with hs
      · simp only [Ret.found.injEq] at h
        subst h
        refine ⟨by linarith [hl.1], by linarith [hl.2], h1, ?_⟩
        rcases hs with hs | hs
        · refine Or.inr (Or.inl ⟨m, ?_, hf⟩)
          rw [abs_lt] at hs ⊢
          exact ⟨by linarith [hs.1, herr.1], by linarith [hs.2, herr.2]⟩
        · rw [slack_succ] at hmr
          refine Or.inr (Or.inr ⟨m, by linarith [hmr.1], by linarith [hmr.2], hf, ?_⟩)
          have := closeZero_lt hs
          rwa [abs_of_pos hf] at this
      · refine ih (k + 1) (by omega) root d m h1 hf ?_ ?_ ?_ h
        · rw [slack_succ, abs_le]
          exact ⟨by linarith [herr.1], by linarith [herr.2]⟩
        · rw [slack_succ]; exact ⟨by linarith [hl.1], by linarith [hl.2]⟩
        · rw [slack_succ]; exact ⟨by linarith [hq.1], by linarith [hq.2]⟩

/-! ## Success of the loop -/

/-- A bracket of points of size at most `2^901` is narrowed without overflow and within the iterations allowed. -/
theorem loop_succeeds (f : F64 → F64) (acc : F64) (hacc : ∀ x : ℚ, Rep x → acc.val ≤ |x| → Rep (x / 2)) (B : ℚ) (hB : 0 ≤ B)
    (hfin : ∀ x : ℚ, |x| ≤ 2 * B → |rnd x| < 2 ^ 1024)
    (N : ℕ) (hδ : ∀ k ≤ N, slack B k ≤ B / 2 ∧ 0 ≤ slack B k) (n k : ℕ) (hk : n + k ≤ N) (root dx : F64)
    (hl : |root.val| ≤ B + slack B k) (hl' : |root.val + dx.val| ≤ B + slack B k) (hn : |dx.val| < acc.val * 2 ^ n) (hn0 : 0 < n) :
    ∃ r, loop f acc n root dx = .found r := by
  induction n generalizing k root dx with
  | zero => exact absurd hn0 (lt_irrefl 0)
  | succ n ih =>
    unfold loop at ih ⊢
    rw [repeatWith]
    obtain ⟨s2, s3⟩ := hδ k (by omega)
    have hdfin : |rnd (dx.val / 2)| < 2 ^ 1024 := by
      apply fin_of_le dx
      rw [abs_div, abs_of_pos (show (0 : ℚ) < 2 by norm_num)]
      linarith [abs_nonneg dx.val]
    obtain ⟨d, hd, hdv⟩ := toF64_isSome hdfin
    have hd' : dx.div two = some d := by
      unfold F64.div
      rw [if_neg (by rw [two_val]; norm_num), two_val]; exact hd
    have hb := half_between hd'
    have hq : |root.val + d.val| ≤ B + slack B k := by
      rw [abs_le] at hl hl' ⊢
      rcases le_total 0 dx.val with h0 | h0
      · have := hb.1 h0; exact ⟨by linarith [hl.1], by linarith [hl'.2]⟩
      · have := hb.2 h0; exact ⟨by linarith [hl'.1], by linarith [hl.2]⟩
    obtain ⟨m, hm, hmv⟩ := toF64_isSome (hfin (root.val + d.val) (by linarith))
    have hm' : root.add d = some m := hm
    have herr : |m.val - (root.val + d.val)| ≤ 2 * u * B := by
      rw [hmv, abs_sub_comm]
      have := rnd_add root.rep d.rep
      have h3 := mul_le_mul_of_nonneg_left (hq.trans (show B + slack B k ≤ 2 * B by linarith)) u_pos.le
      linarith
    have hu : 0 ≤ 2 * u * B := mul_nonneg (by linarith [u_pos]) hB
    rw [step_found hd' hm']
    by_cases hs : |d.val| < acc.val ∨ closeZero (f m)
    · rw [if_pos hs]; exact ⟨_, rfl⟩
    rw [if_neg hs]
    rw [not_or, not_lt] at hs
    have hdd : |d.val| ≤ |dx.val| := by
      rcases le_total 0 dx.val with h0 | h0
      · have := hb.1 h0
        rw [abs_of_nonneg h0, abs_of_nonneg this.1]; exact this.2
      · have := hb.2 h0
        rw [abs_of_nonpos h0, abs_of_nonpos this.2]; linarith
    have hex : dx.val = 2 * d.val := by
      have := div_two hd'
      rw [rnd_rep (hacc _ dx.rep (hs.1.trans hdd))] at this
      linarith
    have hn' : |d.val| < acc.val * 2 ^ n := by
      rw [hex, abs_mul, abs_of_pos (show (0 : ℚ) < 2 by norm_num), pow_succ] at hn
      linarith
    have hn0' : 0 < n := by
      rcases Nat.eq_zero_or_pos n with h0 | h0
      · rw [h0, pow_zero, mul_one] at hn'; exact absurd hn' (not_lt.2 hs.1)
      · exact h0
    rw [abs_le] at herr hq hl hl'
    by_cases hf : (f m).val ≤ 0
    · simp only [if_pos hf]
      refine ih (k + 1) (by omega) m d ?_ ?_ hn' hn0'
      · rw [slack_succ, abs_le]; exact ⟨by linarith [herr.1, hq.1], by linarith [herr.2, hq.2]⟩
      · rw [slack_succ, abs_le]; exact ⟨by linarith [herr.1, hl'.1], by linarith [herr.2, hl'.2]⟩
    · simp only [if_neg hf]
      refine ih (k + 1) (by omega) root d ?_ ?_ hn' hn0'
      · rw [slack_succ, abs_le]; exact ⟨by linarith [hl.1], by linarith [hl.2]⟩
      · rw [slack_succ, abs_le]; exact ⟨by linarith [hq.1], by linarith [hq.2]⟩

/-! ## The bracket -/

theorem tol_val : tol = (42 * 2 ^ (-52 : ℤ)) ^ 2 := rfl

theorem not_closeZero {x : F64} (h : ¬ closeZero x) : 2 ^ (-94 : ℤ) ≤ |x.val| := by
  unfold closeZero at h
  rw [not_or, not_lt] at h
  refine le_trans ?_ h.2
  rw [tol_val]; norm_num

/-- The rounded product tells the signs of the ends apart, unless one of the values is nearly zero. -/
theorem signs {a b : F64} (h : rnd (a.val * b.val) ≤ 0) (ha : ¬ closeZero a) (hb : ¬ closeZero b) :
    (a.val < 0 ∧ 0 < b.val) ∨ (0 < a.val ∧ b.val < 0) := by
  have ha' := not_closeZero ha
  have hb' := not_closeZero hb
  have hlt : a.val * b.val < 2 ^ (-188 : ℤ) := by
    by_contra hc
    have h1 : Rep (2 ^ (-188 : ℤ)) := ⟨1, -188, by norm_num, by norm_num, by norm_num⟩
    have h2 := le_rnd h1 (not_lt.1 hc)
    have h3 := zpos (-188)
    linarith
  have hprod : (2 : ℚ) ^ (-188 : ℤ) ≤ |a.val| * |b.val| := by
    have := mul_le_mul ha' hb' (zpos _).le (abs_nonneg _)
    rwa [← zpow_add₀ (by norm_num)] at this
  have hz := zpos (-94)
  generalize (2 : ℚ) ^ (-188 : ℤ) = t at *
  generalize (2 : ℚ) ^ (-94 : ℤ) = s at *
  rcases le_total 0 a.val with h1 | h1
  · rw [abs_of_nonneg h1] at ha' hprod
    rcases le_total 0 b.val with h2 | h2
    · rw [abs_of_nonneg h2] at hprod; linarith
    · rw [abs_of_nonpos h2] at hb'
      exact Or.inr ⟨by linarith, by linarith⟩
  · rw [abs_of_nonpos h1] at ha' hprod
    rcases le_total 0 b.val with h2 | h2
    · rw [abs_of_nonneg h2] at hb'
      exact Or.inl ⟨by linarith, by linarith⟩
    · rw [abs_of_nonpos h2] at hprod; linarith

/-- The bracket holds the values of the objective at points inside the enforced interval. -/
structure Good (f : F64 → F64) (c : Config) (b : Bracket) : Prop where
  lo : b.yMin = f b.xMin
  hi : b.yMax = f b.xMax
  bounds : c.enforced = true → (c.lower.val ≤ b.xMin.val ∧ b.xMin.val ≤ c.upper.val) ∧
    (c.lower.val ≤ b.xMax.val ∧ b.xMax.val ≤ c.upper.val)

theorem bound_mem (c : Config) (hc : c.lower.val ≤ c.upper.val) (he : c.enforced = true) (x : F64) :
    c.lower.val ≤ (c.bound x).val ∧ (c.bound x).val ≤ c.upper.val := by
  unfold Config.bound
  split_ifs with h1 h2
  · exact ⟨le_rfl, hc⟩
  · exact ⟨hc, le_rfl⟩
  · constructor
    · by_contra h; exact h1 ⟨he, not_le.1 h⟩
    · by_contra h; exact h2 ⟨he, not_le.1 h⟩

theorem down_good {f : F64 → F64} {c : Config} {b b' : Bracket} (hc : c.enforced = true → c.lower.val ≤ c.upper.val)
    (hb : Good f c b) (h : b.down f c = some b') : Good f c b' := by
  unfold Bracket.down at h
  cases hg : grow b.xMin b.xMax with
  | none => rw [hg] at h; cases h
  | some x =>
    rw [hg] at h
    have e : b' = { b with xMin := c.bound x, yMin := f (c.bound x) } := (Option.some.inj h).symm
    subst e
    exact ⟨rfl, hb.hi, fun he => ⟨bound_mem c (hc he) he _, (hb.bounds he).2⟩⟩

theorem up_good {f : F64 → F64} {c : Config} {b b' : Bracket} (hc : c.enforced = true → c.lower.val ≤ c.upper.val)
    (hb : Good f c b) (h : b.up f c = some b') : Good f c b' := by
  unfold Bracket.up at h
  cases hg : grow b.xMax b.xMin with
  | none => rw [hg] at h; cases h
  | some x =>
    rw [hg] at h
    have e : b' = { b with xMax := c.bound x, yMax := f (c.bound x) } := (Option.some.inj h).symm
    subst e
    exact ⟨hb.lo, rfl, fun he => ⟨(hb.bounds he).1, bound_mem c (hc he) he _⟩⟩

/-- What one pass can decide. -/
theorem pass_cases (f : F64 → F64) (c : Config) (hc : c.enforced = true → c.lower.val ≤ c.upper.val) (flip : Bool) (b : Bracket)
    (hb : Good f c b) :
    (closeZero b.yMin ∧ pass f c flip b = .stop (.found b.xMin)) ∨
    (closeZero b.yMax ∧ pass f c flip b = .stop (.found b.xMax)) ∨
    (((b.yMin.val < 0 ∧ 0 < b.yMax.val) ∨ (0 < b.yMin.val ∧ b.yMax.val < 0)) ∧ pass f c flip b = .bisect) ∨
    pass f c flip b = .stop .nonfinite ∨ (∃ flip' b', Good f c b' ∧ pass f c flip b = .again flip' b') ∨
    ∃ b', Good f c b' ∧ pass f c flip b = .skip b' := by
  unfold pass
  by_cases h0 : rnd (b.yMin.val * b.yMax.val) ≤ 0
  · simp only [if_pos h0]
    by_cases h1 : closeZero b.yMin
    · exact Or.inl ⟨h1, if_pos h1⟩
    · simp only [if_neg h1]
      by_cases h2 : closeZero b.yMax
      · exact Or.inr (Or.inl ⟨h2, if_pos h2⟩)
      · simp only [if_neg h2]
        exact Or.inr (Or.inr (Or.inl ⟨signs h0 h1 h2, trivial⟩))
  · simp only [if_neg h0]
    right; right; right
    by_cases h1 : |b.yMin.val| < |b.yMax.val|
    · simp only [if_pos h1]
      cases hd : b.down f c with
      | none => exact Or.inl rfl
      | some b' => exact Or.inr (Or.inl ⟨flip, b', down_good hc hb hd, rfl⟩)
    · simp only [if_neg h1]
      by_cases h2 : |b.yMin.val| > |b.yMax.val|
      · simp only [if_pos h2]
        cases hd : b.up f c with
        | none => exact Or.inl rfl
        | some b' => exact Or.inr (Or.inl ⟨flip, b', up_good hc hb hd, rfl⟩)
      · simp only [if_neg h2]
        by_cases h3 : flip = false
        · simp only [if_pos h3]
          cases hd : b.down f c with
          | none => exact Or.inl rfl
          | some b' => exact Or.inr (Or.inr ⟨b', down_good hc hb hd, rfl⟩)
        · simp only [if_neg h3]
          cases hd : b.up f c with
          | none => exact Or.inl rfl
          | some b' => exact Or.inr (Or.inl ⟨false, b', up_good hc hb hd, rfl⟩)

theorem search_cases (f : F64 → F64) (c : Config) (hc : c.enforced = true → c.lower.val ≤ c.upper.val)
    (bisect : Bracket → ℕ → Ret) (n : ℕ) (flip : Bool) (b : Bracket) (hb : Good f c b) (r : F64)
    (h : search (pass f c) bisect n flip b = .found r) :
    ∃ b' left, Good f c b' ∧ left ≤ n ∧ ((closeZero b'.yMin ∧ r = b'.xMin) ∨ (closeZero b'.yMax ∧ r = b'.xMax) ∨
      (((b'.yMin.val < 0 ∧ 0 < b'.yMax.val) ∨ (0 < b'.yMin.val ∧ b'.yMax.val < 0)) ∧ bisect b' left = .found r)) := by
  induction n using Nat.strongRecOn generalizing flip b with
  | _ n ih =>
    cases n with
    | zero => rw [search] at h; cases h
    | succ n =>
      rw [search.eq_def] at h
      simp only at h
      rcases pass_cases f c hc flip b hb with ⟨h1, h2⟩ | ⟨h1, h2⟩ | ⟨h1, h2⟩ | h2 | ⟨flip', b', h1, h2⟩ | ⟨b', h1, h2⟩
      · rw [h2] at h; exact ⟨b, n + 1, hb, le_rfl, Or.inl ⟨h1, (Ret.found.inj h).symm⟩⟩
      · rw [h2] at h; exact ⟨b, n + 1, hb, le_rfl, Or.inr (Or.inl ⟨h1, (Ret.found.inj h).symm⟩)⟩
      · rw [h2] at h; exact ⟨b, n + 1, hb, le_rfl, Or.inr (Or.inr ⟨h1, h⟩)⟩
      · rw [h2] at h; cases h
      · rw [h2] at h
        obtain ⟨b'', left, g1, g2, g3⟩ := ih n (by omega) flip' b' h1 h
        exact ⟨b'', left, g1, by omega, g3⟩
      · rw [h2] at h
        cases n with
        | zero => cases h
        | succ n =>
          obtain ⟨b'', left, g1, g2, g3⟩ := ih n (by omega) true b' h1 h
          exact ⟨b'', left, g1, by omega, g3⟩

theorem start_good {f : F64 → F64} {c : Config} {guess : F64} {b : Bracket}
    (hg : c.enforced = true → c.lower.val ≤ guess.val ∧ guess.val ≤ c.upper.val) (h : start f c guess = some b) : Good f c b := by
  have hc : c.enforced = true → c.lower.val ≤ c.upper.val := fun he => (hg he).1.trans (hg he).2
  unfold start at h
  by_cases h0 : 0 < (f guess).val
  · simp only [if_pos h0] at h
    cases hs : guess.sub c.stepsize with
    | none => rw [hs] at h; cases h
    | some x =>
      rw [hs] at h
      have e : b = ⟨c.bound x, guess, f (c.bound x), f guess⟩ := (Option.some.inj h).symm
      subst e
      exact ⟨rfl, rfl, fun he => ⟨bound_mem c (hc he) he _, hg he⟩⟩
  · simp only [if_neg h0] at h
    cases hs : guess.add c.stepsize with
    | none => rw [hs] at h; cases h
    | some x =>
      rw [hs] at h
      have e : b = ⟨guess, c.bound x, f guess, f (c.bound x)⟩ := (Option.some.inj h).symm
      subst e
      exact ⟨rfl, rfl, fun he => ⟨hg he, bound_mem c (hc he) he _⟩⟩

theorem max_val (a b : F64) : (a.max b).val = max a.val b.val := by
  unfold F64.max
  split_ifs with h
  · exact (max_eq_right h).symm
  · exact (max_eq_left (not_le.1 h).le).symm

theorem acc_half (a : F64) (x : ℚ) (hx : Rep x) (h : (a.max epsilon).val ≤ |x|) : Rep (x / 2) := by
  rw [max_val, epsilon_val] at h
  exact rep_half hx ((le_max_right _ _).trans h)

/-- What bisecting a good bracket returns. -/
theorem impl_spec (f : F64 → F64) (c : Config) (b : Bracket) (hb : Good f c b) (left : ℕ) (hleft : left ≤ 999) (lo hi B : ℚ)
    (hlo : |lo| ≤ B) (hhi : |hi| ≤ B) (h1 : lo ≤ b.xMin.val ∧ b.xMin.val ≤ hi) (h2 : lo ≤ b.xMax.val ∧ b.xMax.val ≤ hi)
    (hs : (b.yMin.val < 0 ∧ 0 < b.yMax.val) ∨ (0 < b.yMin.val ∧ b.yMax.val < 0)) (r : F64)
    (h : impl f (c.accuracy.max epsilon) b left = .found r) :
    lo - 2 ^ (-42 : ℤ) * B ≤ r.val ∧ r.val ≤ hi + 2 ^ (-42 : ℤ) * B ∧ (f r).val ≤ 0 ∧
      (|(f r).val| < tol ∨
        (∃ x : F64, |x.val - r.val| < (c.accuracy.max epsilon).val + 2 ^ (-42 : ℤ) * B ∧ 0 < (f x).val) ∨
        ∃ x : F64, lo - 2 ^ (-42 : ℤ) * B ≤ x.val ∧ x.val ≤ hi + 2 ^ (-42 : ℤ) * B ∧ 0 < (f x).val ∧ (f x).val < tol) := by
  have hB : 0 ≤ B := (abs_nonneg _).trans hlo
  obtain ⟨a, z, dx, g1, g2, a1, a2, z1, z2, hdx, hl⟩ : ∃ a z dx : F64, (f a).val < 0 ∧ 0 < (f z).val ∧ lo ≤ a.val ∧
      a.val ≤ hi ∧ lo ≤ z.val ∧ z.val ≤ hi ∧ z.sub a = some dx ∧ loop f (c.accuracy.max epsilon) left a dx = .found r := by
    unfold impl at h
    rw [hb.lo, hb.hi] at hs
    rcases hs with ⟨g1, g2⟩ | ⟨g1, g2⟩
    · rw [if_pos (by rw [hb.lo]; exact g1)] at h
      cases hd : b.xMax.sub b.xMin with
      | none => rw [hd] at h; cases h
      | some dx => rw [hd] at h; exact ⟨b.xMin, b.xMax, dx, g1, g2, h1.1, h1.2, h2.1, h2.2, hd, h⟩
    · rw [if_neg (by rw [hb.lo]; exact not_lt.2 g1.le)] at h
      cases hd : b.xMin.sub b.xMax with
      | none => rw [hd] at h; cases h
      | some dx => rw [hd] at h; exact ⟨b.xMax, b.xMin, dx, g2, g1, h2.1, h2.2, h1.1, h1.2, hd, h⟩
  have hv : dx.val = rnd (z.val - a.val) := toF64_some hdx
  have he : |z.val - (a.val + dx.val)| ≤ slack B 0 := by
    have := rnd_sub z.rep a.rep
    rw [← hv] at this
    have h3 : |z.val - a.val| ≤ 2 * B := by
      rw [abs_le] at hlo hhi ⊢
      exact ⟨by linarith [hlo.1, hhi.2], by linarith [hlo.1, hhi.2]⟩
    have h4 := mul_le_mul_of_nonneg_left h3 u_pos.le
    rw [show z.val - (a.val + dx.val) = z.val - a.val - dx.val by ring]
    unfold slack
    push_cast
    linarith
  have s0 := (slack_le hB (show 0 ≤ 1000 by omega)).2.2
  have he' := abs_le.1 he
  exact loop_spec f _ (acc_half c.accuracy) lo hi B hlo hhi (2 ^ (-42 : ℤ) * B) 1000 (fun k hk => slack_le hB hk) left 0
    (by omega) a dx z r g1.le g2 he ⟨by linarith, by linarith⟩ ⟨by linarith [he'.2], by linarith [he'.1]⟩ hl

end Verif.Float.Bisect
