import Verif.Float.OrderProps
import Mathlib.Data.Rat.Floor
import Mathlib.Algebra.Order.Archimedean.Basic

/-!
# C88: sequences in `f64`

When `seq` ends and when it runs forever, how far its entries and those of `linspace` are from the exact grid, and what rounding
does to the last one.
-/

namespace Verif.Float

/-! ## Adding a step -/

/-- With a positive step of at least `2^-52` of the size of `x`, the rounded sum is at least `2^-1074` above `x`. -/
theorem step_up {x s : ℚ} (hx : Rep x) (hs : Rep s) (h0 : 0 < s) (h : |x| ≤ 2 ^ 52 * s) : x + 2 ^ (-1074 : ℤ) ≤ rnd (x + s) := by
  have hmin : 2 ^ (-1074 : ℤ) ≤ s := by
    obtain ⟨n, hn⟩ := rep_grid hs
    have hn0 : 0 < n := by
      by_contra hc
      have : (n : ℚ) ≤ 0 := by exact_mod_cast not_lt.1 hc
      have := mul_nonpos_of_nonpos_of_nonneg this (zpos (-1074)).le
      rw [← hn] at this
      linarith
    have h1 : (1 : ℚ) ≤ n := by exact_mod_cast hn0
    rw [hn]
    exact le_mul_of_one_le_left (zpos (-1074)).le h1
  by_cases hx0 : x = 0
  · subst hx0; rw [zero_add, zero_add, rnd_rep hs]; exact hmin
  have hE : (2 : ℚ) ^ ulpExp x ≤ s := by
    rcases eq_or_lt_of_le (ulpExp_ge x) with h1 | h1
    · rw [← h1]; exact hmin
    · have h2 := abs_ge_ulp x hx0 h1
      rw [zpow_add₀ (by norm_num), mul_comm] at h2
      have h3 : (2 : ℚ) ^ (52 : ℤ) * 2 ^ ulpExp x ≤ 2 ^ 52 * s := h2.trans h
      exact le_of_mul_le_mul_left h3 (by norm_num)
  have h4 : (2 : ℚ) ^ (-1074 : ℤ) ≤ 2 ^ ulpExp x := (zpow_le_iff _ _).2 (ulpExp_ge x)
  have := le_rnd (rep_succ hx hx0) (show x + 2 ^ ulpExp x ≤ x + s by linarith)
  linarith

theorem ulpExp_mono {x y : ℚ} (hx : 0 < x) (h : x ≤ y) : ulpExp x ≤ ulpExp y := by
  have hy : 0 < y := lt_of_lt_of_le hx h
  obtain ⟨a, _⟩ := ilog2_spec x hx
  obtain ⟨_, b⟩ := ilog2_spec y hy
  have h1 : ilog2 x < ilog2 y + 1 := (zpow_lt_iff _ _).1 (lt_of_le_of_lt a (lt_of_le_of_lt h b))
  unfold ulpExp
  rw [abs_of_pos hx, abs_of_pos hy]
  omega

/-- With a step of at most `2^-54` of the size of a positive `x`, the rounded sum is `x` itself. -/
theorem step_stuck {x s : ℚ} (hx : Rep x) (h0 : 0 < s) (h : 2 ^ 54 * s ≤ x) : rnd (x + s) = x := by
  have hxp : 0 < x := lt_of_lt_of_le (by positivity) h
  set y := rnd (x + s) with hy
  have h1 : x ≤ y := le_rnd hx (by linarith)
  by_contra hne
  have hlt : x < y := lt_of_le_of_ne h1 (Ne.symm hne)
  have hn := rnd_nearest (x + s) hx
  rw [← hy, show x + s - x = s by ring, abs_of_pos h0, abs_le] at hn
  obtain ⟨m, hm⟩ := rep_multiple (rep_rnd (x + s)) (by rw [← hy]; linarith)
  obtain ⟨n, hn'⟩ := rep_multiple hx hxp.ne'
  rw [← hy] at hm
  have hE := ulpExp_mono hxp h1
  obtain ⟨k, hk⟩ : ∃ k : ℕ, ulpExp y - ulpExp x = k := ⟨(ulpExp y - ulpExp x).toNat, by omega⟩
  have e : y = ((m * 2 ^ k : ℤ) : ℚ) * 2 ^ ulpExp x := by
    nth_rewrite 1 [hm]
    rw [show ulpExp y = k + ulpExp x by omega, zpow_add₀ (by norm_num)]
    push_cast
    rw [zpow_natCast, mul_assoc]
  have h2 : n < m * 2 ^ k := by
    have : (n : ℚ) * 2 ^ ulpExp x < ((m * 2 ^ k : ℤ) : ℚ) * 2 ^ ulpExp x := by rw [← e, ← hn']; exact hlt
    exact Int.cast_lt.1 (lt_of_mul_lt_mul_right this (zpos (ulpExp x)).le)
  have h3 : (n : ℚ) + 1 ≤ ((m * 2 ^ k : ℤ) : ℚ) := by exact_mod_cast h2
  have h4 : x + 2 ^ ulpExp x ≤ y := by
    have := mul_le_mul_of_nonneg_right h3 (zpos (ulpExp x)).le
    rw [← e, add_mul, ← hn', one_mul] at this
    exact this
  have h5 := abs_lt_ulp x hxp.ne'
  rw [abs_of_pos hxp, zpow_add₀ (by norm_num), mul_comm] at h5
  have h6 : (2 : ℚ) ^ (53 : ℤ) * 2 ^ ulpExp x ≤ 2 ^ 54 * s := by
    have : (2 : ℚ) ^ (53 : ℤ) * 2 ^ ulpExp x ≤ 2 ^ (53 : ℤ) * (2 * s) := mul_le_mul_of_nonneg_left (by linarith) (by positivity)
    refine this.trans (le_of_eq ?_)
    norm_num
    ring
  linarith

/-! ## `seq` -/

/-- C88: with a positive step of at least `2^-52` of the larger end in size, the loop of `seq` ends. -/
theorem C88_seq_ends (start stop step : F64) (h0 : 0 < step.val) (h1 : |start.val| ≤ 2 ^ 52 * step.val)
    (h2 : |stop.val| ≤ 2 ^ 52 * step.val) : ∃ l, SeqLoop stop step start l := by
  obtain ⟨k, hk⟩ : ∃ k : ℕ, stop.val < start.val + k * 2 ^ (-1074 : ℤ) := by
    obtain ⟨k, hk⟩ := exists_nat_gt ((stop.val - start.val) / 2 ^ (-1074 : ℤ))
    rw [div_lt_iff₀ (zpos (-1074))] at hk
    exact ⟨k, by linarith⟩
  have key : ∀ (k : ℕ) (x : F64), start.val ≤ x.val → stop.val < x.val + k * 2 ^ (-1074 : ℤ) → ∃ l, SeqLoop stop step x l := by
    intro k
    induction k with
    | zero => intro x _ h; exact ⟨[], .done x (by simpa using h)⟩
    | succ k ih =>
      intro x hx h
      rcases lt_or_ge stop.val x.val with hlt | hge
      · exact ⟨[], .done x hlt⟩
      · have hax : |x.val| ≤ 2 ^ 52 * step.val := by
          rw [abs_le] at h1 h2 ⊢; exact ⟨h1.1.trans hx, hge.trans h2.2⟩
        cases hy : x.add step with
        | none => exact ⟨[x], .overflow x hge hy h0⟩
        | some y =>
          have hyv := add_some hy
          have hup := step_up x.rep step.rep h0 hax
          rw [← hyv] at hup
          have hz := zpos (-1074)
          obtain ⟨l, hl⟩ := ih y (by linarith) (by
            push_cast at h
            rw [add_mul, one_mul] at h
            linarith)
          exact ⟨x :: l, .push x y l hge hy hl⟩
  exact key k start le_rfl hk

/-- A thousandth from 0 to 1. -/
example : ∃ l, SeqLoop (lit 1) (lit (1 / 1000)) (lit 0) l :=
  C88_seq_ends _ _ _ (by decide +kernel) (by decide +kernel) (by decide +kernel)

/-- A loop whose step does not move the current value never ends. -/
theorem stuck_forever (stop step x : F64) (hx : x.val ≤ stop.val) (h : rnd (x.val + step.val) = x.val) (l : List F64) :
    ¬ SeqLoop stop step x l := by
  intro hl
  generalize hz : x = z at hl
  induction hl with
  | done y hy => subst hz; linarith
  | overflow y hy hn _ =>
    subst hz
    obtain ⟨r, hr, _⟩ := toF64_isSome (x := x.val + step.val) (by rw [h]; exact x.fin)
    rw [F64.add, hr] at hn
    cases hn
  | push y w l' hy hw _ ih =>
    subst hz
    have := add_some hw
    rw [h] at this
    exact ih (F64.ext this.symm)

/-- C88 (defect): with a positive step of at most `2^-54` of a positive start, `seq` never returns a sequence: adding the step
rounds back to the start, and the loop pushes the start forever. It panics first if the quotient is `2^60` or more. -/
theorem C88_seq_hangs (start stop step : F64) (h0 : 0 < step.val) (h1 : 2 ^ 54 * step.val ≤ start.val)
    (h2 : start.val ≤ stop.val) (r : Option (List F64)) (h : Seq start stop step r) : r = none := by
  unfold Seq at h
  cases hc : seqQuotient start stop step with
  | none => rw [hc] at h; exact h
  | some c =>
    rw [hc] at h
    simp only at h
    split_ifs at h
    · obtain ⟨l, _, hl⟩ := h
      exact absurd hl (stuck_forever stop step start h2 (step_stuck start.rep h0 h1) l)
    · exact h

/-- C88 (defect): the call `seq(2^53, 2^53 + 2, 1)` asks for three whole numbers and never returns. -/
theorem C88_seq_hangs_example (r : Option (List F64)) : ¬ Seq (lit (2 ^ 53)) (lit (2 ^ 53 + 2)) (lit 1) r := by
  intro h
  unfold Seq at h
  rw [show seqQuotient (lit (2 ^ 53)) (lit (2 ^ 53 + 2)) (lit 1) = some (lit 2) by decide +kernel] at h
  simp only at h
  rw [if_pos (by decide +kernel)] at h
  obtain ⟨l, _, hl⟩ := h
  exact stuck_forever _ _ _ (by decide +kernel) (by decide +kernel) l hl

example : ∀ r, Seq (lit (2 ^ 60)) (lit (2 ^ 60)) (lit 1) r → r = none :=
  C88_seq_hangs _ _ _ (by decide +kernel) (by decide +kernel) (by decide +kernel)

/-- C88 (defect): with a negative step and the start not above the end, the loop never ends either. -/
theorem C88_seq_negative (start stop step : F64) (h0 : step.val < 0) (h1 : start.val ≤ stop.val) (l : List F64) :
    ¬ SeqLoop stop step start l := by
  intro hl
  induction hl with
  | done y hy => linarith
  | overflow y hy hn hs => linarith
  | push y w l' hy hw _ ih =>
    have hwv := add_some hw
    have := rnd_le y.rep (show y.val + step.val ≤ y.val by linarith)
    exact ih (by rw [hwv]; linarith)

example : ∀ l, ¬ SeqLoop (lit 1) (lit (-1)) (lit 0) l := C88_seq_negative _ _ _ (by decide +kernel) (by decide +kernel)

theorem seqLoop_get {stop step x : F64} {l : List F64} (h : SeqLoop stop step x l) :
    (∀ y ∈ l, y.val ≤ stop.val) ∧ ∀ k < l.length, l[k]? = (List.replicate k step).foldlM F64.add x := by
  induction h with
  | done x hx => exact ⟨by simp, by simp⟩
  | overflow x hx hn hs =>
    refine ⟨by simpa using hx, fun k hk => ?_⟩
    have : k = 0 := by simpa using hk
    subst this
    simp
  | push x y l hx hy _ ih =>
    refine ⟨fun z hz => ?_, fun k hk => ?_⟩
    · rcases List.mem_cons.1 hz with rfl | hz
      · exact hx
      · exact ih.1 z hz
    · cases k with
      | zero => simp
      | succ k =>
        rw [List.replicate_succ, List.foldlM_cons, hy, List.getElem?_cons_succ, ih.2 k (by simpa using hk)]
        rfl

theorem seqLoop_increasing {stop step x : F64} {l : List F64} (h0 : 0 < step.val) (h : SeqLoop stop step x l) :
    (∀ z ∈ l, x.val ≤ z.val) ∧ l.Pairwise (fun a b => a.val < b.val) := by
  induction h with
  | done x hx => exact ⟨by simp, by simp⟩
  | overflow x hx hn hs => exact ⟨by simp, by simp⟩
  | push x y l hx hy hl ih =>
    have hyv := add_some hy
    have hle : x.val ≤ y.val := by rw [hyv]; exact le_rnd x.rep (by linarith)
    have hlt : x.val < y.val := by
      refine lt_of_le_of_ne hle fun he => ?_
      have hxy : x = y := F64.ext he
      subst hxy
      exact stuck_forever stop step x hx hyv.symm l hl
    refine ⟨fun z hz => ?_, List.pairwise_cons.2 ⟨fun z hz => lt_of_lt_of_le hlt (ih.1 z hz), ih.2⟩⟩
    rcases List.mem_cons.1 hz with rfl | hz
    · exact le_rfl
    · exact hle.trans (ih.1 z hz)

theorem replicate_sums (k : ℕ) (s : F64) (h : 0 ≤ s.val) :
    exactSum (List.replicate k s) = k * s.val ∧ absSum (List.replicate k s) = k * s.val := by
  unfold exactSum absSum
  simp [abs_of_nonneg h]

/-- The last entry of a loop that ended is followed by a value above the end. -/
theorem seqLoop_last {stop step x : F64} {l : List F64} (h : SeqLoop stop step x l) :
    ∀ z ∈ l.getLast?, ∀ w, z.add step = some w → stop.val < w.val := by
  induction h with
  | done x hx => simp
  | overflow x hx hn hs =>
    intro z hz w hw
    simp at hz
    subst hz
    rw [hn] at hw
    cases hw
  | push x y l hx hy hl ih =>
    intro z hz w hw
    cases l with
    | nil =>
      simp at hz
      subst hz
      rw [hy] at hw
      cases hw
      cases hl
      assumption
    | cons a l =>
      rw [List.getLast?_cons_cons] at hz
      exact ih z hz w hw

/-- C88: whenever `seq` with a positive step returns, its entries start at the start, strictly increase, do not exceed the end, and
one more step would go beyond it; the `k`-th entry is within the relative error `k * 2^-52` of `start + k * step`. -/
theorem C88_seq (start stop step : F64) (h0 : 0 < step.val) (l : List F64) (h : Seq start stop step (some l)) :
    l.head? = (if start.val ≤ stop.val then some start else none) ∧
    l.Pairwise (fun a b => a.val < b.val) ∧ (∀ y ∈ l, y.val ≤ stop.val) ∧
    (∀ z ∈ l.getLast?, ∀ w, z.add step = some w → stop.val < w.val) ∧
    ∀ (k : ℕ) (y : F64), k ≤ 2 ^ 52 → l[k]? = some y →
      |y.val - (start.val + k * step.val)| ≤ k * 2 ^ (-52 : ℤ) * (|start.val| + k * step.val) := by
  have hl : SeqLoop stop step start l := by
    unfold Seq at h
    cases hc : seqQuotient start stop step with
    | none => rw [hc] at h; cases h
    | some c =>
      rw [hc] at h
      simp only at h
      split_ifs at h
      obtain ⟨l', hl', h⟩ := h
      cases hl'
      exact h
  refine ⟨?_, (seqLoop_increasing h0 hl).2, (seqLoop_get hl).1, seqLoop_last hl, fun k y hk hy => ?_⟩
  · cases hl with
    | done _ hx => rw [if_neg (not_le.2 hx)]; rfl
    | overflow _ hx _ _ => rw [if_pos hx]; rfl
    | push _ _ _ hx _ _ => rw [if_pos hx]; rfl
  · obtain ⟨hk', _⟩ := List.getElem?_eq_some_iff.1 hy
    rw [(seqLoop_get hl).2 k hk'] at hy
    have h1 := sum_from _ _ _ hy
    rw [(replicate_sums k step h0.le).1, (replicate_sums k step h0.le).2, List.length_replicate] at h1
    have h2 := pow_bound k hk
    refine h1.trans (mul_le_mul_of_nonneg_right (by linarith) ?_)
    have := abs_nonneg start.val
    have : (0 : ℚ) ≤ k * step.val := by positivity
    linarith

/-- C88 (defect): `seq(0, 0.3, 0.1)` does not contain its end: it returns three entries, not four, because the rounded sum of
three tenths exceeds 0.3. -/
theorem C88_seq_drops_end : ∃ a b, Seq (lit 0) (lit (3 / 10)) (lit (1 / 10)) (some [a, b, lit (2 / 10)]) := by
  refine ⟨lit 0, lit (1 / 10), ?_⟩
  unfold Seq
  obtain ⟨c, hc, h1⟩ : ∃ c, seqQuotient (lit 0) (lit (3 / 10)) (lit (1 / 10)) = some c ∧ -1 < c.val ∧ c.val < 2 ^ 60 :=
    ⟨lit ((lit (3 / 10)).val / (lit (1 / 10)).val), by decide +kernel, by decide +kernel, by decide +kernel⟩
  rw [hc]
  simp only
  rw [if_pos h1]
  refine ⟨_, rfl, .push _ (lit (1 / 10)) _ (by decide +kernel) (by decide +kernel) (.push _ (lit (2 / 10)) _ (by decide +kernel)
    (by decide +kernel) (.push _ (lit ((lit (2 / 10)).val + (lit (1 / 10)).val)) _ (by decide +kernel) (by decide +kernel)
      (.done _ (by decide +kernel))))⟩

/-- Non-vacuity of `C88_seq`: the sequence of the defect is an instance. -/
example : ∃ l : List F64, l.length = 3 ∧ l.Pairwise (fun a b : F64 => a.val < b.val) := by
  obtain ⟨a, b, h⟩ := C88_seq_drops_end
  exact ⟨_, rfl, (C88_seq _ _ _ (by decide +kernel) _ h).2.1⟩

/-! ## `linspace` -/

theorem linspace_get (start stop : F64) (n : ℕ) (l : List F64) (h : linspace start stop n = some (some l)) :
    start.val < stop.val ∧ 0 < n ∧ ∃ step, linStep start stop n = some step ∧ l.length = n ∧
      ∀ (i : ℕ) (y : F64), l[i]? = some y → i < n ∧ linPoint start step i = some y := by
  unfold linspace at h
  split_ifs at h with hc
  obtain ⟨step, h1, h2⟩ := Option.bind_eq_some_iff.1 (Option.some.inj h)
  have h3 := mapM_some _ _ _ h2
  have hlen : l.length = n := by rw [← h3.length_eq, List.length_range]
  refine ⟨hc.1, hc.2, step, h1, hlen, fun i y hy => ?_⟩
  obtain ⟨hi, rfl⟩ := List.getElem?_eq_some_iff.1 hy
  have := (List.forall₂_iff_get.1 h3).2 i (by rw [List.length_range]; omega) hi
  simp only [List.get_eq_getElem, List.getElem_range] at this
  exact ⟨by omega, this⟩

theorem linPoint_some (start step y : F64) (i : ℕ) (hi : i ≤ 2 ^ 53) (h : linPoint start step i = some y) :
    y.val = rnd (start.val + rnd (i * step.val)) := by
  unfold linPoint at h
  obtain ⟨r, hr, hrv⟩ := ofNat_small i hi
  rw [hr] at h
  obtain ⟨p, h1, h2⟩ := Option.bind_eq_some_iff.1 (show (r.mul step).bind (fun p => start.add p) = some y from h)
  rw [add_some h2, mul_some h1, hrv]

theorem linStep_some (start stop step : F64) (n : ℕ) (hn : n ≤ 2 ^ 53) (h : linStep start stop n = some step) :
    ((n - 1 : ℕ) : ℚ) ≠ 0 ∧ step.val = rnd (rnd (stop.val - start.val) / (n - 1 : ℕ)) := by
  unfold linStep at h
  obtain ⟨r, hr, hrv⟩ := ofNat_small (n - 1) (by omega)
  obtain ⟨d, h1, h2⟩ := Option.bind_eq_some_iff.1 h
  rw [hr] at h2
  have h3 := div_some (show d.div r = some step from h2)
  rw [hrv, show d.val = rnd (stop.val - start.val) from toF64_some h1] at h3
  exact h3

/-- The error of `a + rnd (i * rnd (rnd (b - a) / N))` before the last rounding. -/
theorem lin_error (a b : ℚ) (ha : Rep a) (hb : Rep b) (hab : a ≤ b) (N i : ℕ) (hN : 0 < N) (hi : i ≤ N) :
    |rnd (i * rnd (rnd (b - a) / N)) - i * ((b - a) / N)| ≤ 4 * u * (b - a) + (N + 1) * 2 ^ (-1074 : ℤ) := by
  have he : ∀ x : ℚ, |x - rnd x| ≤ u * |x| + 2 ^ (-1075 : ℤ) := rnd_error'
  have hη2 : (2 : ℚ) ^ (-1074 : ℤ) = 2 * 2 ^ (-1075 : ℤ) := by
    rw [show (-1074 : ℤ) = 1 + -1075 by norm_num, zpow_add₀ (by norm_num), zpow_one]
  have hη0 : (0 : ℚ) < 2 ^ (-1075 : ℤ) := zpos (-1075)
  rw [hη2]
  clear hη2
  generalize (2 : ℚ) ^ (-1075 : ℤ) = η at he hη0 ⊢
  have hu0 := u_pos
  have hu : u ≤ 1 / 100 := by unfold u; norm_num
  have hNq : (0 : ℚ) < N := by exact_mod_cast hN
  set L := b - a with hL
  have hL0 : 0 ≤ L := by linarith
  set D := rnd L with hD
  have e1 : |L - D| ≤ u * L := by
    have := rnd_sub hb ha; rw [← hL, ← hD, abs_of_nonneg hL0] at this; exact this
  have hD0 : 0 ≤ D := rnd_nonneg hL0
  rw [abs_le] at e1
  set q := D / N with hq
  have hq0 : 0 ≤ q := by positivity
  set s := rnd q with hs
  have e2 := he q
  rw [← hs, abs_of_nonneg hq0, abs_le] at e2
  have hs0 : 0 ≤ s := rnd_nonneg hq0
  have hi0 : (0 : ℚ) ≤ i := by positivity
  have hiN : (i : ℚ) ≤ N := by exact_mod_cast hi
  set p := (i : ℚ) * s with hp
  have hp0 : 0 ≤ p := by positivity
  have e3 := he p
  rw [abs_of_nonneg hp0, abs_le] at e3
  -- the exact position
  set T := (i : ℚ) * (L / N) with hT
  have hT0 : 0 ≤ T := by positivity
  have hTL : T ≤ L := by
    have h1 : L / N * i ≤ L / N * N := mul_le_mul_of_nonneg_left hiN (by positivity)
    rw [div_mul_cancel₀ _ hNq.ne'] at h1
    rw [hT, mul_comm]; exact h1
  have hiq : (i : ℚ) * q = T + i * ((D - L) / N) := by rw [hq, hT]; ring
  have hd : |(i : ℚ) * ((D - L) / N)| ≤ u * T := by
    rw [abs_mul, abs_div, abs_of_nonneg hi0, abs_of_pos hNq]
    have h1 : |D - L| ≤ u * L := by rw [abs_le]; constructor <;> linarith [e1.1, e1.2]
    calc (i : ℚ) * (|D - L| / N) ≤ i * (u * L / N) := by gcongr
      _ = u * T := by rw [hT]; ring
  rw [abs_le] at hd
  have hpe : |p - i * q| ≤ u * (i * q) + N * η := by
    have h1 : |s - q| ≤ u * q + η := by rw [abs_le]; constructor <;> linarith [e2.1, e2.2]
    rw [hp, ← mul_sub, abs_mul, abs_of_nonneg hi0]
    calc (i : ℚ) * |s - q| ≤ i * (u * q + η) := by gcongr
      _ = u * (i * q) + i * η := by ring
      _ ≤ _ := by gcongr
  rw [abs_le, hiq] at hpe
  set δ := (i : ℚ) * ((D - L) / N) with hδ
  have hNη : 0 ≤ (N : ℚ) * η := by positivity
  have huT : 0 ≤ u * T := by positivity
  have huL : u * T ≤ u * L := mul_le_mul_of_nonneg_left hTL hu0.le
  have huδ : |u * δ| ≤ 1 / 100 * (u * T) := by
    rw [abs_mul, abs_of_pos hu0]
    have : |δ| ≤ u * T := abs_le.2 hd
    calc u * |δ| ≤ u * (u * T) := by gcongr
      _ ≤ 1 / 100 * (u * T) := by gcongr
  rw [abs_le] at huδ
  have hup : u * p ≤ 1.1 * (u * T) + u * (N * η) := by
    have h1 : p ≤ T + δ + (u * (T + δ) + N * η) := by linarith [hpe.2]
    have h2 : p ≤ 1.1 * T + N * η := by nlinarith
    calc u * p ≤ u * (1.1 * T + N * η) := by gcongr
      _ = _ := by ring
  have huN : u * (N * η) ≤ 1 / 100 * (N * η) := mul_le_mul_of_nonneg_right hu hNη
  rw [abs_le]
  constructor
  · nlinarith
  · nlinarith

/-- C88: `linspace` of at least two points returns that many, starting with the start exactly, not decreasing and not below the
start; entry `i` is within `2^-49` of the larger end in size (plus an underflow term) of the exact grid point. -/
theorem C88_linspace (start stop : F64) (n : ℕ) (hn : n ≤ 2 ^ 53) (l : List F64) (h : linspace start stop n = some (some l)) :
    2 ≤ n ∧ l.length = n ∧ l.head? = some start ∧ l.Pairwise (fun a b => a.val ≤ b.val) ∧
    ∀ (i : ℕ) (y : F64), l[i]? = some y →
      |y.val - (start.val + i * ((stop.val - start.val) / (n - 1 : ℕ)))| ≤
        2 ^ (-49 : ℤ) * max |start.val| |stop.val| + n * 2 ^ (-1073 : ℤ) := by
  obtain ⟨hab, hn0, step, hst, hlen, hget⟩ := linspace_get start stop n l h
  obtain ⟨hne, hsv⟩ := linStep_some start stop step n hn hst
  have hn2 : 2 ≤ n := by
    by_contra hc
    exact hne (by rw [show n - 1 = 0 by omega]; rfl)
  have hs0 : 0 ≤ step.val := by
    rw [hsv]; exact rnd_nonneg (div_nonneg (rnd_nonneg (by linarith)) (by positivity))
  have hval : ∀ (i : ℕ) (y : F64), l[i]? = some y → i < n ∧ y.val = rnd (start.val + rnd (i * step.val)) := fun i y hy =>
    ⟨(hget i y hy).1, linPoint_some start step y i (by have := (hget i y hy).1; omega) (hget i y hy).2⟩
  refine ⟨hn2, hlen, ?_, ?_, fun i y hy => ?_⟩
  · rw [List.head?_eq_getElem?]
    obtain ⟨y, hy⟩ : ∃ y, l[0]? = some y := ⟨_, List.getElem?_eq_getElem (by omega)⟩
    have := (hval 0 y hy).2
    rw [Nat.cast_zero, zero_mul, rnd_zero, _root_.add_zero, rnd_rep start.rep] at this
    rw [hy, F64.ext this]
  · rw [List.pairwise_iff_getElem]
    intro i j hi hj hij
    rw [(hval i _ (List.getElem?_eq_getElem hi)).2, (hval j _ (List.getElem?_eq_getElem hj)).2]
    refine rnd_mono ?_
    have : (i : ℚ) * step.val ≤ j * step.val := mul_le_mul_of_nonneg_right (by exact_mod_cast hij.le) hs0
    have := rnd_mono this
    linarith
  · obtain ⟨hi, hv⟩ := hval i y hy
    have herr := lin_error start.val stop.val start.rep stop.rep hab.le (n - 1) i (by omega) (by omega)
    rw [← hsv] at herr
    set p := rnd ((i : ℚ) * step.val) with hp
    have hadd := rnd_add start.rep (rep_rnd ((i : ℚ) * step.val))
    rw [← hp, ← hv] at hadd
    set N : ℚ := ((n - 1 : ℕ) : ℚ) with hN
    have hN0 : 0 < N := by rw [hN]; exact_mod_cast (by omega : 0 < n - 1)
    have hNn : N + 1 = n := by rw [hN]; rw [Nat.cast_sub (by omega)]; push_cast; ring
    set T := (i : ℚ) * ((stop.val - start.val) / N) with hT
    have hiN : (i : ℚ) ≤ N := by rw [hN]; exact_mod_cast (by omega : i ≤ n - 1)
    have hT0 : 0 ≤ T := by
      have : 0 ≤ stop.val - start.val := by linarith
      positivity
    have hTL : T ≤ stop.val - start.val := by
      have h1 : (stop.val - start.val) / N * i ≤ (stop.val - start.val) / N * N :=
        mul_le_mul_of_nonneg_left hiN (div_nonneg (by linarith) hN0.le)
      rw [div_mul_cancel₀ _ hN0.ne'] at h1
      rw [hT, mul_comm]; exact h1
    set M := max |start.val| |stop.val| with hM
    have m1 : |start.val| ≤ M := le_max_left _ _
    have m2 : |stop.val| ≤ M := le_max_right _ _
    rw [abs_le] at m1 m2
    have haT : |start.val + T| ≤ M := by rw [abs_le]; constructor <;> linarith [m1.1, m2.2]
    rw [hNn] at herr
    have hz : (2 : ℚ) ^ (-1073 : ℤ) = 2 * 2 ^ (-1074 : ℤ) := by
      rw [show (-1073 : ℤ) = 1 + -1074 by norm_num, zpow_add₀ (by norm_num), zpow_one]
    rw [hz, show (2 : ℚ) ^ (-49 : ℤ) = 16 * u by unfold u; norm_num]
    have hζ0 : 0 ≤ (n : ℚ) * 2 ^ (-1074 : ℤ) := mul_nonneg (by positivity) (zpos (-1074)).le
    rw [show (n : ℚ) * (2 * 2 ^ (-1074 : ℤ)) = 2 * (n * 2 ^ (-1074 : ℤ)) by ring]
    clear hz
    generalize (n : ℚ) * 2 ^ (-1074 : ℤ) = ζ at hζ0 herr ⊢
    have hu0 := u_pos
    have hu : u ≤ 1 / 100 := by unfold u; norm_num
    have hM0 : 0 ≤ M := (abs_nonneg _).trans (le_max_left _ _)
    have hLM : u * (stop.val - start.val) ≤ u * (2 * M) := mul_le_mul_of_nonneg_left (by linarith [m1.1, m2.2]) hu0.le
    have herr' : |p - T| ≤ 8 * (u * M) + ζ := by linarith
    have hap : |start.val + p| ≤ M + (8 * (u * M) + ζ) := by
      have : start.val + p = (start.val + T) + (p - T) := by ring
      rw [this]
      exact (abs_add_le _ _).trans (by linarith)
    have huu : u * |start.val + p| ≤ u * M + 1 / 100 * (8 * (u * M) + ζ) := by
      calc u * |start.val + p| ≤ u * (M + (8 * (u * M) + ζ)) := by gcongr
        _ = u * M + u * (8 * (u * M) + ζ) := by ring
        _ ≤ _ := by gcongr
    have huM : 0 ≤ u * M := by positivity
    have : y.val - (start.val + T) = (p - T) - (start.val + p - y.val) := by ring
    rw [this]
    refine (abs_sub _ _).trans ?_
    linarith

/-- C88: `linspace` panics exactly for no point or an end not above the start; one point gives a NaN. With ends up to `2^1020` in
size, and at least two points, every entry is finite. -/
theorem C88_linspace_defined (start stop : F64) (n : ℕ) (hn : n ≤ 2 ^ 53) :
    (linspace start stop n = none ↔ stop.val ≤ start.val ∨ n = 0) ∧
    (start.val < stop.val → linspace start stop 1 = some none) ∧
    (start.val < stop.val → 2 ≤ n → |start.val| ≤ 2 ^ 1020 → |stop.val| ≤ 2 ^ 1020 →
      ∃ l, linspace start stop n = some (some l)) := by
  refine ⟨?_, fun h => ?_, fun h hn2 ha hb => ?_⟩
  · unfold linspace
    split_ifs with hc
    · simp; exact ⟨hc.1, by omega⟩
    · simp only [true_iff]
      rw [not_and_or, not_lt, not_lt] at hc
      exact hc.imp id (by omega)
  · unfold linspace
    rw [if_pos ⟨h, one_pos⟩]
    have : linStep start stop 1 = none := by
      unfold linStep
      cases stop.sub start with
      | none => rfl
      | some d =>
        obtain ⟨r, hr, hrv⟩ := ofNat_small (1 - 1) (by norm_num)
        rw [hr]
        change d.div r = none
        unfold F64.div
        rw [if_pos (by rw [hrv]; simp)]
    rw [this]
    rfl
  · have hB1 : (1 : ℚ) ≤ 2 ^ 1020 := one_le_pow₀ (by norm_num)
    have e1021 : (2 : ℚ) ^ 1021 = 2 * 2 ^ 1020 := pow_succ' 2 1020
    generalize (2 : ℚ) ^ 1020 = B at ha hb hB1 e1021
    have e1022 : (2 : ℚ) ^ 1022 = 4 * B := by rw [pow_succ', e1021]; ring
    have e1023 : (2 : ℚ) ^ 1023 = 8 * B := by rw [pow_succ', e1022]; ring
    rw [abs_le] at ha hb
    have hL0 : 0 ≤ stop.val - start.val := by linarith
    obtain ⟨d, hd, hdv⟩ := toF64_isSome (x := stop.val - start.val) (abs_fin (k := 1021) (by norm_num) (by
      rw [e1021, abs_of_nonneg hL0]; linarith [ha.1, hb.2]))
    obtain ⟨r, hr, hrv⟩ := ofNat_small (n - 1) (by omega)
    have hN0 : (0 : ℚ) < (n - 1 : ℕ) := by exact_mod_cast (by omega : 0 < n - 1)
    have hN1 : (1 : ℚ) ≤ (n - 1 : ℕ) := by exact_mod_cast (by omega : 1 ≤ n - 1)
    have hd0 : 0 ≤ d.val := by rw [hdv]; exact rnd_nonneg hL0
    obtain ⟨s, hs, hsv⟩ := toF64_isSome (x := d.val / r.val) (fin_of_le d (by
      rw [hrv, abs_div, abs_of_pos hN0]; exact div_le_self (abs_nonneg _) hN1))
    have hstep : linStep start stop n = some s := by
      unfold linStep
      rw [show stop.sub start = some d from hd, hr]
      change d.div r = some s
      unfold F64.div
      rw [if_neg (by rw [hrv]; exact hN0.ne'), hs]
    have hpt : ∀ i ∈ List.range n, ∃ y, linPoint start s i = some y := by
      intro i hi
      rw [List.mem_range] at hi
      obtain ⟨ri, hri, hriv⟩ := ofNat_small i (by omega)
      have herr := lin_error start.val stop.val start.rep stop.rep h.le (n - 1) i (by omega) (by omega)
      rw [← hdv, ← hrv, ← hsv, hrv] at herr
      set N : ℚ := ((n - 1 : ℕ) : ℚ) with hN
      have hiN : (i : ℚ) ≤ N := by rw [hN]; exact_mod_cast (by omega : i ≤ n - 1)
      have hT0 : 0 ≤ (i : ℚ) * ((stop.val - start.val) / N) := mul_nonneg (Nat.cast_nonneg i) (div_nonneg hL0 hN0.le)
      have hTL : (i : ℚ) * ((stop.val - start.val) / N) ≤ stop.val - start.val := by
        have h1 : (stop.val - start.val) / N * i ≤ (stop.val - start.val) / N * N :=
          mul_le_mul_of_nonneg_left hiN (div_nonneg (by linarith) hN0.le)
        rw [div_mul_cancel₀ _ hN0.ne'] at h1
        rw [mul_comm]; exact h1
      have hNz : (N + 1) * (2 : ℚ) ^ (-1074 : ℤ) ≤ 1 := by
        have h1 : N + 1 ≤ 2 ^ 53 := by
          rw [hN]; exact_mod_cast (by omega : n - 1 + 1 ≤ 2 ^ 53)
        have h2 : (2 : ℚ) ^ (-1074 : ℤ) ≤ 2 ^ (-53 : ℤ) := (zpow_le_iff _ _).2 (by norm_num)
        have h3 : (0 : ℚ) < 2 ^ (-1074 : ℤ) := zpos (-1074)
        generalize (2 : ℚ) ^ (-1074 : ℤ) = z at h2 h3 ⊢
        calc (N + 1) * z ≤ 2 ^ 53 * 2 ^ (-53 : ℤ) := mul_le_mul h1 h2 h3.le (by norm_num)
          _ = 1 := by norm_num
      have hu : u ≤ 1 / 100 := by unfold u; norm_num
      have huL : u * (stop.val - start.val) ≤ 1 / 100 * (stop.val - start.val) := mul_le_mul_of_nonneg_right hu hL0
      generalize (2 : ℚ) ^ (-1074 : ℤ) = z at herr hNz
      rw [abs_le] at herr
      have hpub : |rnd ((i : ℚ) * s.val)| ≤ 4 * B := by
        rw [abs_le]; constructor <;> linarith only [herr.1, herr.2, ha.1, hb.2, hNz, huL, hTL, hT0, hB1]
      obtain ⟨p, hp, hpv⟩ := toF64_isSome (x := ri.val * s.val) (by
        rw [hriv]
        refine lt_of_le_of_lt hpub ?_
        rw [← e1022]
        exact pow_lt_pow_right₀ (by norm_num) (by norm_num))
      rw [hriv] at hpv
      obtain ⟨y, hy, _⟩ := toF64_isSome (x := start.val + p.val) (abs_fin (k := 1023) (by norm_num) (by
        rw [e1023, hpv]
        refine (abs_add_le _ _).trans ?_
        have : |start.val| ≤ B := abs_le.2 ha
        linarith only [this, hpub, hB1]))
      refine ⟨y, ?_⟩
      unfold linPoint
      rw [hri]
      change (ri.mul s).bind (fun p => start.add p) = some y
      rw [show ri.mul s = some p from hp]
      exact hy
    unfold linspace
    rw [if_pos ⟨h, by omega⟩, hstep]
    suffices ∀ xs : List ℕ, (∀ i ∈ xs, ∃ y, linPoint start s i = some y) → ∃ l, xs.mapM (linPoint start s) = some l by
      obtain ⟨l, hl⟩ := this _ hpt
      exact ⟨l, congrArg some hl⟩
    intro xs
    induction xs with
    | nil => intro _; exact ⟨[], rfl⟩
    | cons i xs ih =>
      intro hx
      obtain ⟨y, hy⟩ := hx i (by simp)
      obtain ⟨l, hl⟩ := ih fun j hj => hx j (by simp [hj])
      exact ⟨y :: l, by rw [List.mapM_cons, hy, hl]; rfl⟩

example : ∃ l, linspace (lit 0) (lit 1) 50 = some (some l) :=
  (C88_linspace_defined (lit 0) (lit 1) 50 (by norm_num)).2.2 (by decide +kernel) (by norm_num) (by decide +kernel)
    (by decide +kernel)

/-- Fifty points of the unit interval meet the hypotheses of `C88_linspace`. -/
example : ∃ l, linspace (lit 0) (lit 1) 50 = some (some l) ∧ l.length = 50 ∧ l.head? = some (lit 0) := by
  obtain ⟨l, hl⟩ := (C88_linspace_defined (lit 0) (lit 1) 50 (by norm_num)).2.2 (by decide +kernel) (by norm_num)
    (by decide +kernel) (by decide +kernel)
  have := C88_linspace _ _ _ (by norm_num) l hl
  exact ⟨l, hl, this.2.1, this.2.2.1⟩

/-- C88 (defect): the last entry of `linspace` need not be the end. `linspace(0, 1, 50)` stops short of 1; `linspace(-0.1, 0.3, 2)`,
which asks for the two ends, goes beyond 0.3. -/
theorem C88_linspace_last :
    (∃ l y, linspace (lit 0) (lit 1) 50 = some (some l) ∧ l.getLast? = some y ∧ y.val < 1) ∧
    (∃ x y, linspace (lit (-1 / 10)) (lit (3 / 10)) 2 = some (some [x, y]) ∧ (lit (3 / 10)).val < y.val) := by
  constructor
  · have : ((linspace (lit 0) (lit 1) 50).bind id).bind (fun l => l.getLast?.map fun y => decide (y.val < 1)) = some true := by
      decide +kernel
    obtain ⟨l, h1, h2⟩ := Option.bind_eq_some_iff.1 this
    obtain ⟨o, h3, h4⟩ := Option.bind_eq_some_iff.1 h1
    cases h4
    obtain ⟨y, h5, h6⟩ := Option.map_eq_some_iff.1 h2
    exact ⟨l, y, h3, h5, by simpa using h6⟩
  · exact ⟨lit (-1 / 10), lit ((lit (-1 / 10)).val + (lit ((lit (3 / 10)).val - (lit (-1 / 10)).val)).val), by decide +kernel,
      by decide +kernel⟩

end Verif.Float
