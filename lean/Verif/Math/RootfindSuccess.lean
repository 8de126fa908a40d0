import Verif.Math.RootfindProps

/-!
# When Newton-Raphson and Brent searches succeed: the number of passes

Both methods either halve their bracket or take a step at most half as long as the one before the last, so a bracket of
`2^k` times the accuracy needs of the order of `k^2` passes.
-/

namespace Verif.Math.Rootfind

/-! ## Newton-Raphson -/

theorem between_abs {z a b : ℝ} (h : (z - b) * (z - a) ≤ 0) : |b - z| ≤ |b - a| ∧ |z - a| ≤ |b - a| := by
  rcases le_total a b with hab | hab
  · have h1 : a ≤ z := by by_contra hc; rw [not_le] at hc; nlinarith
    have h2 : z ≤ b := by by_contra hc; rw [not_le] at hc; nlinarith
    rw [abs_of_nonneg (by linarith), abs_of_nonneg (by linarith), abs_of_nonneg (by linarith)]
    exact ⟨by linarith, by linarith⟩
  · have h1 : z ≤ a := by by_contra hc; rw [not_le] at hc; nlinarith
    have h2 : b ≤ z := by by_contra hc; rw [not_le] at hc; nlinarith
    rw [abs_of_nonpos (by linarith), abs_of_nonpos (by linarith), abs_of_nonpos (by linarith)]
    exact ⟨by linarith, by linarith⟩

theorem between_mem {z a b lo hi : ℝ} (h : (z - b) * (z - a) ≤ 0) (ha : lo ≤ a ∧ a ≤ hi) (hb : lo ≤ b ∧ b ≤ hi) :
    lo ≤ z ∧ z ≤ hi := by
  constructor
  · by_contra hc
    rw [not_le] at hc
    have := mul_pos_of_neg_of_neg (show z - b < 0 by linarith [hb.1]) (show z - a < 0 by linarith [ha.1])
    linarith
  · by_contra hc
    rw [not_le] at hc
    have := mul_pos (show 0 < z - b by linarith [hb.2]) (show 0 < z - a by linarith [ha.2])
    linarith

theorem half_pow {x acc : ℝ} {a : ℕ} (h : |x| ≤ acc * 2 ^ (a + 1)) : |x / 2| ≤ acc * 2 ^ a := by
  rw [abs_div, abs_of_pos (by norm_num : (0 : ℝ) < 2), div_le_iff₀ (by norm_num)]
  rw [pow_succ] at h
  linarith

/-- A Newton search needs at most `a + b + k (k + 1) / 2 + 1` passes, if the bracket and the last two steps are within `2^k`, `2^b`
and `2^a` times the accuracy. -/
theorem newtonLoop_found (f f' : ℝ → ℝ) (acc lo hi : ℝ) (hacc : 0 < acc) (hz : ∀ x, lo ≤ x → x ≤ hi → f x = 0 → f' x ≠ 0)
    (n k a b : ℕ) (root xl xh dx dxold : ℝ) (br : lo ≤ root ∧ root ≤ hi) (bl : lo ≤ xl ∧ xl ≤ hi) (bh : lo ≤ xh ∧ xh ≤ hi)
    (hk : |xh - xl| ≤ acc * 2 ^ k) (ha : |dxold| ≤ acc * 2 ^ a) (hb : |dx| ≤ acc * 2 ^ b) (hn : 2 * (a + b) + k * (k + 1) < 2 * n) :
    ∃ r, newtonLoop f f' acc n root xl xh dx dxold = .found r := by
  induction n generalizing k a b root xl xh dx dxold with
  | zero => omega
  | succ n ih =>
    rw [newtonLoop]
    simp only
    by_cases c1 : ((root - xh) * f' root - f root) * ((root - xl) * f' root - f root) > 0 ∨ |2 * f root| > |dxold * f' root|
    · rw [if_pos c1]
      by_cases c2 : |(xh - xl) / 2| < acc
      · rw [if_pos c2]; exact ⟨_, rfl⟩
      rw [if_neg c2]
      cases k with
      | zero =>
        exfalso
        apply c2
        rw [abs_div, abs_of_pos (by norm_num : (0 : ℝ) < 2)]
        rw [pow_zero, mul_one] at hk
        linarith
      | succ k =>
        have hw := half_pow hk
        have hsum : 2 * (b + k) + k * (k + 1) < 2 * n := by nlinarith
        have hin : lo ≤ xl + (xh - xl) / 2 ∧ xl + (xh - xl) / 2 ≤ hi :=
          ⟨by linarith [bl.1, bh.1], by linarith [bl.2, bh.2]⟩
        split_ifs with c3
        · exact ih k b k _ _ _ _ _ hin hin bh (by rw [show xh - (xl + (xh - xl) / 2) = (xh - xl) / 2 by ring]; exact hw) hb hw hsum
        · exact ih k b k _ _ _ _ _ hin bl hin (by rw [show xl + (xh - xl) / 2 - xl = (xh - xl) / 2 by ring]; exact hw) hb hw hsum
    · rw [if_neg c1]
      push Not at c1
      have hd : f' root ≠ 0 := by
        intro h0
        have h1 := c1.2
        rw [h0, mul_zero, abs_zero] at h1
        have h2 : 2 * f root = 0 := abs_eq_zero.1 (le_antisymm h1 (abs_nonneg _))
        exact hz root br.1 br.2 (by linarith) h0
      rw [if_neg hd]
      have hstep : |f root / f' root| ≤ |dxold / 2| := by
        have h1 := c1.2
        rw [abs_mul, abs_mul, abs_of_pos (by norm_num : (0 : ℝ) < 2)] at h1
        rw [abs_div, abs_div, abs_of_pos (by norm_num : (0 : ℝ) < 2), div_le_iff₀ (abs_pos.2 hd)]
        linarith
      by_cases c5 : |f root / f' root| < acc
      · rw [if_pos c5]; exact ⟨_, rfl⟩
      rw [if_neg c5]
      cases a with
      | zero =>
        exfalso
        apply c5
        refine lt_of_le_of_lt hstep ?_
        rw [abs_div, abs_of_pos (by norm_num : (0 : ℝ) < 2)]
        rw [pow_zero, mul_one] at ha
        linarith
      | succ a =>
        have ha' := hstep.trans (half_pow ha)
        have hprod : (root - f root / f' root - xh) * (root - f root / f' root - xl) ≤ 0 := by
          have e : ((root - xh) * f' root - f root) * ((root - xl) * f' root - f root) =
              (root - f root / f' root - xh) * (root - f root / f' root - xl) * (f' root) ^ 2 := by
            field_simp
            ring
          have h3 := c1.1
          rw [e] at h3
          have : 0 < (f' root) ^ 2 := by positivity
          by_contra hc
          rw [not_le] at hc
          have := mul_pos hc this
          linarith
        have hin := between_mem hprod bl bh
        have hab := between_abs hprod
        have hsum : 2 * (b + a) + k * (k + 1) < 2 * n := by omega
        split_ifs with c6
        · exact ih k b a _ _ _ _ _ hin hin bh (hab.1.trans hk) hb ha' hsum
        · exact ih k b a _ _ _ _ _ hin bl hin (hab.2.trans hk) hb ha' hsum

/-! ## Brent -/

theorem interp_small (xAcc1 xMid p q e : ℝ) (hp : 0 ≤ p)
    (h : 2 * p < if 3 * xMid * q - |xAcc1 * q| < |e * q| then 3 * xMid * q - |xAcc1 * q| else |e * q|) : |p / q| < |e| / 2 := by
  have h5 : 2 * p < |e * q| := by
    split_ifs at h with h3
    · exact h.trans h3
    · exact h
  rw [abs_mul] at h5
  have hq : 0 < |q| := by
    rcases eq_or_ne q 0 with h0 | h0
    · rw [h0, abs_zero, mul_zero] at h5; linarith
    · exact abs_pos.2 h0
  rw [abs_div, abs_of_nonneg hp, div_lt_iff₀ hq]
  linarith

/-- A step of Brent's method is a halving, or an interpolation less than half as long as the step before the last. -/
theorem step_alternatives (s : Brent) (xAcc1 xMid : ℝ) : s.step xAcc1 xMid = (xMid, xMid) ∨
    (xAcc1 ≤ |s.e| ∧ |(s.step xAcc1 xMid).1| < |s.e| / 2 ∧ (s.step xAcc1 xMid).2 = s.d) := by
  unfold Brent.step
  by_cases h1 : |s.e| ≥ xAcc1 ∧ s.yMin > |s.froot|
  · rw [if_pos h1]
    simp only
    by_cases h2 : close s.xMin s.xMax
    all_goals
      simp only [h2, if_true, if_false]
      split_ifs
      all_goals first
        | exact Or.inl rfl
        | (refine Or.inr ⟨h1.1, interp_small xAcc1 xMid _ _ s.e (abs_nonneg _) ?_, rfl⟩
           first
            | (rw [if_pos (by assumption)]; assumption)
            | (rw [if_neg (by assumption)]; assumption))
  · rw [if_neg h1]; exact Or.inl rfl

/-- The tolerance used at a point (brent.rs 86). -/
noncomputable def xAcc (acc x : ℝ) : ℝ := 2 * eps * |x| + 0.5 * acc

theorem eps_small : eps ≤ 1 / 4 := by unfold eps; norm_num

theorem xAcc_pos {acc : ℝ} (h : 0 < acc) (x : ℝ) : 0 < xAcc acc x ∧ acc / 2 ≤ xAcc acc x := by
  unfold xAcc
  have := mul_nonneg (mul_nonneg (by norm_num : (0 : ℝ) ≤ 2) eps_pos.le) (abs_nonneg x)
  exact ⟨by linarith, by linarith⟩

/-- Moving by one tolerance at most halves it. -/
theorem xAcc_move {acc : ℝ} (h : 0 < acc) (x d : ℝ) (hd : |d| = xAcc acc x) : |d| / 2 ≤ xAcc acc (x + d) := by
  have h1 : |x| - |d| ≤ |x + d| := by
    have := abs_sub_abs_le_abs_sub x (-d)
    rwa [abs_neg, sub_neg_eq_add] at this
  have h2 : xAcc acc x - 2 * eps * |d| ≤ xAcc acc (x + d) := by
    unfold xAcc
    have := mul_le_mul_of_nonneg_left h1 (mul_nonneg (by norm_num : (0 : ℝ) ≤ 2) eps_pos.le)
    linarith
  have h3 : 2 * eps * |d| ≤ |d| / 2 := by
    have := mul_le_mul_of_nonneg_right eps_small (abs_nonneg d)
    linarith
  linarith

theorem nrsign_abs {a b : ℝ} (ha : 0 < a) : |nrsign a b| = a := by
  unfold nrsign
  simp only [ge_iff_le, ha.le, if_true]
  split_ifs
  · exact abs_of_pos ha
  · rw [abs_neg, abs_of_pos ha]

/-- A Brent search needs at most `a + b + k (k + 4) + 1` passes, if its bracket is within `2^k` times the accuracy and its last two
steps within `2^b` and `2^a` quarters of it. -/
theorem brentLoop_found (f : ℝ → ℝ) (acc : ℝ) (hacc : 0 < acc) (n k a b : ℕ) (s : Brent)
    (hk : |s.xMax - s.root| ≤ acc * 2 ^ k ∧ |s.xMin - s.root| ≤ acc * 2 ^ k)
    (ha : |s.e| ≤ acc / 4 * 2 ^ a) (hb : |s.d| ≤ acc / 4 * 2 ^ b) (hab : b ≤ a ∧ a ≤ b + 1) (hn : a + b + k * (k + 4) < n)
    (hr : (∃ c, |s.xMin - s.root| ≤ acc / 4 * 2 ^ c ∧ 2 * c + k * (k + 4) < n) ∨
      (|s.xMin - s.root| / 2 ≤ xAcc acc s.root ∧ |s.xMin - s.root| / 2 ≤ xAcc acc s.xMin)) :
    ∃ r, brentLoop f acc n s = .found r := by
  induction n generalizing k a b s with
  | zero => omega
  | succ n ih =>
    rw [brentLoop]
    simp only
    -- The state after the bracket is renewed and the ends are exchanged.
    obtain hw | ⟨a', b', hk', ha', hb', hab', hn'⟩ :
        |0.5 * (s.rebracket.swap.xMax - s.rebracket.swap.root)| ≤ xAcc acc s.rebracket.swap.root ∨
        ∃ a' b', |s.rebracket.swap.xMax - s.rebracket.swap.root| ≤ acc * 2 ^ k ∧ |s.rebracket.swap.e| ≤ acc / 4 * 2 ^ a' ∧
          |s.rebracket.swap.d| ≤ acc / 4 * 2 ^ b' ∧ (b' ≤ a' ∧ a' ≤ b' + 1) ∧ a' + b' + k * (k + 4) < n + 1 := by
      have hswap : ∀ t : Brent, t.swap.e = t.e ∧ t.swap.d = t.d ∧ |t.swap.xMax - t.swap.root| = |t.xMax - t.root| ∧
          (t.swap.root = t.root ∨ t.swap.root = t.xMax) := by
        intro t
        unfold Brent.swap
        split_ifs
        · exact ⟨rfl, rfl, abs_sub_comm _ _, Or.inr rfl⟩
        · exact ⟨rfl, rfl, rfl, Or.inl rfl⟩
      obtain ⟨w1, w2, w3, w4⟩ := hswap s.rebracket
      rw [w1, w2, abs_mul, w3, abs_of_pos (by norm_num : (0 : ℝ) < 0.5)]
      by_cases hc : (s.froot > 0 ∧ s.yMax > 0) ∨ (s.froot < 0 ∧ s.yMax < 0)
      · have er : s.rebracket = { s with xMax := s.xMin, yMax := s.yMin, e := s.root - s.xMin, d := s.root - s.xMin } := if_pos hc
        rcases hr with ⟨c, c1, c2⟩ | ⟨c1, c2⟩
        · right
          rw [er]
          simp only
          rw [abs_sub_comm] at c1
          exact ⟨c, c, hk.2, c1, c1, ⟨le_rfl, Nat.le_succ c⟩, by omega⟩
        · left
          rw [er] at w4 ⊢
          simp only at w4 ⊢
          rcases w4 with w4 | w4 <;> rw [w4]
          · linarith
          · linarith
      · have er : s.rebracket = s := if_neg hc
        right
        rw [er]
        exact ⟨a, b, hk.1, ha, hb, hab, hn⟩
    · exact ⟨_, if_pos (Or.inl hw)⟩
    generalize s.rebracket.swap = w at *
    by_cases hstop : |0.5 * (w.xMax - w.root)| ≤ 2 * eps * |w.root| + 0.5 * acc ∨ close w.froot 0
    · exact ⟨_, if_pos hstop⟩
    rw [if_neg hstop]
    push Not at hstop
    have hx : 2 * eps * |w.root| + 0.5 * acc = xAcc acc w.root := rfl
    rw [hx] at hstop ⊢
    obtain ⟨hx0, hx1⟩ := xAcc_pos hacc w.root
    have hm := hstop.1
    obtain ⟨t, t0, t2, ht⟩ := step_between w (xAcc acc w.root) (0.5 * (w.xMax - w.root)) hx0 hm
    have hwid : |0.5 * (w.xMax - w.root)| = |w.xMax - w.root| / 2 := by
      rw [abs_mul, abs_of_pos (by norm_num : (0 : ℝ) < 0.5)]; ring
    obtain ⟨k, rfl⟩ : ∃ k', k = k' + 1 := by
      cases k with
      | zero =>
        exfalso
        rw [pow_zero, mul_one] at hk'
        linarith
      | succ k => exact ⟨k, rfl⟩
    rcases step_alternatives w (xAcc acc w.root) (0.5 * (w.xMax - w.root)) with hs | ⟨hs1, hs2, hs3⟩
    · rw [hs]
      simp only
      rw [if_pos hm]
      have hw' : |0.5 * (w.xMax - w.root)| ≤ acc * 2 ^ k := by
        rw [hwid]; rw [pow_succ] at hk'; linarith
      have hw4 : |0.5 * (w.xMax - w.root)| ≤ acc / 4 * 2 ^ (k + 2) := by
        refine hw'.trans_eq ?_
        rw [pow_add]; ring
      have e1 : |w.xMax - (w.root + 0.5 * (w.xMax - w.root))| = |0.5 * (w.xMax - w.root)| := by congr 1; ring
      have e2 : |w.root - (w.root + 0.5 * (w.xMax - w.root))| = |0.5 * (w.xMax - w.root)| := by
        rw [← abs_neg]; congr 1; ring
      have hsum : 2 * (k + 2) + k * (k + 4) < n := by nlinarith
      refine ih k (k + 2) (k + 2) _ ⟨?_, ?_⟩ hw4 hw4 ⟨le_rfl, Nat.le_succ _⟩ (by omega) (Or.inl ⟨k + 2, ?_, hsum⟩)
      · simp only; rw [e1]; exact hw'
      · simp only; rw [e2]; exact hw'
      · simp only; rw [e2]; exact hw4
    · obtain ⟨a', rfl⟩ : ∃ a'', a' = a'' + 1 := by
        cases a' with
        | zero =>
          exfalso
          rw [pow_zero, mul_one] at ha'
          linarith
        | succ a' => exact ⟨a', rfl⟩
      have hd : |(w.step (xAcc acc w.root) (0.5 * (w.xMax - w.root))).1| ≤ acc / 4 * 2 ^ a' := by
        rw [pow_succ] at ha'; linarith
      rw [hs3]
      generalize (w.step (xAcc acc w.root) (0.5 * (w.xMax - w.root))).1 = d at *
      -- the move made
      obtain ⟨δ, hδ, hδm, hδc⟩ : ∃ δ, (if |d| > xAcc acc w.root then w.root + d else
          w.root + nrsign (xAcc acc w.root) (0.5 * (w.xMax - w.root))) = w.root + δ ∧ δ = t * (0.5 * (w.xMax - w.root)) ∧
          (|δ| ≤ acc / 4 * 2 ^ a' ∨ |δ| = xAcc acc w.root) := by
        by_cases hc : |d| > xAcc acc w.root
        · rw [if_pos hc] at ht
          exact ⟨d, if_pos hc, ht, Or.inl hd⟩
        · rw [if_neg hc] at ht
          exact ⟨_, if_neg hc, ht, Or.inr (nrsign_abs hx0)⟩
      rw [hδ]
      have e2 : |w.root - (w.root + δ)| = |δ| := by rw [← abs_neg]; congr 1; ring
      have hδw : |δ| ≤ |w.xMax - w.root| ∧ |w.xMax - (w.root + δ)| ≤ |w.xMax - w.root| := by
        rw [hδm]
        constructor
        · rw [abs_mul, hwid, abs_of_nonneg t0]
          have := mul_le_mul_of_nonneg_right t2 (abs_nonneg (w.xMax - w.root))
          linarith
        · rw [show w.xMax - (w.root + t * (0.5 * (w.xMax - w.root))) = (1 - t / 2) * (w.xMax - w.root) by ring, abs_mul,
            abs_of_nonneg (by linarith)]
          have := mul_le_mul_of_nonneg_right (show 1 - t / 2 ≤ 1 by linarith) (abs_nonneg (w.xMax - w.root))
          linarith
      refine ih (k + 1) b' a' _ ⟨?_, ?_⟩ hb' hd ⟨by omega, by omega⟩ (by omega) ?_
      · exact hδw.2.trans hk'
      · simp only; rw [e2]; exact hδw.1.trans hk'
      · simp only
        rw [e2]
        rcases hδc with h | h
        · exact Or.inl ⟨a', h, by omega⟩
        · refine Or.inr ⟨xAcc_move hacc _ _ h, ?_⟩
          rw [h]; linarith

end Verif.Math.Rootfind
