import Verif.Float.LawsExpProps
import Mathlib.Analysis.SpecialFunctions.Gamma.BohrMollerup

/-!
# C106: gamma and chi-squared distributions in double precision

The density and the distribution function divide by the gamma function, which overflows long before the distributions do.
-/

namespace Verif.Float.Laws

open X64 Nan

/-- From 172 on the gamma function exceeds every finite `f64`. -/
theorem C106_gamma_overflows (x : ℝ) (hx : 172 ≤ x) : (2 : ℝ) ^ 1024 ≤ Real.Gamma x := by
  have h1 : Real.Gamma 172 ≤ Real.Gamma x := Real.Gamma_strictMonoOn_Ici.monotoneOn (by norm_num) (by simp; linarith) hx
  have h2 : Real.Gamma 172 = (Nat.factorial 171 : ℝ) := by
    have := Real.Gamma_nat_eq_factorial 171
    norm_num at this ⊢
  have h3 : 2 ^ 1024 ≤ Nat.factorial 171 := by decide +kernel
  rw [h2] at h1
  refine le_trans ?_ h1
  exact_mod_cast h3

example : (2 : ℝ) ^ 1024 ≤ Real.Gamma 172.5 := C106_gamma_overflows _ (by norm_num)

/-- The gamma function of the platform is infinite where the exact one exceeds every finite number, by `C106_gamma_overflows`. -/
def Overflows (l : Lib) : Prop := ∀ a : F64, 172 ≤ a.val → l.gamma (fin a) = inf false

/-- Powers of two with a positive exponent are positive or infinite. -/
def PowPositive (l : Lib) : Prop := ∀ a : F64, 0 < a.val → l.pow (ofQ 2) (fin a) = inf false ∨ ∃ c : F64, l.pow (ofQ 2) (fin a) = fin c ∧ 0 < c.val

theorem div_inf (x : X64) : x.div (inf false) = zero ∨ x.div (inf false) = nan := by
  cases x with
  | fin a => left; rfl
  | inf s => right; rfl
  | nan => right; rfl

/-- C106 (defect): a gamma distribution with shape 172 or more has density and distribution function 0 or NaN at every argument. -/
theorem C106_gamma_shape (l : Lib) (hl : Overflows l) (a b : F64) (ha : 172 ≤ a.val) (hb : 0 < b.val) :
    Gamma.new (fin a) (fin b) = some ⟨fin a, fin b⟩ ∧
    (∀ x r, Gamma.pdf l ⟨fin a, fin b⟩ x = some r → r = zero ∨ r = nan) ∧
    ∀ x r, Gamma.cdf l ⟨fin a, fin b⟩ x = some r → r = zero ∨ r = nan := by
  have hg := hl a ha
  refine ⟨?_, ?_, ?_⟩
  · have h1 : zero.lt (fin a) = true := (zero_lt_fin _).2 (by linarith)
    have h2 : zero.lt (fin b) = true := (zero_lt_fin _).2 hb
    unfold Gamma.new
    simp [h1, h2]
  · intro x r h
    unfold Gamma.pdf at h
    split_ifs at h
    cases h
    rw [hg]
    exact div_inf _
  · intro x r h
    unfold Gamma.cdf at h
    split_ifs at h
    obtain ⟨g, -, rfl⟩ := Option.map_eq_some_iff.1 h
    rw [hg]
    exact div_inf _

/-- A library whose gamma function always overflows. -/
def bigLib : Lib :=
  ⟨fun _ => ofQ 1, id, id, fun _ _ => ofQ 2, fun _ => ofQ 1, fun _ => inf false, fun _ => ofQ 5, fun _ _ => some (inf false)⟩

theorem bigLib_overflows : Overflows bigLib := fun _ _ => rfl

theorem bigLib_pow : PowPositive bigLib := fun _ _ => by
  obtain ⟨i, i1, i2⟩ := two_fin
  exact Or.inr ⟨i, i1, by rw [i2]; norm_num⟩

/-- With shape 200 and rate one, the density at 200 is 0 (the exact one is above 0.02) and the distribution function NaN (more than one half). -/
example : ∃ d, Gamma.new (ofQ 200) (ofQ 1) = some d ∧ Gamma.pdf bigLib d (ofQ 200) = some zero ∧ Gamma.cdf bigLib d (ofQ 200) = some nan := by
  have e : (toF64 200).map F64.val = some 200 := by decide +kernel
  obtain ⟨a, a1, a2⟩ := Option.map_eq_some_iff.1 e
  obtain ⟨i, i1, i2⟩ := one_fin
  obtain ⟨w, w1, w2⟩ := two_fin
  rw [Nan.fin_of a1, i1]
  have ha : zero.lt (fin a) = true := (zero_lt_fin _).2 (by rw [a2]; norm_num)
  refine ⟨⟨fin a, fin i⟩, (C106_gamma_shape bigLib bigLib_overflows a i (by rw [a2]; norm_num) (by rw [i2]; norm_num)).1, ?_, ?_⟩
  · unfold Gamma.pdf bigLib
    simp only [ha, if_true, w1, i1]
    have e4 : (toF64 4).map F64.val = some 4 := by decide +kernel
    obtain ⟨f, f1, f2⟩ := Option.map_eq_some_iff.1 e4
    have h1 : (fin w).mul (fin w) = fin f := by change ofQ (w.val * w.val) = _; rw [w2, ← Nan.fin_of f1]; norm_num
    have h2 : (fin f).mul (fin i) = fin f := by change ofQ (f.val * i.val) = _; rw [i2, mul_one, ofQ_val]
    rw [h1, h2]; rfl
  · unfold Gamma.cdf bigLib
    simp only [ha, if_true]; rfl

theorem half_big (k : ℕ) (hk : 344 ≤ k) (hk' : k < 2 ^ 64) : ∃ h : F64, ChiSquared.half k = fin h ∧ 172 ≤ h.val ∧ h.val ≤ 2 ^ 63 := by
  obtain ⟨i, i1, i2⟩ := two_fin
  have r1 : Rep (344 : ℚ) := rep_nat 344 (by norm_num)
  have r2 : Rep (172 : ℚ) := rep_nat 172 (by norm_num)
  have r3 : Rep ((2 : ℚ) ^ 64) := by have := rep_of_le 1 64 (by norm_num) (by norm_num); rw [Int.cast_one, one_mul] at this; exact_mod_cast this
  have r4 : Rep ((2 : ℚ) ^ 63) := by have := rep_of_le 1 63 (by norm_num) (by norm_num); rw [Int.cast_one, one_mul] at this; exact_mod_cast this
  have k1 : (344 : ℚ) ≤ k := by exact_mod_cast hk
  have k2 : (k : ℚ) ≤ 2 ^ 64 := by exact_mod_cast hk'.le
  have h1 := le_rnd r1 k1
  have h2 := rnd_le r3 k2
  have hbig : (2 : ℚ) ^ 64 < 2 ^ 1024 := pow_lt_pow_right₀ (by norm_num) (by norm_num)
  obtain ⟨n, n1, n2⟩ := ofQ_fin (q := (k : ℚ)) (by rw [abs_of_nonneg (by linarith)]; exact h2.trans_lt hbig)
  rw [← n2] at h1 h2
  have h3 : 172 ≤ rnd (n.val / 2) := le_rnd r2 (by linarith)
  have h4 : rnd (n.val / 2) ≤ 2 ^ 63 := rnd_le r4 (by
    rw [pow_succ'] at h2
    linarith)
  obtain ⟨h, e1, e2⟩ := ofQ_fin (q := n.val / 2) (by
    rw [abs_of_nonneg (by linarith)]
    exact h4.trans_lt (pow_lt_pow_right₀ (by norm_num) (by norm_num)))
  refine ⟨h, ?_, by rw [e2]; exact h3, by rw [e2]; exact h4⟩
  unfold ChiSquared.half X64.ofNat
  rw [n1, i1]
  change (if i.val = 0 then _ else ofQ (n.val / i.val)) = _
  rw [i2, if_neg (by norm_num), e1]

/-- C106 (defect): a chi-squared distribution with 344 degrees of freedom or more has density and distribution function 0 or NaN at every
argument, and the same quantile for every positive probability (or panics for all of them). -/
theorem C106_chi_squared_large (l : Lib) (hl : Overflows l) (hp : PowPositive l) (k : ℕ) (hk : 344 ≤ k) (hk' : k < 2 ^ 64) :
    ChiSquared.new k = some k ∧
    (∀ x r, ChiSquared.pdf l k x = some r → r = zero ∨ r = nan) ∧
    (∀ x r, ChiSquared.cdf l k x = some r → r = zero ∨ r = nan) ∧
    ∀ p q : F64, 0 < p.val → p.val ≤ 1 → 0 < q.val → q.val ≤ 1 → ChiSquared.invCdf l k (fin p) = ChiSquared.invCdf l k (fin q) := by
  obtain ⟨h, h1, h2, h3⟩ := half_big k hk hk'
  have hg := hl h h2
  have hcdf : ∀ x r, ChiSquared.cdf l k x = some r → r = zero ∨ r = nan := by
    intro x r hr
    unfold ChiSquared.cdf at hr
    split_ifs at hr
    obtain ⟨g, -, rfl⟩ := Option.map_eq_some_iff.1 hr
    rw [h1, hg]
    exact div_inf _
  refine ⟨by unfold ChiSquared.new; rw [if_pos (by omega)], ?_, hcdf, ?_⟩
  · intro x r hr
    unfold ChiSquared.pdf at hr
    split_ifs at hr
    cases hr
    rw [h1, hg]
    have : (l.pow (ofQ 2) (fin h)).mul (inf false) = inf false := by
      rcases hp h (by linarith) with e | ⟨c, e, e'⟩
      · rw [e]; rfl
      · rw [e]; simp [X64.mul, e'.ne', not_lt.2 e'.le]
    rw [this]
    exact div_inf _
  · intro p q p0 p1 q0 q1
    have hpp : isProbability (fin p) = true := (isProbability_iff _).2 ⟨p, rfl, p0.le, p1⟩
    have hqq : isProbability (fin q) = true := (isProbability_iff _).2 ⟨q, rfl, q0.le, q1⟩
    have hloop : ∀ n x d, ChiSquared.loop l k (fin p) n x d = ChiSquared.loop l k (fin q) n x d := by
      intro n
      induction n with
      | zero => intro x d; rfl
      | succ n ih =>
        intro x d
        unfold ChiSquared.loop
        split_ifs with hd
        · cases hc : ChiSquared.cdf l k x with
          | none => rfl
          | some c =>
            have hlt : c.lt (fin p) = c.lt (fin q) := by
              rcases hcdf x c hc with rfl | rfl
              · rw [(zero_lt_fin p).2 p0, (zero_lt_fin q).2 q0]
              · rfl
            simp only [hlt, ih]
        · rfl
    unfold ChiSquared.invCdf
    simp only [hpp, hqq, if_true, hloop]

example (p q : F64) (p0 : 0 < p.val) (p1 : p.val ≤ 1) (q0 : 0 < q.val) (q1 : q.val ≤ 1) :
    ChiSquared.invCdf bigLib 400 (fin p) = ChiSquared.invCdf bigLib 400 (fin q) :=
  (C106_chi_squared_large bigLib bigLib_overflows bigLib_pow 400 (by norm_num) (by norm_num)).2.2.2 p q p0 p1 q0 q1

theorem thousandth : ∃ t : F64, ofQ (1 / 10 ^ 10) = fin t ∧ 2 ^ (-34 : ℤ) ≤ t.val ∧ t.val < 1 := by
  have e : (toF64 (1 / 10 ^ 10)).map (fun x => decide (2 ^ (-34 : ℤ) ≤ x.val ∧ x.val < 1)) = some true := by decide +kernel
  obtain ⟨q, h1, h2⟩ := Option.map_eq_some_iff.1 e
  exact ⟨q, Nan.fin_of h1, of_decide_eq_true h2⟩

theorem halve (d : F64) {c : ℚ} (hc : Rep c) (hd : 0 ≤ d.val) (h : 1 / 2 * d.val ≤ c) :
    ∃ e : F64, (fin d).mul (ofQ (1 / 2)) = fin e ∧ 0 ≤ e.val ∧ e.val ≤ c ∧ e.val = rnd (1 / 2 * d.val) := by
  obtain ⟨i, i1, i2⟩ := half_fin
  have h0 : 0 ≤ rnd (1 / 2 * d.val) := rnd_nonneg (by linarith)
  obtain ⟨e, e1, e2⟩ := ofQ_fin (q := 1 / 2 * d.val) (fin_of_le d (by
    rw [abs_mul, abs_of_pos (by norm_num : (0 : ℚ) < 1 / 2)]
    have := abs_nonneg d.val
    linarith))
  refine ⟨e, ?_, by rw [e2]; exact h0, by rw [e2]; exact rnd_le hc h, e2⟩
  rw [i1]
  change ofQ (d.val * i.val) = _
  rw [i2, mul_comm, e1]

/-- The bound on the turns of the loop is not reached: with a step of at most `2^(n - 34)` it ends after `n` turns. -/
theorem loop_turns (l : Lib) (k : ℕ) (p : X64) (more : ℕ) :
    ∀ (n : ℕ) (x : X64) (d : F64), 0 ≤ d.val → d.val ≤ 2 ^ ((n : ℤ) - 34) →
      ChiSquared.loop l k p (n + 1 + more) x (fin d) = ChiSquared.loop l k p (n + 1) x (fin d) := by
  obtain ⟨t, t1, t2, t3⟩ := thousandth
  intro n
  induction n with
  | zero =>
    intro x d h0 h1
    have hlt : (fin t).lt (fin d) = false := by
      simp only [X64.lt, decide_eq_false_iff_not, not_lt]
      exact h1.trans (by simpa using t2)
    rw [show 0 + 1 + more = more + 1 by ring]
    unfold ChiSquared.loop
    rw [t1]
    simp [hlt]
  | succ n ih =>
    intro x d h0 h1
    obtain ⟨e, e1, e2, e3, -⟩ := halve d (c := 2 ^ ((n : ℤ) - 34)) (by
      have := rep_of_le 1 ((n : ℤ) - 34) (by norm_num) (by omega)
      rwa [Int.cast_one, one_mul] at this) h0 (by
      have : (2 : ℚ) ^ (((n + 1 : ℕ) : ℤ) - 34) = 2 * 2 ^ ((n : ℤ) - 34) := by
        rw [show (((n + 1 : ℕ) : ℤ) - 34) = 1 + ((n : ℤ) - 34) by push_cast; ring, zpow_add₀ (by norm_num), zpow_one]
      rw [this] at h1
      linarith)
    rw [show n + 1 + 1 + more = (n + 1 + more) + 1 by ring]
    conv_lhs => unfold ChiSquared.loop
    conv_rhs => unfold ChiSquared.loop
    rw [e1]
    split_ifs with hd
    · cases ChiSquared.cdf l k x with
      | none => rfl
      | some c => exact ih _ e e2 e3
    · rfl

theorem start (k : ℕ) (hk' : k < 2 ^ 64) : ∃ d : F64, (ofQ (1 / 2)).mul (X64.ofNat k) = fin d ∧ 0 ≤ d.val ∧ d.val ≤ 2 ^ (((97 : ℕ) : ℤ) - 34) ∧
    ∀ m : ℕ, m ≤ 2 ^ 53 → 2 * m ≤ k → (m : ℚ) ≤ d.val := by
  obtain ⟨i, i1, i2⟩ := half_fin
  have r3 : Rep ((2 : ℚ) ^ 64) := by have := rep_of_le 1 64 (by norm_num) (by norm_num); rw [Int.cast_one, one_mul] at this; exact_mod_cast this
  have r4 : Rep ((2 : ℚ) ^ 63) := by have := rep_of_le 1 63 (by norm_num) (by norm_num); rw [Int.cast_one, one_mul] at this; exact_mod_cast this
  have k1 : (0 : ℚ) ≤ k := by positivity
  have k2 : (k : ℚ) ≤ 2 ^ 64 := by exact_mod_cast hk'.le
  have h1 := rnd_nonneg k1
  have h2 := rnd_le r3 k2
  obtain ⟨n, n1, n2⟩ := ofQ_fin (q := (k : ℚ)) (by rw [abs_of_nonneg h1]; exact h2.trans_lt (pow_lt_pow_right₀ (by norm_num) (by norm_num)))
  rw [← n2] at h1 h2
  have h4 : rnd (1 / 2 * n.val) ≤ 2 ^ 63 := rnd_le r4 (by rw [pow_succ'] at h2; linarith)
  have h0 : 0 ≤ rnd (1 / 2 * n.val) := rnd_nonneg (by linarith)
  obtain ⟨h, e1, e2⟩ := ofQ_fin (q := 1 / 2 * n.val) (by
    rw [abs_of_nonneg h0]
    exact h4.trans_lt (pow_lt_pow_right₀ (by norm_num) (by norm_num)))
  refine ⟨h, ?_, by rw [e2]; exact h0, ?_, ?_⟩
  · unfold X64.ofNat
    rw [n1, i1]
    change ofQ (i.val * n.val) = _
    rw [i2, e1]
  · rw [e2]
    exact h4.trans (le_of_eq (by norm_num))
  · intro m hm hmk
    rw [e2]
    refine le_rnd (rep_nat m hm) ?_
    have : ((2 * m : ℕ) : ℚ) ≤ n.val := by
      rw [n2]
      refine le_rnd ?_ (by exact_mod_cast hmk)
      have := rep_double (rep_nat m hm)
      push_cast
      exact this
    push_cast at this
    linarith

/-- C106: the quantile of a chi-squared distribution ends after at most 97 turns, whatever the distribution function gives: more turns make no
difference. -/
theorem C106_chi_squared_turns (l : Lib) (k : ℕ) (hk' : k < 2 ^ 64) (p : X64) (n : ℕ) (hn : 98 ≤ n) (hp : Unit01 p) :
    ChiSquared.invCdf l k p = ChiSquared.loop l k p n ((ofQ (1 / 2)).mul (X64.ofNat k)) ((ofQ (1 / 2)).mul (X64.ofNat k)) := by
  obtain ⟨d, d1, d2, d3, -⟩ := start k hk'
  unfold ChiSquared.invCdf
  simp only [(isProbability_iff p).2 hp, if_true]
  rw [d1]
  obtain ⟨m, rfl⟩ := Nat.exists_eq_add_of_le hn
  rw [show 98 + m = 97 + 1 + m by ring, loop_turns l k p m 97 _ d d2 d3, show 100 = 97 + 1 + 2 from rfl, loop_turns l k p 2 97 _ d d2 d3]

example (l : Lib) : ChiSquared.invCdf l 5 (ofQ 1) =
    ChiSquared.loop l 5 (ofQ 1) 98 ((ofQ (1 / 2)).mul (X64.ofNat 5)) ((ofQ (1 / 2)).mul (X64.ofNat 5)) := by
  obtain ⟨i, i1, i2⟩ := one_fin
  exact C106_chi_squared_turns l 5 (by norm_num) (ofQ 1) 98 le_rfl ⟨i, i1, by rw [i2]; norm_num, by rw [i2]⟩

/-- C106 (defect): if the incomplete gamma function is computed as a multiple of the gamma function, and so is infinite or NaN where that
overflows (or panics), then the quantiles of a chi-squared distribution with 344 degrees of freedom or more panic, for every probability. -/
theorem C106_chi_squared_panics (l : Lib) (hl : Overflows l)
    (hli : ∀ (a : F64) (x g : X64), 172 ≤ a.val → l.gammaLi (fin a) x = some g → g = inf false ∨ g = nan)
    (k : ℕ) (hk : 344 ≤ k) (hk' : k < 2 ^ 64) (p : X64) : ChiSquared.invCdf l k p = none := by
  obtain ⟨h, h1, h2, h3⟩ := half_big k hk hk'
  have hg := hl h h2
  obtain ⟨t, t1, t2, t3⟩ := thousandth
  obtain ⟨d, d1, d2, d3, d4⟩ := start k hk'
  have d5 : (172 : ℚ) ≤ d.val := by exact_mod_cast d4 172 (by norm_num) (by omega)
  have hcdf : ∀ x, ChiSquared.cdf l k x = none ∨ ChiSquared.cdf l k x = some nan := by
    intro x
    unfold ChiSquared.cdf
    split_ifs
    · rw [h1, hg]
      cases hc : l.gammaLi (fin h) (x.div (ofQ 2)) with
      | none => left; rfl
      | some g =>
        right
        rcases hli h _ g h2 hc with rfl | rfl <;> rfl
    · left; rfl
  have hneg : ∀ x : F64, x.val < 0 → ChiSquared.cdf l k (fin x) = none := by
    intro x hx
    have hk1 : k ≠ 1 := by omega
    have : ChiSquared.admits k (fin x) = false := by
      unfold ChiSquared.admits
      rw [if_neg hk1]
      cases hb : le zero (fin x) with
      | false => rfl
      | true => have := (zero_le_fin x).1 hb; linarith
    unfold ChiSquared.cdf
    simp [this]
  have turn : ∀ n (x : X64) (e : F64), t.val < e.val →
      (ChiSquared.cdf l k x = none ∨ ChiSquared.loop l k p n (x.sub (fin e)) ((fin e).mul (ofQ (1 / 2))) = none) →
      ChiSquared.loop l k p (n + 1) x (fin e) = none := by
    intro n x e he hor
    unfold ChiSquared.loop
    have : (fin t).lt (fin e) = true := by simpa [X64.lt] using he
    rw [t1]
    simp only [this, if_true]
    rcases hcdf x with hc | hc
    · rw [hc]
    · rw [hc]
      rcases hor with h | h
      · rw [hc] at h; simp at h
      · simpa [nan_lt] using h
  unfold ChiSquared.invCdf
  split_ifs
  · rw [d1]
    have hz : ofQ 0 = zero := ofQ_val F64.zero
    obtain ⟨e, e1, e2, -, e4⟩ := halve d (c := d.val) d.rep (by linarith) (by linarith)
    have e5 : 86 ≤ e.val := by rw [e4]; exact le_rnd (rep_nat 86 (by norm_num)) (by linarith)
    obtain ⟨f, f1, f2, -, f4⟩ := halve e (c := e.val) e.rep (by linarith) (by linarith)
    have f5 : 43 ≤ f.val := by rw [f4]; exact le_rnd (rep_nat 43 (by norm_num)) (by linarith)
    refine turn 99 _ d (by linarith) (Or.inr ?_)
    rw [X64.sub_fin, sub_self, hz, e1]
    refine turn 98 _ e (by linarith) (Or.inr ?_)
    rw [f1]
    unfold zero
    rw [X64.sub_fin, zero_val, zero_sub]
    have hen : ofQ (-e.val) = (fin e).neg := rfl
    obtain ⟨m, m1, m2⟩ := X64.neg_fin e
    rw [hen, m1]
    exact turn 97 _ f (by linarith) (Or.inl (hneg m (by rw [m2]; linarith)))
  · rfl

/-- The median of 400 degrees of freedom. -/
example : ChiSquared.invCdf bigLib 400 (ofQ (1 / 2)) = none :=
  C106_chi_squared_panics bigLib bigLib_overflows (fun _ _ g _ h => Or.inl (Option.some.inj h).symm) 400 (by norm_num) (by norm_num) _

/-- C106 (defect): the entropy of a chi-squared distribution with 344 degrees of freedom or more is infinite. -/
theorem C106_chi_squared_entropy (l : Lib) (hl : Overflows l) (hln : l.ln (inf false) = inf false)
    (hd : ∀ a : F64, 172 ≤ a.val → ∃ c : F64, l.digamma (fin a) = fin c ∧ |c.val| ≤ a.val)
    (k : ℕ) (hk : 344 ≤ k) (hk' : k < 2 ^ 64) : ChiSquared.entropy l k = inf false := by
  obtain ⟨h, h1, h2, h3⟩ := half_big k hk hk'
  have hg := hl h h2
  obtain ⟨i, i1, i2⟩ := one_fin
  obtain ⟨w, w1, w2⟩ := two_fin
  obtain ⟨c, c1, c2⟩ := hd h h2
  have r4 : Rep ((2 : ℚ) ^ 63) := by have := rep_of_le 1 63 (by norm_num) (by norm_num); rw [Int.cast_one, one_mul] at this; exact_mod_cast this
  have r5 : Rep ((2 : ℚ) ^ 126) := by have := rep_of_le 1 126 (by norm_num) (by norm_num); rw [Int.cast_one, one_mul] at this; exact_mod_cast this
  unfold ChiSquared.entropy
  rw [h1, hg, c1]
  have e1 : (ofQ 2).mul (inf false) = inf false := by rw [w1]; simp [X64.mul, w2]
  rw [e1, hln]
  have b1 : |rnd (1 - h.val)| ≤ 2 ^ 63 := rnd_abs_le r4 (by rw [abs_le]; constructor <;> linarith)
  obtain ⟨f, f1, f2⟩ := ofQ_fin (q := 1 - h.val) (b1.trans_lt (pow_lt_pow_right₀ (by norm_num) (by norm_num)))
  rw [← f2] at b1
  have b2 : |rnd (f.val * c.val)| ≤ 2 ^ 126 := rnd_abs_le r5 (by
    rw [abs_mul, show (2 : ℚ) ^ 126 = 2 ^ 63 * 2 ^ 63 by norm_num]
    exact mul_le_mul b1 (c2.trans h3) (abs_nonneg _) (by positivity))
  obtain ⟨g, g1, g2⟩ := ofQ_fin (q := f.val * c.val) (b2.trans_lt (pow_lt_pow_right₀ (by norm_num) (by norm_num)))
  rw [i1, X64.sub_fin, i2, f1]
  change ((fin h).add (inf false)).add (ofQ (f.val * c.val)) = _
  rw [g1]
  rfl

example : ChiSquared.entropy bigLib 400 = inf false :=
  C106_chi_squared_entropy bigLib bigLib_overflows rfl (fun a ha => by
    have e : (toF64 5).map F64.val = some 5 := by decide +kernel
    obtain ⟨c, c1, c2⟩ := Option.map_eq_some_iff.1 e
    exact ⟨c, Nan.fin_of c1, by rw [c2, abs_of_pos (by norm_num)]; linarith⟩) 400 (by norm_num) (by norm_num)

end Verif.Float.Laws
