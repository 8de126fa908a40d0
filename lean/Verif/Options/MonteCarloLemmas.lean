import Verif.Options.MonteCarloSpec

/-! Lemmas for C76. -/

namespace Verif.Options

open Real Classical Stochastics

theorem gain_eq (f : TypeFlag) (a k : ℝ) : Spec.gain f a k = vanillaPayoff k f a := by
  cases f <;> simp [Spec.gain, vanillaPayoff]

theorem isPow_iff (x p y : ℝ) : Spec.IsPow x p y ↔ powf x p = .finite y := by
  unfold Spec.IsPow powf
  rcases lt_trichotomy x 0 with h | h | h
  · simp only [not_lt.2 h.le, if_false, h.ne, h, false_and, true_and, false_or]
    split_ifs with hp
    · obtain ⟨n, rfl⟩ := hp
      simp only [FloatPow.finite.injEq, rpow_intCast]
      constructor
      · rintro ⟨m, hm, rfl⟩
        rw [Int.cast_injective hm]
      · rintro rfl; exact ⟨n, rfl, rfl⟩
    · simp only [reduceCtorEq, iff_false]
      rintro ⟨n, hn, -⟩; exact hp ⟨n, hn⟩
  · subst h
    simp only [lt_irrefl, if_false, if_true, false_and, true_and, false_or, or_false]
    split_ifs with hp
    · rcases hp.eq_or_lt with rfl | hp
      · simp [eq_comm]
      · simp [hp, hp.ne', zero_rpow hp.ne', eq_comm]
    · push Not at hp
      simp [hp.ne, not_lt.2 hp.le]
  · simp only [h, if_true, true_and, h.ne', false_and, false_or, not_lt.2 h.le, or_false, FloatPow.finite.injEq]
    rw [rpow_def_of_pos h, mul_comm]
    exact eq_comm

theorem infinitePow_iff (x p : ℝ) : Spec.InfinitePow x p ↔ powf x p = .infinite := by
  unfold Spec.InfinitePow powf
  split_ifs with h1 h2 h3 h4
  · simp [h1.ne']
  · simp [h2, h3]
  · simp [h2, not_le.1 h3]
  · simp [h2]
  · simp [h2]

theorem noPow_iff (x p : ℝ) : Spec.NoPow x p ↔ powf x p = .nan := by
  unfold Spec.NoPow powf
  rcases lt_trichotomy x 0 with h | h | h
  · simp only [not_lt.2 h.le, if_false, h.ne, h, true_and]
    split_ifs with hp
    · simp only [reduceCtorEq, iff_false]; push Not; exact hp
    · simp only [iff_true]; push Not at hp; exact hp
  · subst h; simp; split_ifs <;> simp
  · simp [h, h.le]

/-- The payoff of an instrument along a path. -/
noncomputable def payoffOf (ins : McInstrument) (path : List ℝ) : Option ℝ :=
  match ins with
  | .asian o => asianPayoffF o path
  | .binary k b f => some (binaryPayoff k b f (pathIndependent path))
  | .vanilla k f => some (vanillaPayoff k f (pathIndependent path))
  | .powerContract k p => powerContractPayoffF k p (pathIndependent path)
  | .power k p f => powerPayoffF k p f (pathIndependent path)
  | .supershare a b => supersharePayoffF a b (pathIndependent path)
  | .barrier o => barrierPayoff o path
  | .cappedPower k p cap f => cappedPowerPayoffF k p cap f (pathIndependent path)
  | .powered k p f => poweredPayoffF k p f (pathIndependent path)
  | .logMoneyness k => logMoneynessPayoff k (pathIndependent path)
  | .logUnderlying k => logUnderlyingPayoff k (pathIndependent path)
  | .logOption k => logOptionPayoffF k (pathIndependent path)

theorem price_eq (ins : McInstrument) (out : Option Trajectories) (c : Config) (rate : ℝ) :
    ins.price out c rate = priceMonteCarlo (payoffOf ins) id out c rate := by
  cases ins <;> rfl

theorem asianPayoff_eq (o : AsianOption) (path : List ℝ) (S : ℝ) (hS : path.getLast? = some S) :
    asianPayoff o path = (asianAverage o.averagingMethod path).bind fun a => match o.strikeFlag with
      | some .fixed => some (vanillaPayoff (o.strike.getD 0) o.typeFlag a)
      | some .floating => some (vanillaPayoff a o.typeFlag S)
      | none => none := by
  have hne : path ≠ [] := by rintro rfl; simp at hS
  have hl : path.length ≠ 0 := by simpa using hne
  rw [List.getLast?_eq_getElem?] at hS
  unfold asianPayoff
  rw [if_neg hl, hS]
  obtain ⟨f, sf, av, k⟩ := o
  cases asianAverage av path with
  | none => rfl
  | some a => rcases sf with _ | (_ | _) <;> cases f <;> rfl

theorem powf_finite {x p y : ℝ} (h : powf x p = .finite y) : y = x ^ p := by
  unfold powf at h
  split_ifs at h <;> simpa using h.symm

theorem asianF_iff (o : AsianOption) (path : List ℝ) (S v : ℝ) (hS : path.getLast? = some S) :
    asianPayoffF o path = some v ↔ Spec.Pays (.asian o) path S v := by
  have hne : path ≠ [] := by rintro rfl; simp at hS
  have hl : (path.length : ℝ) ≠ 0 := by simpa using hne
  have hlpos : (0:ℝ) < path.length := lt_of_le_of_ne (Nat.cast_nonneg _) hl.symm
  unfold asianPayoffF
  rw [asianPayoff_eq o path S hS]
  obtain ⟨f, sf, av, k⟩ := o
  simp only [Spec.Pays, gain_eq, Spec.IsAverage, noPow_iff, isPow_iff, ne_eq, hne, not_false_eq_true, true_and]
  have hnan : powf path.prod (1 / path.length) ≠ .infinite := by
    rw [ne_eq, ← infinitePow_iff]
    rintro ⟨-, h⟩
    have : (0:ℝ) < 1 / path.length := by positivity
    linarith
  cases av
  · simp only [reduceCtorEq, false_and, if_false, or_false, true_and, asianAverage, Option.bind_some]
    have : ∀ a : ℝ, a * path.length = path.sum ↔ a = path.sum / path.length := fun a => by rw [eq_div_iff hl]
    simp only [this, exists_eq_left]
    rcases sf with _ | (_ | _) <;> simp [eq_comm]
  · simp [asianAverage]
  · cases hp : powf path.prod (1 / path.length) with
    | finite y =>
      have := powf_finite hp
      simp only [reduceCtorEq, and_false, if_false, false_and, false_or, or_false, true_and, asianAverage,
        Option.bind_some, FloatPow.finite.injEq, exists_eq_left', ← this]
      rcases sf with _ | (_ | _) <;> simp [eq_comm]
    | infinite => exact absurd hp hnan
    | nan => rcases sf with _ | (_ | _) <;> simp [asianAverage, eq_comm]
  · simp [asianAverage]

theorem payoff_iff (ins : McInstrument) (path : List ℝ) (S v : ℝ) (hS : path.getLast? = some S) :
    payoffOf ins path = some v ↔ Spec.Pays ins path S v := by
  have hp : pathIndependent path = S := by simp [pathIndependent, hS]
  cases ins with
  | asian o => exact asianF_iff o path S v hS
  | binary k b f =>
    simp only [payoffOf, hp, Spec.Pays, Option.some.injEq, binaryPayoff]
    cases b <;> cases f <;> simp [eq_comm]
  | vanilla k f => simp only [payoffOf, hp, Spec.Pays, gain_eq, Option.some.injEq, eq_comm]
  | powerContract k p =>
    simp only [payoffOf, hp, Spec.Pays, powerContractPayoffF, isPow_iff]
    by_cases hk : k = 0
    · simp [hk]
    · rw [if_neg hk]
      cases powf (S / k) p <;> simp [hk]
  | power k p f =>
    simp only [payoffOf, hp, Spec.Pays, powerPayoffF, isPow_iff, infinitePow_iff, noPow_iff, gain_eq]
    cases powf S p <;> cases f <;> simp [powGain, eq_comm]
  | supershare a b =>
    simp only [payoffOf, hp, Spec.Pays, supersharePayoffF, supersharePayoff]
    by_cases h : a ≤ S ∧ S ≤ b
    · by_cases ha : a = 0
      · simp [ha, h]
        intro h1
        rw [ha] at h
        linarith [h.1]
      · have : v * a = S ↔ S / a = v := by rw [div_eq_iff ha]; exact eq_comm
        simp [h, ha, this]
    · have : ¬ (a = 0 ∧ a ≤ S ∧ S ≤ b) := fun h' => h h'.2
      rw [if_neg this, if_neg h]
      constructor
      · intro h'; exact Or.inr ⟨h, (Option.some.inj h').symm⟩
      · rintro (⟨h1, h2, -⟩ | ⟨-, rfl⟩)
        · exact absurd ⟨h1, h2⟩ h
        · rfl
  | barrier o =>
    obtain ⟨f, b, l, k, r⟩ := o
    have ha : (path.any fun x => decide (x ≥ l)) = true ↔ ∃ x ∈ path, l ≤ x := by simp
    have hb : (path.any fun x => decide (x ≤ l)) = true ↔ ∃ x ∈ path, x ≤ l := by simp
    simp only [payoffOf, Spec.Pays, barrierPayoff, hS, Option.bind_eq_bind, Option.bind_some, gain_eq]
    by_cases h1 : ∃ x ∈ path, l ≤ x <;> by_cases h2 : ∃ x ∈ path, x ≤ l <;> cases f <;> cases b <;>
      simp only [Spec.alive, Spec.touched, ha, hb, vanillaPayoff, Option.some.injEq, h1, h2, if_true, if_false,
        not_true_eq_false, not_false_eq_true] <;> exact eq_comm
  | cappedPower k p cap f =>
    simp only [payoffOf, hp, Spec.Pays, cappedPowerPayoffF, isPow_iff, infinitePow_iff, noPow_iff, gain_eq]
    cases powf S p <;> cases f <;> simp [powGain, eq_comm]
  | powered k p f =>
    simp only [payoffOf, hp, Spec.Pays, poweredPayoffF, isPow_iff, gain_eq]
    cases powf (vanillaPayoff k f S) p <;> simp
  | logMoneyness k =>
    simp only [payoffOf, hp, Spec.Pays, logMoneynessPayoff]
    split_ifs with h
    · simp [not_lt.2 h]
    · push Not at h
      simp only [Option.some.injEq, h, true_and]
      constructor
      · rintro rfl; exact exp_log h
      · intro h'; rw [← h', log_exp]
  | logUnderlying k =>
    simp only [payoffOf, hp, Spec.Pays, logUnderlyingPayoff]
    split_ifs with h
    · simp only [reduceCtorEq, false_iff]
      intro h'; linarith [exp_pos v]
    · push Not at h
      simp only [Option.some.injEq]
      constructor
      · rintro rfl; exact exp_log h
      · intro h'; rw [← h', log_exp]
  | logOption k =>
    simp only [payoffOf, hp, Spec.Pays, logOptionPayoffF, logOptionPayoff]
    by_cases hk : k = 0
    · simp [hk]
    · simp only [hk, if_false, Option.some.injEq, ne_eq, not_false_eq_true, true_and]
      split_ifs with h
      · constructor
        · rintro rfl; exact Or.inr ⟨by linarith, rfl⟩
        · rintro (⟨h1, -⟩ | ⟨-, rfl⟩)
          · linarith
          · rfl
      · push Not at h
        rcases le_or_gt 1 (S / k) with h1 | h1
        · rw [max_eq_left (log_nonneg h1)]
          constructor
          · rintro rfl; exact Or.inl ⟨h1, exp_log h⟩
          · rintro (⟨-, h'⟩ | ⟨h2, -⟩)
            · rw [← h', log_exp]
            · linarith
        · rw [max_eq_right (log_nonpos h.le h1.le)]
          constructor
          · rintro rfl; exact Or.inr ⟨h1, rfl⟩
          · rintro (⟨h2, -⟩ | ⟨-, rfl⟩)
            · linarith
            · rfl

theorem fold_none (g : List ℝ → Option ℝ) (l : List (List ℝ)) :
    l.foldl (fun acc path => acc.bind fun a => (g path).map fun p => a + p) none = none := by
  induction l with
  | nil => rfl
  | cons x l ih => exact ih

theorem fold_some (g : List ℝ → Option ℝ) (l : List (List ℝ)) (a r : ℝ) :
    l.foldl (fun acc path => acc.bind fun a => (g path).map fun p => a + p) (some a) = some r ↔
      ∃ pays : ℕ → ℝ, (∀ i, (hi : i < l.length) → g l[i] = some (pays i)) ∧
        r = a + ∑ i ∈ Finset.range l.length, pays i := by
  induction l generalizing a with
  | nil => simp [eq_comm]
  | cons x l ih =>
    rw [List.foldl_cons]
    cases hx : g x with
    | none =>
      rw [Option.bind_some, Option.map_none, fold_none]
      simp only [reduceCtorEq, false_iff]
      rintro ⟨pays, h, -⟩
      have := h 0 (by simp)
      simp [hx] at this
    | some p =>
      rw [Option.bind_some, Option.map_some, ih]
      constructor
      · rintro ⟨pays, h, rfl⟩
        refine ⟨fun i => match i with | 0 => p | i + 1 => pays i, fun i hi => ?_, ?_⟩
        · cases i with
          | zero => simpa using hx
          | succ i => simpa using h i (by simpa using hi)
        · rw [List.length_cons, Finset.sum_range_succ']; ring
      · rintro ⟨pays, h, rfl⟩
        have h0 : p = pays 0 := by
          have := h 0 (by simp)
          simpa [hx] using this
        refine ⟨fun i => pays (i + 1), fun i hi => h (i + 1) (by simpa using hi), ?_⟩
        rw [List.length_cons, Finset.sum_range_succ', h0]; ring

theorem price_some_iff (ins : McInstrument) (T : Trajectories) (c : Config) (rate v : ℝ) :
    ins.price (some T) c rate = some v ↔ ∃ pays : ℕ → ℝ, 0 < T.paths.length ∧
      (∀ i, (hi : i < T.paths.length) → payoffOf ins T.paths[i] = some (pays i)) ∧
      v = exp (-(rate * (c.tn - c.t0))) * ((∑ i ∈ Finset.range T.paths.length, pays i) / T.paths.length) := by
  rw [price_eq]
  unfold priceMonteCarlo
  simp only [Option.bind_some, id, Option.bind_eq_some_iff, fold_some]
  constructor
  · rintro ⟨r, ⟨pays, h, rfl⟩, h2⟩
    split_ifs at h2 with h0
    refine ⟨pays, Nat.pos_of_ne_zero h0, h, ?_⟩
    rw [← Option.some.inj h2, zero_add, mul_div_assoc, neg_mul]
  · rintro ⟨pays, h0, h, rfl⟩
    refine ⟨_, ⟨pays, h, rfl⟩, ?_⟩
    rw [if_neg h0.ne', zero_add, mul_div_assoc, neg_mul]

end Verif.Options
