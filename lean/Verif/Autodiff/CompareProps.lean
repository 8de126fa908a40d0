import Verif.Autodiff.Compare
import Mathlib.Tactic.Linarith
import Mathlib.Tactic.FieldSimp
import Mathlib.Tactic.Ring
import Mathlib.Tactic.Positivity

/-!
# C84: comparing autodiff variables
-/

namespace Verif.Autodiff

namespace F64

theorem not_nan {x y : F64} : (x.isNan || y.isNan) = false ↔ x.isNan = false ∧ y.isNan = false := by
  cases x.isNan <;> cases y.isNan <;> simp

theorem partialCmp_none {x y : F64} :
    x.partialCmp y = none ↔ x.isNan = true ∨ y.isNan = true := by
  unfold partialCmp
  split_ifs with h
  · simpa using h
  · simp at h; simp [h]

theorem partialCmp_some {x y : F64} (hx : x.isNan = false) (hy : y.isNan = false) :
    (x.partialCmp y = some .lt ↔ x.key < y.key) ∧ (x.partialCmp y = some .gt ↔ y.key < x.key) ∧
    (x.partialCmp y = some .eq ↔ x.key = y.key) := by
  unfold partialCmp
  simp only [hx, hy, Bool.or_self, Bool.false_eq_true, if_false, Option.some.injEq]
  rcases lt_trichotomy x.key y.key with h | h | h
  · simp [h, h.not_gt, h.ne]
  · simp [h]
  · simp [h, h.not_gt, h.ne']

theorem beq_iff {x y : F64} :
    x.beq y = true ↔ x.isNan = false ∧ y.isNan = false ∧ x.key = y.key := by
  unfold beq
  rw [decide_eq_true_iff]
  by_cases hx : x.isNan = true
  · rw [(partialCmp_none (y := y)).2 (Or.inl hx)]; simp [hx]
  by_cases hy : y.isNan = true
  · rw [(partialCmp_none (x := x)).2 (Or.inr hy)]; simp [hy]
  simp only [Bool.not_eq_true] at hx hy
  rw [(partialCmp_some hx hy).2.2]; simp [hx, hy]

theorem isNan_iff {x : F64} : x.isNan = true ↔ x.exp.val = 2047 ∧ x.frac.val ≠ 0 := by
  simp [isNan]

theorem isInfinite_iff {x : F64} : x.isInfinite = true ↔ x.exp.val = 2047 ∧ x.frac.val = 0 := by
  simp [isInfinite]

theorem key_finite {x : F64} (h : x.isFinite = true) :
    x.key = ((x.value : WithTop ℚ) : WithBot (WithTop ℚ)) := by
  unfold key
  rw [if_neg]
  rw [isInfinite_iff]
  simp [isFinite] at h
  omega

/-- The modulus of a finite number. -/
theorem value_mod (x : F64) : |x.value| = if x.exp.val = 0 then (x.frac.val : ℚ) * 2 ^ (-1074 : ℤ)
     else ((2 ^ 52 + x.frac.val : ℕ) : ℚ) * 2 ^ ((x.exp.val : ℤ) - 1075) := by
  unfold value
  rw [abs_mul]
  have h1 : |(if x.neg = true then (-1:ℚ) else 1)| = 1 := by split_ifs <;> simp
  rw [h1, one_mul, abs_of_nonneg]
  split_ifs <;> positivity

theorem value_sign (x : F64) : x.value = (if x.neg then -1 else 1) * |x.value| := by
  rw [value_mod]; rfl

theorem value_eq_zero (x : F64) : x.value = 0 ↔ x.exp.val = 0 ∧ x.frac.val = 0 := by
  rw [← abs_eq_zero, value_mod]
  split_ifs with h
  · simp [h]
  · simp only [h, false_and, iff_false]
    positivity

theorem beq_zero {x : F64} : x.beq zero = true ↔ x.exp.val = 0 ∧ x.frac.val = 0 := by
  have hz : zero.isNan = false := by decide
  have hzf : zero.isFinite = true := by decide
  have hzv : zero.value = 0 := by rw [value_eq_zero]; decide
  rw [beq_iff, key_finite hzf, hzv]
  constructor
  · rintro ⟨h1, _, h2⟩
    rw [← value_eq_zero]
    by_cases hi : x.isInfinite = true
    · unfold key at h2
      rw [if_pos hi] at h2
      split_ifs at h2
      · exact absurd h2 (by simp)
      · exact absurd h2 (by intro h; exact absurd (WithBot.coe_inj.1 h) (by simp))
    · unfold key at h2
      rw [if_neg hi] at h2
      exact WithTop.coe_inj.1 (WithBot.coe_inj.1 h2)
  · rintro ⟨h1, h2⟩
    have hf : x.isFinite = true := by simp [isFinite, h1]
    refine ⟨?_, hz, ?_⟩
    · rw [← Bool.not_eq_true, isNan_iff]; omega
    · rw [key_finite hf, (value_eq_zero x).2 ⟨h1, h2⟩]

/-- A natural number up to `2 ^ 52` is represented exactly. -/
theorem ofNat_value (neg : Bool) (n : ℕ) (hn : n ≤ 2 ^ 52) :
    (ofNat neg n).value = (if neg then -1 else 1) * (n : ℚ) ∧ (ofNat neg n).isFinite = true ∧
    (ofNat neg n).neg = neg := by
  unfold ofNat
  by_cases h0 : n = 0
  · subst h0
    rw [if_pos rfl]
    refine ⟨?_, by simp [isFinite], rfl⟩
    simp [value]
  · rw [if_neg h0]
    have hL1 : 2 ^ Nat.log2 n ≤ n := Nat.log2_self_le h0
    have hL2 : n < 2 ^ (Nat.log2 n + 1) := Nat.lt_log2_self
    have hL : Nat.log2 n ≤ 52 := by
      by_contra hc
      have : 2 ^ 53 ≤ 2 ^ Nat.log2 n := Nat.pow_le_pow_right (by norm_num) (by omega)
      omega
    have hp : 2 ^ (52 - Nat.log2 n) * 2 ^ Nat.log2 n = 2 ^ 52 := by
      rw [← pow_add]; congr 1; omega
    have hfr : (n - 2 ^ Nat.log2 n) * 2 ^ (52 - Nat.log2 n) < 2 ^ 52 := by
      have h3 : n - 2 ^ Nat.log2 n < 2 ^ Nat.log2 n := by rw [pow_succ] at hL2; omega
      calc (n - 2 ^ Nat.log2 n) * 2 ^ (52 - Nat.log2 n)
          < 2 ^ Nat.log2 n * 2 ^ (52 - Nat.log2 n) := by
            exact Nat.mul_lt_mul_of_pos_right h3 (by positivity)
        _ = 2 ^ 52 := by rw [mul_comm]; exact hp
    have e1 : (Fin.ofNat 2048 (1023 + Nat.log2 n)).val = 1023 + Nat.log2 n := by
      simp only [Fin.val_ofNat]; exact Nat.mod_eq_of_lt (by omega)
    have e2 : (Fin.ofNat (2 ^ 52) ((n - 2 ^ Nat.log2 n) * 2 ^ (52 - Nat.log2 n))).val =
        (n - 2 ^ Nat.log2 n) * 2 ^ (52 - Nat.log2 n) := by
      simp only [Fin.val_ofNat]; exact Nat.mod_eq_of_lt hfr
    refine ⟨?_, ?_, rfl⟩
    · unfold value
      simp only [e1, e2]
      congr 1
      rw [if_neg (by omega)]
      have e3 : 2 ^ 52 + (n - 2 ^ Nat.log2 n) * 2 ^ (52 - Nat.log2 n) = n * 2 ^ (52 - Nat.log2 n) := by
        have : 2 ^ 52 + (n - 2 ^ Nat.log2 n) * 2 ^ (52 - Nat.log2 n) =
            (2 ^ Nat.log2 n + (n - 2 ^ Nat.log2 n)) * 2 ^ (52 - Nat.log2 n) := by
          rw [add_mul, mul_comm (2 ^ Nat.log2 n), hp]
        rw [this, Nat.add_sub_cancel' hL1]
      rw [e3]
      push_cast
      rw [mul_assoc, ← zpow_natCast, ← zpow_add₀ (by norm_num)]
      have : ((52 - Nat.log2 n : ℕ) : ℤ) + ((1023 + Nat.log2 n : ℤ) - 1075) = 0 := by omega
      rw [this]; simp
    · simp only [isFinite, e1]
      simp; omega

end F64

/-- The nearest integer, halves away from zero. -/
def Spec.nearest (q : ℚ) : ℤ := if 0 ≤ q then ⌊q + 1 / 2⌋ else ⌈q - 1 / 2⌉

theorem Spec.nearest_near (q : ℚ) : |q - Spec.nearest q| ≤ 1 / 2 := by
  unfold Spec.nearest
  split_ifs with h
  · have h1 := Int.floor_le (q + 1 / 2)
    have h2 := Int.lt_floor_add_one (q + 1 / 2)
    rw [abs_le]; constructor <;> linarith
  · have h1 := Int.le_ceil (q - 1 / 2)
    have h2 := Int.ceil_lt_add_one (q - 1 / 2)
    rw [abs_le]; constructor <;> linarith

theorem Spec.nearest_signed (neg : Bool) (q : ℚ) (hq : 0 ≤ q) :
    (Spec.nearest ((if neg then -1 else 1) * q) : ℚ) =
      (if neg then -1 else 1) * ((⌊q + 1 / 2⌋ : ℤ) : ℚ) := by
  cases neg
  · simp [Spec.nearest, hq]
  · simp only [if_true, Spec.nearest]
    rcases hq.lt_or_eq with h | h
    · rw [if_neg (by linarith)]
      rw [show -1 * q - 1 / 2 = -(q + 1 / 2) by ring, Int.ceil_neg]
      push_cast; ring
    · subst h
      have : ⌊(0:ℚ) + 1 / 2⌋ = 0 := by rw [Int.floor_eq_iff]; norm_num
      norm_num

/-- Every value is exactly one of NaN, infinite, zero, normal and subnormal; finite means one of the
last three; and, counting by the sign bit, exactly one of `is_positive` and `is_negative` holds of
it - also of zeros and of NaN. -/
theorem C84_classes (v : Variable) :
    (v.isNan.toNat + v.isInfinite.toNat + v.isZero.toNat + v.isNormal.toNat + v.isSubnormal.toNat
      = 1) ∧
    (v.isFinite = true ↔ v.isZero = true ∨ v.isNormal = true ∨ v.isSubnormal = true) ∧
    (v.isPositive = true ↔ v.isNegative = false) ∧
    (v.isFinite = true → v.isZero = false → (v.isPositive = true ↔ 0 < v.value.value)) ∧
    (v.isFinite = true → (v.isZero = true ↔ v.value.value = 0)) ∧
    (v.isZero = true → v.isPositive = true ∨ v.isNegative = true) := by
  have hz : v.isZero = decide (v.value.exp.val = 0 ∧ v.value.frac.val = 0) := by
    rw [Bool.eq_iff_iff, decide_eq_true_iff]; exact F64.beq_zero
  have hexp := v.value.exp.isLt
  refine ⟨?_, ?_, ?_, ?_, ?_, ?_⟩
  · rw [hz]
    simp only [Variable.isNan, Variable.isInfinite, Variable.isNormal, Variable.isSubnormal,
      F64.isNan, F64.isInfinite, F64.isNormal, F64.isSubnormal]
    by_cases h1 : v.value.exp.val = 2047 <;> by_cases h2 : v.value.exp.val = 0 <;>
      by_cases h3 : v.value.frac.val = 0 <;>
      by_cases h4 : 0 < v.value.exp.val ∧ v.value.exp.val < 2047 <;>
      first | omega | simp [h1, h2, h3, h4]
  · rw [hz]
    simp only [Variable.isFinite, Variable.isNormal, Variable.isSubnormal, F64.isFinite,
      F64.isNormal, F64.isSubnormal, decide_eq_true_iff]
    omega
  · simp [Variable.isPositive, Variable.isNegative, F64.isSignPositive, F64.isSignNegative]
  · intro _ h0
    rw [hz, decide_eq_false_iff_not, ← F64.value_eq_zero] at h0
    have hpos : 0 < |v.value.value| := abs_pos.2 h0
    rw [F64.value_sign]
    simp only [Variable.isPositive, F64.isSignPositive]
    cases v.value.neg
    · simpa using h0
    · simp
  · intro _; rw [hz, decide_eq_true_iff, F64.value_eq_zero]
  · intro _
    simp only [Variable.isPositive, Variable.isNegative, F64.isSignPositive, F64.isSignNegative]
    cases v.value.neg <;> simp

/-- `signum` of a number is one of its sign, plus one or minus one; also for the two zeros. -/
theorem C84_signum (v : Variable) (h : v.isNan = false) :
    v.signum.isFinite = true ∧
    (v.isPositive = true → v.signum.value = 1) ∧ (v.isNegative = true → v.signum.value = -1) := by
  have hn : v.value.isNan = false := h
  simp only [Variable.signum, F64.signum, hn, Bool.false_eq_true, if_false]
  have e : ((1023 : Fin 2048)).val = 1023 := rfl
  have e0 : ((0 : Fin (2 ^ 52))).val = 0 := rfl
  have hm : (((2 ^ 52 + 0 : ℕ) : ℚ)) * 2 ^ (((1023:ℕ) : ℤ) - 1075) = 1 := by norm_num
  refine ⟨by simp [F64.isFinite, e], fun hp => ?_, fun hp => ?_⟩
  · have hp' : v.value.neg = false := by
      simpa [Variable.isPositive, F64.isSignPositive] using hp
    simp only [F64.value, hp', Bool.false_eq_true, if_false, one_mul, e, e0]
    rw [if_neg (by norm_num)]; exact hm
  · have hp' : v.value.neg = true := hp
    simp only [F64.value, hp', if_true, e, e0]
    rw [if_neg (by norm_num), hm]; norm_num

/-- An instance: the signum of the variable `-0.5`. -/
example := C84_signum ⟨7, 3, ⟨true, 1022, 0⟩⟩ (by decide +kernel)

/-- `==` on variables holds exactly for the same vertex of the same graph with equal, non-NaN values
(the two zeros being equal).  It is symmetric and transitive; reflexive only away from NaN, although
the type claims to have a full equivalence. -/
theorem C84_eq (v w u : Variable) :
    (v.eq w = true ↔ v.graph = w.graph ∧ v.index = w.index ∧ v.isNan = false ∧ w.isNan = false ∧
      v.value.key = w.value.key) ∧
    (v.eq v = true ↔ v.isNan = false) ∧ v.eq w = w.eq v ∧
    (v.eq w = true → w.eq u = true → v.eq u = true) ∧
    (v.isFinite = true → ∀ x : F64, x.isFinite = true →
      (v.eqF64 x = true ↔ v.value.value = x.value)) := by
  have key : ∀ v w : Variable, v.eq w = true ↔ v.graph = w.graph ∧ v.index = w.index ∧
      v.isNan = false ∧ w.isNan = false ∧ v.value.key = w.value.key := by
    intro v w
    simp only [Variable.eq, Bool.and_eq_true, beq_iff_eq, F64.beq_iff, Variable.isNan, and_assoc]
  refine ⟨key v w, by rw [key]; simp, ?_, ?_, ?_⟩
  · rw [Bool.eq_iff_iff, key, key]
    constructor <;> rintro ⟨a, b, c, d, e⟩ <;> exact ⟨a.symm, b.symm, d, c, e.symm⟩
  · rw [key, key, key]
    rintro ⟨a, b, c, d, e⟩ ⟨a', b', _, d', e'⟩
    exact ⟨a.trans a', b.trans b', c, d', e.trans e'⟩
  · intro hf x hx
    simp only [Variable.eqF64]
    have hv : v.value.isNan = false := by
      rw [← Bool.not_eq_true, F64.isNan_iff]
      simp [Variable.isFinite, F64.isFinite] at hf; omega
    have hxn : x.isNan = false := by
      rw [← Bool.not_eq_true, F64.isNan_iff]
      simp [F64.isFinite] at hx; omega
    rw [F64.beq_iff, F64.key_finite hf, F64.key_finite hx]
    simp [hv, hxn]

/-- Away from NaN, `cmp` and `partial_cmp` order variables by value: a total preorder. -/
theorem C84_order (v w u : Variable) (hv : v.isNan = false) (hw : w.isNan = false)
    (hu : u.isNan = false) :
    (v.cmp w = .lt ↔ v.value.key < w.value.key) ∧ (v.cmp w = .gt ↔ w.value.key < v.value.key) ∧
    (v.cmp w = .eq ↔ v.value.key = w.value.key) ∧ v.cmp w = (w.cmp v).swap ∧
    (v.le w = true ∨ w.le v = true) ∧ (v.le w = true → w.le u = true → v.le u = true) ∧
    (v.isFinite = true → w.isFinite = true →
      ((v.lt w = true ↔ v.value.value < w.value.value) ∧
       (v.le w = true ↔ v.value.value ≤ w.value.value))) := by
  have key : ∀ v w : Variable, v.isNan = false → w.isNan = false →
      (v.cmp w = .lt ↔ v.value.key < w.value.key) ∧ (v.cmp w = .gt ↔ w.value.key < v.value.key) ∧
      (v.cmp w = .eq ↔ v.value.key = w.value.key) := by
    intro v w hv hw
    have h := F64.partialCmp_some (x := v.value) (y := w.value) hv hw
    unfold Variable.cmp
    cases hq : v.value.partialCmp w.value with
    | none =>
      rcases F64.partialCmp_none.1 hq with h' | h'
      · exact absurd h' (by rw [show v.value.isNan = false from hv]; simp)
      · exact absurd h' (by rw [show w.value.isNan = false from hw]; simp)
    | some o => rw [hq] at h; simpa using h
  have le : ∀ v w : Variable, v.isNan = false → w.isNan = false →
      (v.le w = true ↔ v.value.key ≤ w.value.key) := by
    intro v w hv hw
    obtain ⟨a, _, c⟩ := key v w hv hw
    simp only [Variable.le, Variable.partialCmp, Option.some.injEq, decide_eq_true_iff, a, c]
    exact le_iff_lt_or_eq.symm
  obtain ⟨a, b, c⟩ := key v w hv hw
  obtain ⟨a', b', c'⟩ := key w v hw hv
  refine ⟨a, b, c, ?_, ?_, ?_, ?_⟩
  · cases h : w.cmp v
    · rw [h] at a'; exact b.2 (a'.1 rfl)
    · rw [h] at c'; exact c.2 (c'.1 rfl).symm
    · rw [h] at b'; exact a.2 (b'.1 rfl)
  · rw [le v w hv hw, le w v hw hv]; exact le_total _ _
  · rw [le v w hv hw, le w u hw hu, le v u hv hu]; exact le_trans
  · intro hf hg
    rw [le v w hv hw]
    have hlt : v.lt w = true ↔ v.value.key < w.value.key := by
      simp only [Variable.lt, Variable.partialCmp, Option.some.injEq, decide_eq_true_iff, a]
    rw [hlt, F64.key_finite hf, F64.key_finite hg]
    simp

/-- Defects of the ordering.  `cmp` calls a NaN equal to everything, so that it is not transitive
(numbers on both sides of a NaN compare as different) and `a <= b` holds when either is NaN; and
variables that `cmp` calls equal need not be `==`: with the same value they are unless they are the
same vertex. -/
theorem C84_order_defects :
    (∀ v w : Variable, v.isNan = true ∨ w.isNan = true →
      v.cmp w = .eq ∧ v.le w = true ∧ w.le v = true ∧ v.lt w = false ∧ v.eq w = false) ∧
    (∀ v w : Variable, v.isNan = false → w.isNan = false → v.cmp w = .lt →
      ∃ u : Variable, v.cmp u = .eq ∧ u.cmp w = .eq) ∧
    (∀ v w : Variable, v.cmp w = .eq → v.graph ≠ w.graph ∨ v.index ≠ w.index → v.eq w = false) ∧
    (∃ v w : Variable, v.isNan = false ∧ w.isNan = false ∧ v.cmp w = .eq ∧ v.eq w = false) := by
  have nan : ∀ v w : Variable, v.isNan = true ∨ w.isNan = true → v.cmp w = .eq := by
    intro v w h
    unfold Variable.cmp
    rw [F64.partialCmp_none.2 h]; rfl
  have neq : ∀ v w : Variable, v.graph ≠ w.graph ∨ v.index ≠ w.index → v.eq w = false := by
    intro v w h
    rw [← Bool.not_eq_true, (C84_eq v w w).1]
    rintro ⟨a, b, _⟩
    rcases h with h | h
    · exact h a
    · exact h b
  refine ⟨?_, ?_, fun v w _ h => neq v w h, ?_⟩
  · intro v w h
    have h1 := nan v w h
    have h2 := nan w v h.symm
    refine ⟨h1, by simp [Variable.le, Variable.partialCmp, h1],
      by simp [Variable.le, Variable.partialCmp, h2],
      by simp [Variable.lt, Variable.partialCmp, h1], ?_⟩
    rw [← Bool.not_eq_true, (C84_eq v w w).1]
    rintro ⟨_, _, a, b, _⟩
    rcases h with h | h
    · rw [h] at a; simp at a
    · rw [h] at b; simp at b
  · intro v w _ _ _
    have hn : (⟨0, 0, ⟨false, 2047, 1⟩⟩ : Variable).isNan = true := by decide
    exact ⟨⟨0, 0, ⟨false, 2047, 1⟩⟩, nan _ _ (Or.inr hn), nan _ _ (Or.inl hn)⟩
  · refine ⟨⟨0, 0, F64.zero⟩, ⟨0, 1, F64.zero⟩, by decide, by decide, ?_, ?_⟩
    · rw [(C84_order _ _ ⟨0, 0, F64.zero⟩ (by decide) (by decide) (by decide)).2.2.1]
    · exact neq _ _ (Or.inr (by decide))

/-- `round` keeps graph, vertex, sign and class NaN/infinite; a finite value becomes, exactly, the
nearest integer with halves going away from zero. -/
theorem C84_round (v : Variable) :
    v.round.graph = v.graph ∧ v.round.index = v.index ∧ v.round.isNegative = v.isNegative ∧
    (v.isFinite = false → v.round = v) ∧
    (v.isFinite = true → v.round.isFinite = true ∧
      v.round.value.value = Spec.nearest v.value.value ∧
      |v.value.value - v.round.value.value| ≤ 1 / 2) := by
  have hfr := v.value.frac.isLt
  -- the finite case
  have fin : v.isFinite = true → v.round.isFinite = true ∧
      v.round.value.value = Spec.nearest v.value.value ∧ v.round.value.neg = v.value.neg := by
    intro hf
    have hf' : v.value.exp.val < 2047 := by simpa [Variable.isFinite, F64.isFinite] using hf
    simp only [Variable.round, Variable.isFinite, F64.round]
    split_ifs with h1 h2
    · refine ⟨hf, ?_, rfl⟩
      -- already an integer
      obtain ⟨z, hz⟩ : ∃ z : ℤ, v.value.value = z := by
        refine ⟨(if v.value.neg then -1 else 1) *
          ((2 ^ 52 + v.value.frac.val : ℕ) * 2 ^ (v.value.exp.val - 1075)), ?_⟩
        have hne : ¬ v.value.exp.val = 0 := by omega
        simp only [F64.value, hne, if_false]
        have : (v.value.exp.val : ℤ) - 1075 = ((v.value.exp.val - 1075 : ℕ) : ℤ) := by omega
        rw [this, zpow_natCast]
        split_ifs <;> push_cast <;> ring
      rw [hz]
      unfold Spec.nearest
      split_ifs with h0
      · have : ⌊(z:ℚ) + 1 / 2⌋ = z := by rw [Int.floor_eq_iff]; constructor <;> linarith
        rw [this]
      · have : ⌈(z:ℚ) - 1 / 2⌉ = z := by rw [Int.ceil_eq_iff]; constructor <;> linarith
        rw [this]
    · refine ⟨by simp [F64.isFinite], ?_, rfl⟩
      rw [F64.value_sign v.value, Spec.nearest_signed _ _ (abs_nonneg _), F64.value_mod, if_pos h2]
      have hle : (v.value.frac.val : ℚ) * 2 ^ (-1074 : ℤ) < 1 / 2 := by
        have h3 : (v.value.frac.val : ℚ) < 2 ^ 52 := by exact_mod_cast hfr
        calc (v.value.frac.val : ℚ) * 2 ^ (-1074 : ℤ) ≤ 2 ^ 52 * 2 ^ (-1074 : ℤ) := by
              exact mul_le_mul_of_nonneg_right h3.le (by positivity)
          _ < 1 / 2 := by
            rw [← zpow_natCast, ← zpow_add₀ (by norm_num)]
            calc (2:ℚ) ^ (((52:ℕ):ℤ) + -1074) < 2 ^ (-1 : ℤ) :=
                  zpow_lt_zpow_right₀ (by norm_num) (by norm_num)
              _ = 1 / 2 := by norm_num
      have hfl : ⌊(v.value.frac.val : ℚ) * 2 ^ (-1074 : ℤ) + 1 / 2⌋ = 0 := by
        rw [Int.floor_eq_iff]
        have : (0:ℚ) ≤ (v.value.frac.val : ℚ) * 2 ^ (-1074 : ℤ) := by positivity
        constructor
        · push_cast; linarith
        · push_cast; linarith
      rw [hfl]
      have : (⟨v.value.neg, 0, 0⟩ : F64).value = 0 := by rw [F64.value_eq_zero]; simp
      rw [this]; simp
    · set k := 1075 - v.value.exp.val with hk
      have hk1 : 1 ≤ k := by omega
      have hn : (2 ^ 52 + v.value.frac.val + 2 ^ (k - 1)) / 2 ^ k ≤ 2 ^ 52 := by
        have e : 2 ^ k = 2 * 2 ^ (k - 1) := by
          rw [← pow_succ']; congr 1; omega
        have hp : 1 ≤ 2 ^ (k - 1) := Nat.one_le_two_pow
        rw [Nat.div_le_iff_le_mul_add_pred (by positivity), e]
        nlinarith
      obtain ⟨o1, o2, o3⟩ := F64.ofNat_value v.value.neg _ hn
      refine ⟨o2, ?_, o3⟩
      rw [o1, F64.value_sign v.value, Spec.nearest_signed _ _ (abs_nonneg _), F64.value_mod,
        if_neg h2]
      congr 1
      have hz : (2:ℚ) ^ ((v.value.exp.val : ℤ) - 1075) = 1 / 2 ^ k := by
        have : (v.value.exp.val : ℤ) - 1075 = -((k : ℕ) : ℤ) := by omega
        rw [this, zpow_neg, zpow_natCast, one_div]
      rw [hz]
      have hdiv : ((2 ^ 52 + v.value.frac.val : ℕ) : ℚ) * (1 / 2 ^ k) + 1 / 2 =
          ((2 ^ 52 + v.value.frac.val + 2 ^ (k - 1) : ℕ) : ℚ) / ((2 ^ k : ℕ) : ℚ) := by
        have e : (2:ℚ) ^ k = 2 * 2 ^ (k - 1) := by
          rw [← pow_succ']; congr 1; omega
        push_cast
        rw [e]
        field_simp
      rw [hdiv, Rat.floor_natCast_div_natCast]
      push_cast
      rfl
  refine ⟨rfl, rfl, ?_, ?_, ?_⟩
  · change v.round.value.neg = v.value.neg
    by_cases hf : v.isFinite = true
    · exact (fin hf).2.2
    · have hf' : ¬ v.value.exp.val < 2047 := by simpa [Variable.isFinite, F64.isFinite] using hf
      simp only [Variable.round, F64.round]
      rw [if_pos (by omega)]
  · intro hf
    have hf' : ¬ v.value.exp.val < 2047 := by simpa [Variable.isFinite, F64.isFinite] using hf
    simp only [Variable.round, F64.round]
    rw [if_pos (by omega)]
  · intro hf
    obtain ⟨a, b, _⟩ := fin hf
    refine ⟨a, b, ?_⟩
    rw [b]
    exact Spec.nearest_near _

/-- Defect: rounding leaves no trace on the tape.  After `x.round()` the derivative of `op(x)` with
respect to `x` comes out as `op'` at the rounded value, as if rounding were the identity. -/
theorem C84_round_untaped (op : UnOp) (x r : ℝ) :
    ∃ g₁ v g₂ y adj, var [] x = some (g₁, v) ∧
      unary op g₁ { v with value := r } = some (g₂, y) ∧ y.value = op.value r ∧
      accumulate g₂ y = some adj ∧ wrt adj v = some (op.partial r) := by
  refine ⟨[⟨0, 0, 0, 0⟩], ⟨0, x⟩, [⟨0, 0, 0, 0⟩, ⟨op.partial r, 0, 0, 1⟩], ⟨1, op.value r⟩,
    [op.partial r, 1], rfl, rfl, rfl, ?_, rfl⟩
  simp [accumulate, sweep, addAt]

/-- Concrete instances: 2.5 rounds to 3, -0.5 to -1; a NaN is not equal to itself; 1 < 2 but both
compare as equal to NaN. -/
example :
    (let v : Variable := ⟨7, 3, ⟨false, 1024, 2 ^ 50⟩⟩
     v.value.value = 5 / 2 ∧ v.round.value.value = 3 ∧ v.isNormal = true) ∧
    (let v : Variable := ⟨7, 3, ⟨true, 1022, 0⟩⟩
     v.value.value = -1 / 2 ∧ v.round.value.value = -1) ∧
    (let n : Variable := ⟨0, 0, ⟨false, 2047, 1⟩⟩
     let one : Variable := ⟨0, 1, ⟨false, 1023, 0⟩⟩
     let two : Variable := ⟨0, 2, ⟨false, 1024, 0⟩⟩
     n.isNan = true ∧ n.eq n = false ∧ one.lt two = true ∧ one.cmp n = .eq ∧ n.cmp two = .eq) := by
  have h1 : (⟨false, 1024, 2 ^ 50⟩ : F64).value = 5 / 2 := by
    have e : ((2 ^ 50 : Fin (2 ^ 52))).val = 2 ^ 50 := by decide +kernel
    have e1 : ((1024 : Fin 2048)).val = 1024 := rfl
    simp only [F64.value, e, e1]
    norm_num
  have h2 : (⟨true, 1022, 0⟩ : F64).value = -1 / 2 := by
    have e1 : ((1022 : Fin 2048)).val = 1022 := rfl
    simp only [F64.value, e1]
    norm_num
  refine ⟨⟨h1, ?_, by decide⟩, ⟨h2, ?_⟩, ?_⟩
  · rw [((C84_round _).2.2.2.2 (by decide)).2.1, h1]
    have : Spec.nearest (5 / 2) = 3 := by
      unfold Spec.nearest; rw [if_pos (by norm_num)]; rw [Int.floor_eq_iff]; norm_num
    rw [this]; norm_num
  · rw [((C84_round _).2.2.2.2 (by decide)).2.1, h2]
    have : Spec.nearest (-1 / 2) = -1 := by
      unfold Spec.nearest; rw [if_neg (by norm_num)]; rw [Int.ceil_eq_iff]; norm_num
    rw [this]; norm_num
  · have hn : (⟨0, 0, ⟨false, 2047, 1⟩⟩ : Variable).isNan = true := by decide
    refine ⟨hn, ?_, ?_, ?_, ?_⟩
    · exact (C84_order_defects.1 _ _ (Or.inl hn)).2.2.2.2
    · refine (((C84_order ⟨0, 1, ⟨false, 1023, 0⟩⟩ ⟨0, 2, ⟨false, 1024, 0⟩⟩ ⟨0, 2, ⟨false, 1024, 0⟩⟩
        (by decide) (by decide) (by decide)).2.2.2.2.2.2 (by decide) (by decide)).1).2 ?_
      have e1 : ((1023 : Fin 2048)).val = 1023 := rfl
      have e2 : ((1024 : Fin 2048)).val = 1024 := rfl
      simp only [F64.value, e1, e2]
      norm_num
    · exact (C84_order_defects.1 _ _ (Or.inr hn)).1
    · exact (C84_order_defects.1 _ _ (Or.inl hn)).1

end Verif.Autodiff
