import Verif.Float.Money
import Verif.Float.SumProps
import Verif.Float.FormulaProps
import Verif.Fx.CurrencyTable

/-!
# Money and exchange rates in double precision (C93)
-/

namespace Verif.Float

open Verif.Fx (Currency)

/-- The rates can be applied one after the other to money in this currency. -/
def Chained : Currency → List Rate → Prop
  | _, [] => True
  | c, r :: rs => r.from_ = c ∧ Chained r.to_ rs

/-- The amounts that the exact conversions give on the way: none but zero is below `2^-1021`. -/
def NoUnderflow : ℚ → List Rate → Prop
  | _, [] => True
  | x, r :: rs => (x * r.rate.val = 0 ∨ 2 ^ (-1021 : ℤ) ≤ |x * r.rate.val|) ∧ NoUnderflow (x * r.rate.val) rs

theorem ok_of {c : Currency} {o : Option F64} {m : Money} (h : Paid.of c o = .ok m) : m.currency = c ∧ o = some m.amount := by
  cases o with
  | none => cases h
  | some x => cases h; exact ⟨rfl, rfl⟩

theorem add_ok {a b m : Money} (h : a.add b = .ok m) : a.currency = b.currency ∧ m.currency = a.currency ∧ m.amount.val = rnd (a.amount.val + b.amount.val) := by
  unfold Money.add at h
  split at h
  · next e => obtain ⟨h1, h2⟩ := ok_of h; exact ⟨e, h1, toF64_some h2⟩
  · cases h

theorem sub_ok {a b m : Money} (h : a.sub b = .ok m) : a.currency = b.currency ∧ m.currency = a.currency ∧ m.amount.val = rnd (a.amount.val - b.amount.val) := by
  unfold Money.sub at h
  split at h
  · next e => obtain ⟨h1, h2⟩ := ok_of h; exact ⟨e, h1, toF64_some h2⟩
  · cases h

theorem convert_ok {r : Rate} {a m : Money} (h : r.convert a = .ok m) : a.currency = r.from_ ∧ m.currency = r.to_ ∧ m.amount.val = rnd (a.amount.val * r.rate.val) := by
  unfold Rate.convert at h
  split at h
  · next e => obtain ⟨h1, h2⟩ := ok_of h; exact ⟨e, h1, toF64_some h2⟩
  · cases h

theorem of_ne_panic (c : Currency) (o : Option F64) : Paid.of c o ≠ .panic := by cases o <;> simp [Paid.of]

/-- C93: sums and differences panic exactly for different currencies; otherwise they keep the currency and are within the relative
error `2^-53` of the exact result; sums do not depend on the order of the two; a difference is positive exactly when the first amount
is larger, and exact when the amounts are within a factor of two. -/
theorem C93_add_sub (a b : Money) :
    (a.add b = .panic ↔ a.currency ≠ b.currency) ∧ (a.sub b = .panic ↔ a.currency ≠ b.currency) ∧
    (∀ m, a.add b = .ok m → m.currency = a.currency ∧
      |m.amount.val - (a.amount.val + b.amount.val)| ≤ 2 ^ (-53 : ℤ) * |a.amount.val + b.amount.val| ∧ b.add a = .ok m) ∧
    (∀ m, a.sub b = .ok m → m.currency = a.currency ∧
      |m.amount.val - (a.amount.val - b.amount.val)| ≤ 2 ^ (-53 : ℤ) * |a.amount.val - b.amount.val| ∧
      (0 < m.amount.val ↔ b.amount.val < a.amount.val) ∧
      (b.amount.val ≤ 2 * a.amount.val → a.amount.val ≤ 2 * b.amount.val → m.amount.val = a.amount.val - b.amount.val)) := by
  refine ⟨?_, ?_, fun m h => ?_, fun m h => ?_⟩
  · unfold Money.add
    split
    · next e => simp [of_ne_panic, e]
    · next e => simp [e]
  · unfold Money.sub
    split
    · next e => simp [of_ne_panic, e]
    · next e => simp [e]
  · obtain ⟨h1, h2, h3⟩ := add_ok h
    refine ⟨h2, ?_, ?_⟩
    · rw [h3, abs_sub_comm]
      exact rnd_add a.amount.rep b.amount.rep
    · unfold Money.add at h ⊢
      rw [if_pos h1] at h
      rw [if_pos h1.symm, ← h1, ← h]
      unfold F64.add
      rw [add_comm]
  · obtain ⟨h1, h2, h3⟩ := sub_ok h
    refine ⟨h2, ?_, ?_, fun h4 h5 => ?_⟩
    · rw [h3, abs_sub_comm]
      exact rnd_sub a.amount.rep b.amount.rep
    · rw [h3]
      exact rnd_sub_pos a.amount.rep b.amount.rep
    · rw [h3]
      exact rnd_rep (sterbenz a.amount.rep b.amount.rep h4 h5)

/-- C93: a conversion panics exactly for the wrong currency; otherwise the result is in the target currency, within the relative error
`2^-53` of amount times rate unless that is below `2^-1022`, and a larger amount never converts to less at a positive rate. -/
theorem C93_convert (r : Rate) (a : Money) :
    (r.convert a = .panic ↔ a.currency ≠ r.from_) ∧
    (∀ m, r.convert a = .ok m → m.currency = r.to_ ∧
      (2 ^ (-1022 : ℤ) ≤ |a.amount.val * r.rate.val| →
        |m.amount.val - a.amount.val * r.rate.val| ≤ 2 ^ (-53 : ℤ) * |a.amount.val * r.rate.val|)) ∧
    (∀ b m n, 0 ≤ r.rate.val → a.amount.val ≤ b.amount.val → r.convert a = .ok m → r.convert b = .ok n → m.amount.val ≤ n.amount.val) := by
  refine ⟨?_, fun m h => ?_, fun b m n h0 hab h1 h2 => ?_⟩
  · unfold Rate.convert
    split
    · next e => simp [of_ne_panic, e]
    · next e => simp [e]
  · obtain ⟨_, h2, h3⟩ := convert_ok h
    refine ⟨h2, fun h4 => ?_⟩
    rw [h3, abs_sub_comm]
    rcases rnd_error (a.amount.val * r.rate.val) with h5 | ⟨h5, _⟩
    · exact h5
    · exact absurd h5 (not_lt.2 h4)
  · rw [(convert_ok h1).2.2, (convert_ok h2).2.2]
    exact rnd_mono (mul_le_mul_of_nonneg_right hab h0)

theorem chain_step (x y r : ℚ) (k : ℕ) (hk : k < 2 ^ 50) (hx : |y - x| ≤ ((1 + u) ^ k - 1) * |x|)
    (hn : x * r = 0 ∨ 2 ^ (-1021 : ℤ) ≤ |x * r|) : |rnd (y * r) - x * r| ≤ ((1 + u) ^ (k + 1) - 1) * |x * r| := by
  have hu := u_pos
  have hp : (1 : ℚ) ≤ (1 + u) ^ k := one_le_pow₀ (by linarith)
  have h1 : |y * r - x * r| ≤ ((1 + u) ^ k - 1) * |x * r| := by
    rw [← sub_mul, abs_mul, abs_mul, ← mul_assoc]
    exact mul_le_mul_of_nonneg_right hx (abs_nonneg _)
  have h2 : |y * r| ≤ (1 + u) ^ k * |x * r| := by
    have := abs_sub_abs_le_abs_sub (y * r) (x * r)
    linarith
  have h3 : |y * r - rnd (y * r)| ≤ u * |y * r| := by
    rcases rnd_error (y * r) with h | ⟨h, _⟩
    · exact h
    · rcases hn with h0 | h0
      · have : y * r = 0 := by
          rw [h0, abs_zero, mul_zero] at h2
          exact abs_eq_zero.1 (le_antisymm h2 (abs_nonneg _))
        rw [this]
        simp [rnd_zero]
      · exfalso
        have hb := pow_bound k (by omega)
        have hk' : (k : ℚ) * 2 ^ (-52 : ℤ) ≤ 1 / 4 := by
          have : (k : ℚ) ≤ 2 ^ 50 := by exact_mod_cast hk.le
          calc (k : ℚ) * 2 ^ (-52 : ℤ) ≤ 2 ^ 50 * 2 ^ (-52 : ℤ) := mul_le_mul_of_nonneg_right this (zpos _).le
            _ = 1 / 4 := by norm_num
        have e1 : (2 : ℚ) ^ (-1021 : ℤ) = 2 * 2 ^ (-1022 : ℤ) := by rw [show (-1021 : ℤ) = 1 + (-1022) by norm_num, zpow_add₀ (by norm_num)]; norm_num
        have h4 := abs_sub_abs_le_abs_sub (x * r) (y * r)
        rw [abs_sub_comm] at h4
        have h5 : ((1 + u) ^ k - 1) * |x * r| ≤ 1 / 4 * |x * r| := mul_le_mul_of_nonneg_right (by
          have e := hb.trans (add_le_add_right hk' 1)
          linarith) (abs_nonneg _)
        have := zpos (-1022)
        rw [e1] at h0
        linarith
  rw [pow_succ]
  have h4 := abs_sub_le (rnd (y * r)) (y * r) (x * r)
  rw [abs_sub_comm (rnd (y * r)) (y * r)] at h4
  have h5 := mul_le_mul_of_nonneg_left h2 hu.le
  nlinarith

theorem chain_error (rs : List Rate) (a : Money) (x : ℚ) (k : ℕ) (hk : k + rs.length < 2 ^ 50) (hn : NoUnderflow x rs)
    (ha : |a.amount.val - x| ≤ ((1 + u) ^ k - 1) * |x|) (m : Money) (h : convertAll rs a = .ok m) :
    |m.amount.val - x * (rs.map fun r => r.rate.val).prod| ≤ ((1 + u) ^ (k + rs.length) - 1) * |x * (rs.map fun r => r.rate.val).prod| := by
  induction rs generalizing a x k with
  | nil => cases h; simpa using ha
  | cons r rs ih =>
    unfold convertAll at h
    split at h
    · next m' hm =>
      have h1 := (convert_ok hm).2.2
      have h2 := chain_step x a.amount.val r.rate.val k (by simp only [List.length_cons] at hk; omega) ha hn.1
      rw [← h1] at h2
      have := ih m' (x * r.rate.val) (k + 1) (by simp only [List.length_cons] at hk; omega) hn.2 h2 h
      rw [List.map_cons, List.prod_cons, List.length_cons, ← mul_assoc]
      rwa [show k + 1 + rs.length = k + (rs.length + 1) by omega] at this
    · next p hp =>
      exact (hp m h).elim

/-- C93: money converted along a chain of `n` rates, however long up to `2^50`, is within the relative error `n 2^-52` of the amount times
all rates, as long as the exact amounts on the way stay above `2^-1021` (or are zero); the chain panics exactly when some currency does
not match, or gives an amount that is not finite. -/
theorem C93_chain (rs : List Rate) (a : Money) (hk : rs.length < 2 ^ 50) :
    (∀ m, convertAll rs a = .ok m → Chained a.currency rs ∧
      (NoUnderflow a.amount.val rs → |m.amount.val - a.amount.val * (rs.map fun r => r.rate.val).prod| ≤
        rs.length * 2 ^ (-52 : ℤ) * |a.amount.val * (rs.map fun r => r.rate.val).prod|)) ∧
    (Chained a.currency rs → convertAll rs a ≠ .panic) := by
  refine ⟨fun m h => ⟨?_, fun hn => ?_⟩, fun hc => ?_⟩
  · clear hk
    induction rs generalizing a with
    | nil => trivial
    | cons r rs ih =>
      unfold convertAll at h
      split at h
      · next m' hm =>
        obtain ⟨h1, h2, _⟩ := convert_ok hm
        refine ⟨h1.symm, ?_⟩
        have := ih m' h
        rwa [h2] at this
      · next p hp =>
        exact (hp m h).elim
  · have := chain_error rs a a.amount.val 0 (by omega) hn (by simp) m h
    refine this.trans (mul_le_mul_of_nonneg_right ?_ (abs_nonneg _))
    rw [zero_add]
    have := pow_bound rs.length (by omega)
    linarith
  · clear hk
    induction rs generalizing a with
    | nil => simp [convertAll]
    | cons r rs ih =>
      unfold convertAll
      split
      · next m' hm =>
        obtain ⟨h1, h2, _⟩ := convert_ok hm
        exact ih m' (by rw [h2]; exact hc.2)
      · next p hp =>
        intro he
        exact ((C93_convert r a).1.1 he) hc.1.symm

/-- C93: there and back: at a rate and its reciprocal as rounded to an `f64`, the amount comes back within the relative error `2^-51`,
if neither the rate, nor its reciprocal, nor the amounts are too small. -/
theorem C93_round_trip (r s : Rate) (a m : Money) (h : convertAll [r, s] a = .ok m) (hr : 2 ^ (-1000 : ℤ) ≤ |r.rate.val|)
    (hr2 : |r.rate.val| ≤ 2 ^ (1000 : ℤ)) (hs : s.rate.val = rnd (1 / r.rate.val))
    (ha : 2 ^ (-1000 : ℤ) ≤ |a.amount.val|) (har : 2 ^ (-1000 : ℤ) ≤ |a.amount.val * r.rate.val|) :
    m.currency = s.to_ ∧ |m.amount.val - a.amount.val| ≤ 2 ^ (-51 : ℤ) * |a.amount.val| := by
  have hu := u_pos
  unfold convertAll at h
  split at h
  case h_2 p hp => exact (hp m h).elim
  case h_1 y hy =>
  unfold convertAll at h
  split at h
  case h_2 p hp => exact (hp m h).elim
  case h_1 z hz =>
  cases h
  obtain ⟨_, _, y1⟩ := convert_ok hy
  obtain ⟨_, m2, m1⟩ := convert_ok hz
  refine ⟨m2, ?_⟩
  have big' : ∀ {q : ℚ}, 2 ^ (-1001 : ℤ) ≤ |q| → |q - rnd q| ≤ u * |q| := by
    intro q hq
    rcases rnd_error q with h | ⟨h, _⟩
    · exact h
    · exact absurd (h.trans ((zpow_lt_iff _ _).2 (by norm_num : (-1022 : ℤ) < -1001))) (not_lt.2 hq)
  have big : ∀ {q : ℚ}, 2 ^ (-1000 : ℤ) ≤ |q| → |q - rnd q| ≤ u * |q| := fun hq =>
    big' (((zpow_le_iff _ _).2 (by norm_num)).trans hq)
  have r0 : r.rate.val ≠ 0 := fun e => by rw [e, abs_zero] at hr; exact absurd hr (not_le.2 (zpos _))
  have e1 := big har
  have hinv : (2 : ℚ) ^ (-1000 : ℤ) ≤ |1 / r.rate.val| := by
    rw [abs_div, abs_one, le_div_iff₀ (abs_pos.2 r0), ← le_div_iff₀' (zpos _)]
    refine hr2.trans (le_of_eq ?_)
    rw [one_div, ← zpow_neg]
    norm_num
  have e2 := big hinv
  rw [← y1] at e1
  rw [← hs] at e2
  set x := a.amount.val
  set R := r.rate.val
  set Y := y.amount.val
  set S := s.rate.val
  -- the error of the product of the two rounded factors
  have hYS : |Y * S - x| ≤ (2 * u + u * u) * |x| := by
    have e : Y * S - x = (Y - x * R) * (1 / R) + (x * R) * (S - 1 / R) + (Y - x * R) * (S - 1 / R) := by
      field_simp
      ring
    have k1 : |(Y - x * R) * (1 / R)| ≤ u * |x| := by
      rw [abs_mul, abs_sub_comm]
      refine (mul_le_mul_of_nonneg_right e1 (abs_nonneg _)).trans (le_of_eq ?_)
      rw [mul_assoc, ← abs_mul, show x * R * (1 / R) = x by field_simp]
    have k2 : |(x * R) * (S - 1 / R)| ≤ u * |x| := by
      rw [abs_mul, abs_sub_comm]
      refine (mul_le_mul_of_nonneg_left e2 (abs_nonneg _)).trans (le_of_eq ?_)
      rw [mul_left_comm, ← abs_mul, show x * R * (1 / R) = x by field_simp]
    have k3 : |(Y - x * R) * (S - 1 / R)| ≤ u * u * |x| := by
      rw [abs_mul, abs_sub_comm, abs_sub_comm S]
      refine (mul_le_mul e1 e2 (abs_nonneg _) (by positivity)).trans (le_of_eq ?_)
      rw [mul_mul_mul_comm, ← abs_mul, show x * R * (1 / R) = x by field_simp]
    rw [e]
    refine (abs_add_le _ _).trans ?_
    have := abs_add_le ((Y - x * R) * (1 / R)) ((x * R) * (S - 1 / R))
    linarith
  have hu4 : u ≤ 1 / 2 ^ 50 := by unfold u; norm_num
  have hYS2 : |Y * S| ≤ (1 + (2 * u + u * u)) * |x| := by
    have := abs_sub_abs_le_abs_sub (Y * S) x
    linarith
  have hYS3 : (2 : ℚ) ^ (-1001 : ℤ) ≤ |Y * S| := by
    have h5 := abs_sub_abs_le_abs_sub x (Y * S)
    rw [abs_sub_comm] at h5
    have e5 : (2 : ℚ) ^ (-1000 : ℤ) = 2 * 2 ^ (-1001 : ℤ) := by rw [show (-1000 : ℤ) = 1 + (-1001) by norm_num, zpow_add₀ (by norm_num)]; norm_num
    rw [e5] at ha
    have h6 : (2 * u + u * u) * |x| ≤ 1 / 2 * |x| := mul_le_mul_of_nonneg_right (by norm_num at hu4; nlinarith) (abs_nonneg _)
    linarith
  have e3 := big' hYS3
  rw [← m1] at e3
  have h4 := abs_sub_le m.amount.val (Y * S) x
  rw [abs_sub_comm m.amount.val (Y * S)] at h4
  have e51 : (2 : ℚ) ^ (-51 : ℤ) = 4 * u := by unfold u; norm_num
  rw [e51]
  have x0 := abs_nonneg x
  have k4 : u * |Y * S| ≤ u * ((1 + (2 * u + u * u)) * |x|) := mul_le_mul_of_nonneg_left hYS2 hu.le
  have k5 : u * u * |x| ≤ 1 / 2 ^ 50 * (u * |x|) := by
    rw [mul_assoc]
    exact mul_le_mul_of_nonneg_right hu4 (mul_nonneg hu.le x0)
  have k6 : u * (u * u * |x|) ≤ u * (1 / 2 ^ 50 * (u * |x|)) := mul_le_mul_of_nonneg_left k5 hu.le
  have k7 : 0 ≤ u * |x| := mul_nonneg hu.le x0
  norm_num at k5 k6
  nlinarith

/-- C93: converting the parts and adding, or adding and converting: the two differ by at most
`2^-50` of the sizes, plus an underflow term. -/
theorem C93_split (r : Rate) (a b s m n t q : Money) (h1 : a.add b = .ok s) (h2 : r.convert s = .ok q) (h3 : r.convert a = .ok m)
    (h4 : r.convert b = .ok n) (h5 : m.add n = .ok t) :
    |q.amount.val - t.amount.val| ≤ 2 ^ (-50 : ℤ) * ((|a.amount.val| + |b.amount.val|) * |r.rate.val|) + 2 ^ (-1072 : ℤ) := by
  have hu := u_pos
  have hu4 : u ≤ 1 / 2 ^ 50 := by unfold u; norm_num
  have e1 := (C93_add_sub a b).2.2.1 s h1
  have e5 := (C93_add_sub m n).2.2.1 t h5
  have i2 := rnd_error' (s.amount.val * r.rate.val)
  have i3 := rnd_error' (a.amount.val * r.rate.val)
  have i4 := rnd_error' (b.amount.val * r.rate.val)
  rw [← (convert_ok h2).2.2] at i2
  rw [← (convert_ok h3).2.2] at i3
  rw [← (convert_ok h4).2.2] at i4
  replace e1 := e1.2.1
  replace e5 := e5.2.1
  rw [show (2 : ℚ) ^ (-53 : ℤ) = u from rfl] at e1 e5
  generalize r.rate.val = R at *
  generalize a.amount.val = A at *
  generalize b.amount.val = B at *
  generalize s.amount.val = S at *
  generalize m.amount.val = M at *
  generalize n.amount.val = N at *
  generalize q.amount.val = Q at *
  generalize t.amount.val = T at *
  have hη : (2 : ℚ) ^ (-1072 : ℤ) = 8 * 2 ^ (-1075 : ℤ) := by rw [show (-1072 : ℤ) = 3 + (-1075) by norm_num, zpow_add₀ (by norm_num)]; norm_num
  have hη0 := zpos (-1075)
  rw [hη, show (2 : ℚ) ^ (-50 : ℤ) = 8 * u by unfold u; norm_num]
  generalize (2 : ℚ) ^ (-1075 : ℤ) = η at *
  have hX : 0 ≤ (|A| + |B|) * |R| := by positivity
  have hAB := abs_add_le A B
  have j1 : |S * R - (A + B) * R| ≤ u * ((|A| + |B|) * |R|) := by
    rw [← sub_mul, abs_mul, ← mul_assoc]
    exact mul_le_mul_of_nonneg_right (e1.trans (mul_le_mul_of_nonneg_left hAB hu.le)) (abs_nonneg _)
  have j2 : |(A + B) * R| ≤ (|A| + |B|) * |R| := by rw [abs_mul]; exact mul_le_mul_of_nonneg_right hAB (abs_nonneg _)
  have j3 : |S * R| ≤ (1 + u) * ((|A| + |B|) * |R|) := by
    have := abs_sub_abs_le_abs_sub (S * R) ((A + B) * R)
    linarith
  rw [abs_mul] at i3 i4
  have hMN : |M + N - (A + B) * R| ≤ u * ((|A| + |B|) * |R|) + 2 * η := by
    rw [show M + N - (A + B) * R = -((A * R - M) + (B * R - N)) by ring, abs_neg]
    refine (abs_add_le _ _).trans ?_
    linarith
  have j4 : |M + N| ≤ (1 + u) * ((|A| + |B|) * |R|) + 2 * η := by
    have := abs_sub_abs_le_abs_sub (M + N) ((A + B) * R)
    linarith
  have split : |Q - T| ≤ |S * R - Q| + |S * R - (A + B) * R| + |M + N - (A + B) * R| + |T - (M + N)| := by
    rw [show Q - T = -(S * R - Q) + (S * R - (A + B) * R) + -(M + N - (A + B) * R) + -(T - (M + N)) by ring]
    refine (abs_add_le _ _).trans ?_
    rw [abs_neg (T - (M + N))]
    refine add_le_add_left ((abs_add_le _ _).trans ?_) _
    rw [abs_neg (M + N - (A + B) * R)]
    refine add_le_add_left ((abs_add_le _ _).trans ?_) _
    rw [abs_neg]
  have k1 := mul_le_mul_of_nonneg_left j3 hu.le
  have k2 := mul_le_mul_of_nonneg_left j4 hu.le
  generalize (|A| + |B|) * |R| = X at *
  have k3 : u * (u * X) ≤ 1 / 2 ^ 50 * (u * X) := mul_le_mul_of_nonneg_right hu4 (mul_nonneg hu.le hX)
  have k4 : u * η ≤ 1 / 2 ^ 50 * η := mul_le_mul_of_nonneg_right hu4 hη0.le
  have k5 : 0 ≤ u * X := mul_nonneg hu.le hX
  norm_num at k3 k4
  nlinarith

/-- Dollars and euros, for examples. -/
def dollar : Currency := ⟨"US dollar", "$", ⟨"USD", "840"⟩, 100, 2⟩

def euro : Currency := ⟨"Euro", "€", ⟨"EUR", "978"⟩, 100, 2⟩

/-- The amount of a payment, for examples. -/
def Paid.amount : Paid → Option ℚ
  | .ok m => some m.amount.val
  | _ => none

theorem amount_some {p : Paid} {x : ℚ} (h : p.amount = some x) : ∃ m, p = .ok m ∧ m.amount.val = x := by
  cases p with
  | ok m => exact ⟨m, rfl, by simpa [Paid.amount] using h⟩
  | panic => cases h
  | notFinite => cases h

/-- The example of the documentation: 100 dollars at 0.85 are exactly 85 euros. -/
example : ((⟨dollar, euro, lit 0.85⟩ : Rate).convert ⟨dollar, lit 100⟩).amount = some 85 := by decide +kernel

/-- A chain of three conversions that meets the hypotheses of `C93_chain`. -/
example : ∃ m, convertAll [⟨dollar, euro, lit 0.85⟩, ⟨euro, dollar, lit 1.18⟩, ⟨dollar, euro, lit 0.9⟩] ⟨dollar, lit 100⟩ = .ok m ∧
    |m.amount.val - 100 * ((lit 0.85).val * ((lit 1.18).val * (lit 0.9).val))| ≤ 3 * 2 ^ (-52 : ℤ) * |100 * ((lit 0.85).val * ((lit 1.18).val * (lit 0.9).val))| := by
  have l100 : (lit 100).val = 100 := by decide +kernel
  have h : ∃ x, (convertAll [⟨dollar, euro, lit 0.85⟩, ⟨euro, dollar, lit 1.18⟩, ⟨dollar, euro, lit 0.9⟩] ⟨dollar, lit 100⟩).amount = some x :=
    Option.isSome_iff_exists.1 (by decide +kernel)
  obtain ⟨x, hx⟩ := h
  obtain ⟨m, hm, _⟩ := amount_some hx
  refine ⟨m, hm, ?_⟩
  have := ((C93_chain _ _ (by norm_num)).1 m hm).2 ⟨Or.inr (by decide +kernel), Or.inr (by decide +kernel), Or.inr (by decide +kernel), trivial⟩
  simpa [l100] using this

theorem toF64_eq {q : ℚ} {y : F64} (h : rnd q = y.val) : toF64 q = some y := by
  obtain ⟨r, h1, h2⟩ := toF64_isSome (x := q) (by rw [h]; exact y.fin)
  rw [h1, F64.ext (h2.trans h)]

theorem convert_eq (r x y : F64) (h : rnd (x.val * r.val) = y.val) : (⟨dollar, euro, r⟩ : Rate).convert ⟨dollar, x⟩ = .ok ⟨euro, y⟩ := by
  unfold Rate.convert
  rw [if_pos rfl]
  show Paid.of euro (toF64 (x.val * r.val)) = _
  rw [toF64_eq h]
  rfl

theorem add_eq (c : Currency) (x y z : F64) (h : rnd (x.val + y.val) = z.val) : (⟨c, x⟩ : Money).add ⟨c, y⟩ = .ok ⟨c, z⟩ := by
  unfold Money.add
  rw [if_pos rfl]
  show Paid.of c (toF64 (x.val + y.val)) = _
  rw [toF64_eq h]
  rfl

/-- C93 (defect): converting there and back at the rounded reciprocal rate need not give the amount back; converting the parts and adding
need not give what converting the sum gives; and three sums of money depend on the order in which they are added. -/
theorem C93_not_exact : (∃ r s : Rate, ∃ a : Money, s.rate.val = rnd (1 / r.rate.val) ∧ ∃ m, convertAll [r, s] a = .ok m ∧ m.amount.val ≠ a.amount.val) ∧
    (∃ r : Rate, ∃ a b s q m n t : Money, a.add b = .ok s ∧ r.convert s = .ok q ∧ r.convert a = .ok m ∧ r.convert b = .ok n ∧
      m.add n = .ok t ∧ q.amount.val ≠ t.amount.val) ∧
    (∃ a b c d e f g : Money, a.add b = .ok d ∧ d.add c = .ok e ∧ b.add c = .ok f ∧ a.add f = .ok g ∧ e.amount.val ≠ g.amount.val) := by
  refine ⟨⟨⟨dollar, euro, lit 0.85⟩, ⟨euro, dollar, lit (1 / (lit 0.85).val)⟩, ⟨dollar, lit 21⟩, by decide +kernel, ?_⟩,
    ⟨⟨dollar, euro, lit 0.85⟩, ⟨dollar, lit 1⟩, ⟨dollar, lit 6⟩, ⟨dollar, lit 7⟩, ⟨euro, lit (7 * (lit 0.85).val)⟩, ⟨euro, lit 0.85⟩,
      ⟨euro, lit (6 * (lit 0.85).val)⟩, ⟨euro, lit ((lit 0.85).val + (lit (6 * (lit 0.85).val)).val)⟩, ?_⟩,
    ⟨⟨dollar, lit 0.1⟩, ⟨dollar, lit 0.2⟩, ⟨dollar, lit 0.3⟩, ⟨dollar, lit ((lit 0.1).val + (lit 0.2).val)⟩,
      ⟨dollar, lit ((lit ((lit 0.1).val + (lit 0.2).val)).val + (lit 0.3).val)⟩, ⟨dollar, lit ((lit 0.2).val + (lit 0.3).val)⟩,
      ⟨dollar, lit ((lit 0.1).val + (lit ((lit 0.2).val + (lit 0.3).val)).val)⟩, ?_⟩⟩
  · have h : ∃ x, (convertAll [⟨dollar, euro, lit 0.85⟩, ⟨euro, dollar, lit (1 / (lit 0.85).val)⟩] ⟨dollar, lit 21⟩).amount = some x ∧ x ≠ (lit 21).val :=
      ⟨((convertAll [⟨dollar, euro, lit 0.85⟩, ⟨euro, dollar, lit (1 / (lit 0.85).val)⟩] ⟨dollar, lit 21⟩).amount).getD 0, by decide +kernel, by decide +kernel⟩
    obtain ⟨x, hx, hne⟩ := h
    obtain ⟨m, hm, e⟩ := amount_some hx
    exact ⟨m, hm, by rw [e]; exact hne⟩
  · refine ⟨add_eq _ _ _ _ ?_, convert_eq _ _ _ ?_, convert_eq _ _ _ ?_, convert_eq _ _ _ ?_, add_eq _ _ _ _ ?_, ?_⟩ <;> decide +kernel
  · refine ⟨add_eq _ _ _ _ ?_, add_eq _ _ _ _ ?_, add_eq _ _ _ _ ?_, add_eq _ _ _ _ ?_, ?_⟩ <;> decide +kernel

end Verif.Float
