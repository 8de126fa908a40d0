import Verif.Time.Utilities
import Verif.Time.CalendarLemmas
import Mathlib.Tactic.Linarith
import Mathlib.Tactic.FieldSimp
import Mathlib.Tactic.Ring
import Mathlib.Tactic.NormNum
import Mathlib.Algebra.Order.Field.Basic
import Mathlib.Algebra.BigOperators.Intervals
import Mathlib.Order.Interval.Finset.SuccPred
import Mathlib.Algebra.Order.BigOperators.Group.Finset

/-!
# C15–C18: day-count factors

Factors are exact rationals.
-/

namespace Verif.Time

/-! ## C15: Actual/x -/

/-- The five Actual/x conventions and their denominators. -/
def actualDenominator : DayCount → Option ℚ
  | .act360 => some 360
  | .act364 => some 364
  | .act365Fixed => some 365
  | .act36525 => some (1461 / 4)
  | .act366 => some 366
  | _ => none

/-- C15: an Actual/x factor is the signed number of days over the denominator. -/
theorem C15_formula (conv : DayCount) (den : ℚ) (h : actualDenominator conv = some den) (a b : Date) :
    conv.factor a b = some (((b.dayNum - a.dayNum : ℤ) : ℚ) / den) := by
  cases conv <;> simp only [actualDenominator, Option.some.injEq, reduceCtorEq] at h <;> subst h <;>
    simp only [DayCount.factor, wholeDays, Option.some.injEq]
  norm_num

theorem actualDenominator_pos {conv : DayCount} {den : ℚ} (h : actualDenominator conv = some den) : 0 < den := by
  cases conv <;> simp only [actualDenominator, Option.some.injEq, reduceCtorEq] at h <;> subst h <;> norm_num

/-- C15: zero on a point, antisymmetric, additive over any three dates, strictly monotone in the end date. -/
theorem C15_measure (conv : DayCount) (den : ℚ) (h : actualDenominator conv = some den) (a b c : Date)
    (fab fba fbc fac : ℚ) (hab : conv.factor a b = some fab) (hba : conv.factor b a = some fba)
    (hbc : conv.factor b c = some fbc) (hac : conv.factor a c = some fac) :
    conv.factor a a = some 0 ∧ fba = - fab ∧ fab + fbc = fac ∧ (fab < fac ↔ b < c) := by
  have hp := actualDenominator_pos h
  rw [C15_formula conv den h, Option.some.injEq] at hab hba hbc hac
  subst hab hba hbc hac
  refine ⟨by rw [C15_formula conv den h]; simp, by push_cast; ring, by push_cast; ring, ?_⟩
  rw [Date.lt_iff, div_lt_div_iff_of_pos_right hp]
  norm_cast
  omega

/-- Half a year, 2024-01-01 to 2024-07-01, is 182 days. -/
example : (Date.ofYMD 2024 1 1).bind (fun a => (Date.ofYMD 2024 7 1).bind (DayCount.act360.factor a))
    = some (182 / 360) := by decide +kernel

/-! ## C16: the 30/360 family -/

/-- The European day number: no day counts beyond 30. -/
def day30 (d : Date) : ℤ := min d.day 30

/-- The day number with the last day of any month (February included) counted as 30. -/
def dayEom (d : Date) : ℤ := if d.day = monthLength d.year d.month then 30 else d.day

theorem Date.day_bounds (d : Date) : 1 ≤ d.day ∧ d.day ≤ monthLength d.year d.month := ⟨d.valid.2.2.2.2.1, d.valid.2.2.2.2.2⟩

theorem monthLength_le (y : ℤ) (m : ℕ) : 28 ≤ monthLength y m ∧ monthLength y m ≤ 31 := by
  unfold monthLength
  split <;> (try split) <;> omega

theorem Date.day_le (d : Date) : d.day ≤ 31 := by
  have := d.day_bounds; have := monthLength_le d.year d.month; omega

theorem day30_eq (d : Date) : (if d.day = 31 then (30 : ℤ) else d.day) = day30 d := by
  have := d.day_le
  unfold day30
  split <;> omega

theorem isLastDayOfFebruary_iff (d : Date) :
    isLastDayOfFebruary d = true ↔ d.month = 2 ∧ d.day = monthLength d.year d.month := by
  unfold isLastDayOfFebruary monthLength
  cases h : isLeap d.year <;> by_cases hm : d.month = 2 <;> simp [hm]

/-- February adjustment: 30 for the 31st and for the last of February.  (A 30-day month ends on day 30 already.) -/
theorem febAdj_eq (d : Date) : febAdj d = dayEom d := by
  have h1 := d.day_bounds
  have h2 := monthLength_le d.year d.month
  unfold febAdj dayEom
  simp only [isLastDayOfFebruary_iff]
  by_cases h : d.day = monthLength d.year d.month
  · rw [if_pos h]
    by_cases hm : d.month = 2
    · rw [if_pos (Or.inr ⟨hm, h⟩)]
    · have : monthLength d.year d.month = 30 ∨ monthLength d.year d.month = 31 := by
        unfold monthLength; split <;> simp_all
      rcases this with h' | h'
      · rw [if_neg]
        · omega
        · rintro (h'' | h'')
          · omega
          · exact hm h''.1
      · rw [if_pos (Or.inl (by omega))]
  · rw [if_neg h, if_neg]
    rintro (h' | h')
    · omega
    · exact h h'.2

/-- Months counted as 30 days, years as 360: the 30-day calendar position of (year, month, adjusted day). -/
def pos30 (d : Date) (day : ℤ) : ℤ := 360 * d.year + 30 * d.month + day

/-- C16: closed forms of the six conventions.  The start and end days are adjusted as the conventions document. -/
theorem C16_formulas (a b : Date) :
    DayCount.thirtyE360.factor a b = some (((pos30 b (day30 b) - pos30 a (day30 a) : ℤ) : ℚ) / 360) ∧
    DayCount.thirtyE360ISDA.factor a b = some (((pos30 b (dayEom b) - pos30 a (dayEom a) : ℤ) : ℚ) / 360) ∧
    DayCount.thirtyE365.factor a b = some (((pos30 b (dayEom b) - pos30 a (dayEom a) : ℤ) : ℚ) / 365) ∧
    DayCount.thirty360ISDA.factor a b =
      some (((pos30 b (if day30 a = 30 then day30 b else b.day) - pos30 a (day30 a) : ℤ) : ℚ) / 360) ∧
    DayCount.thirtyU360.factor a b =
      some (((pos30 b (if isLastDayOfFebruary b = true then 30 else if dayEom a = 30 then day30 b else b.day)
        - pos30 a (dayEom a) : ℤ) : ℚ) / 360) := by
  have hb := b.day_le
  refine ⟨?_, ?_, ?_, ?_, ?_⟩
  · simp only [DayCount.factor, factor30E, thirtyNumerator, day30_eq, pos30]
    congr 3; ring
  · simp only [DayCount.factor, factor30EISDA, thirtyNumerator, febAdj_eq, pos30]
    congr 3; ring
  · simp only [DayCount.factor, factor30E365, thirtyNumerator, febAdj_eq, pos30]
    congr 3; ring
  · simp only [DayCount.factor, factor30ISDA, thirtyNumerator, day30_eq, pos30]
    have : (if day30 a = 30 ∧ b.day = 31 then (30 : ℤ) else b.day) = if day30 a = 30 then day30 b else b.day := by
      unfold day30; split <;> split <;> omega
    rw [this]
    congr 3; ring
  · simp only [DayCount.factor, factor30U, thirtyNumerator, febAdj_eq, pos30]
    have : (if (b.day = 31 ∧ dayEom a = 30) ∨ isLastDayOfFebruary b = true then (30 : ℤ) else b.day)
        = if isLastDayOfFebruary b = true then 30 else if dayEom a = 30 then day30 b else b.day := by
      by_cases hl : isLastDayOfFebruary b = true
      · simp [hl]
      · by_cases he : dayEom a = 30
        · simp only [hl, he, and_true, or_false, if_false, if_true, ← day30_eq, Bool.false_eq_true]
        · simp [hl, he]
    rw [this]
    congr 3; ring

/-- C16: 30E+/360 counts an end day of 31 as the first of the next month, that is as day 31; it panics exactly for
9999-12-31. -/
theorem C16_e_plus (a b : Date) :
    (b.dayNum ≠ maxDay → DayCount.thirtyEPlus360.factor a b
      = some (((pos30 b b.day - pos30 a (day30 a) : ℤ) : ℚ) / 360)) ∧
    (DayCount.thirtyEPlus360.factor a b = none ↔ b.dayNum = maxDay) := by
  have key : (b.day = 31 → ∀ n, b.nextDay = some n → 360 * n.year + 30 * (n.month : ℤ) + n.day = pos30 b b.day) := by
    intro h31 n hn
    have hb := b.day_bounds
    have hl := monthLength_le b.year b.month
    rw [Date.nextDay_triple, if_neg (by omega)] at hn
    have hm := b.valid.2.2.2.1
    have hm0 := b.valid.2.2.1
    unfold pos30
    split at hn
    · rw [Date.ofYMD_eq_some] at hn; obtain ⟨e1, e2, e3⟩ := hn; rw [e1, e2, e3, h31]; push_cast; ring
    · rw [Date.ofYMD_eq_some] at hn; obtain ⟨e1, e2, e3⟩ := hn
      rw [e1, e2, e3, h31, (by omega : b.month = 12)]; push_cast; ring
  have hmax : b.dayNum = maxDay → b.day = 31 := by
    intro h
    have hy : b.year = 9999 := by
      have := b.ordinal_le
      have h3 := b.valid.2.1
      by_contra hc
      have := daysBeforeYear_mono (show b.year < 9999 by omega)
      have e : daysBeforeYear 9999 + daysInYear 9999 = maxDay := by decide
      have e' : (0 : ℤ) < daysInYear 9999 := by decide
      unfold Date.dayNum at h
      omega
    have hd : b = ⟨9999, 12, 31, by decide⟩ := Date.dayNum_inj (by rw [h]; decide)
    rw [hd]
  have hnone : b.nextDay = none ↔ b.dayNum = maxDay := by
    unfold Date.nextDay Date.addDays
    rw [Date.ofDay_none_iff]
    have := b.dayNum_range
    omega
  simp only [DayCount.factor, factor30EPlus, day30_eq, thirtyNumerator]
  constructor
  · intro hne
    by_cases h : b.day = 31
    · rw [if_pos h]
      obtain ⟨n, hn⟩ := Option.ne_none_iff_exists'.1 (fun hc => hne (hnone.1 hc))
      rw [hn, Option.map_some]
      have := key h n hn
      rw [← this]
      unfold pos30
      congr 3; ring
    · rw [if_neg h]
      unfold pos30
      congr 3; ring
  · by_cases h : b.day = 31
    · rw [if_pos h, Option.map_eq_none_iff, hnone]
    · rw [if_neg h]
      simp only [reduceCtorEq, false_iff]
      exact fun hc => h (hmax hc)

/-- C16: 30E/360, 30E/360 ISDA and 30E/365 are additive and antisymmetric, and never decrease when the end date moves
later. -/
theorem C16_measure (conv : DayCount) (hc : conv = .thirtyE360 ∨ conv = .thirtyE360ISDA ∨ conv = .thirtyE365)
    (a b c : Date) (fab fba fbc fac : ℚ) (hab : conv.factor a b = some fab) (hba : conv.factor b a = some fba)
    (hbc : conv.factor b c = some fbc) (hac : conv.factor a c = some fac) :
    fba = - fab ∧ fab + fbc = fac ∧ (b ≤ c → fab ≤ fac) := by
  have mono : ∀ (g : Date → ℤ), (∀ d, 1 ≤ g d ∧ g d ≤ 30) →
      (∀ d e : Date, d.year = e.year → d.month = e.month → d.day ≤ e.day → g d ≤ g e) →
      b ≤ c → pos30 b (g b) ≤ pos30 c (g c) := by
    intro g g1 g2 hle
    have hb := g1 b
    have hc := g1 c
    have vb := b.valid
    have vc := c.valid
    unfold ValidYMD at vb vc
    unfold pos30
    rcases hle with (h | ⟨h1, h2⟩) | h
    · omega
    · unfold Date.ordinal at h2
      rw [← h1] at h2
      rcases Nat.lt_trichotomy b.month c.month with h | h | h
      · omega
      · have := g2 b c h1 h (by rw [h] at h2; omega); omega
      · have := daysBeforeMonth_mono (y := b.year) vc.2.2.1 h vb.2.2.2.1
        rw [← h1] at vc
        omega
    · rw [h]
  have g30 : ∀ d : Date, 1 ≤ day30 d ∧ day30 d ≤ 30 := by
    intro d; have := d.day_bounds; unfold day30; omega
  have gE : ∀ d : Date, 1 ≤ dayEom d ∧ dayEom d ≤ 30 := by
    intro d; have := d.day_bounds; have := monthLength_le d.year d.month; unfold dayEom; split <;> omega
  obtain ⟨-, -, -, -, -⟩ := C16_formulas a b
  rcases hc with rfl | rfl | rfl
  · rw [(C16_formulas _ _).1, Option.some.injEq] at hab hba hbc hac
    subst hab hba hbc hac
    refine ⟨by push_cast; ring, by push_cast; ring, fun h => ?_⟩
    have := mono day30 g30 (fun d e h1 h2 h3 => by unfold day30; omega) h
    rw [div_le_div_iff_of_pos_right (by norm_num)]
    norm_cast; omega
  · rw [(C16_formulas _ _).2.1, Option.some.injEq] at hab hba hbc hac
    subst hab hba hbc hac
    refine ⟨by push_cast; ring, by push_cast; ring, fun h => ?_⟩
    have := mono dayEom gE (fun d e h1 h2 h3 => by
      have hd := d.day_bounds; have he := e.day_bounds
      have := gE d
      unfold dayEom at this ⊢
      rw [h1, h2] at hd this ⊢
      split at this <;> split <;> omega) h
    rw [div_le_div_iff_of_pos_right (by norm_num)]
    norm_cast; omega
  · rw [(C16_formulas _ _).2.2.1, Option.some.injEq] at hab hba hbc hac
    subst hab hba hbc hac
    refine ⟨by push_cast; ring, by push_cast; ring, fun h => ?_⟩
    have := mono dayEom gE (fun d e h1 h2 h3 => by
      have hd := d.day_bounds; have he := e.day_bounds
      have := gE d
      unfold dayEom at this ⊢
      rw [h1, h2] at hd this ⊢
      split at this <;> split <;> omega) h
    rw [div_le_div_iff_of_pos_right (by norm_num)]
    norm_cast; omega

theorem dayEom_eq {a b : Date} (hm : a.month = b.month) (hd : a.day = b.day) (h28 : ¬ (a.month = 2 ∧ 28 ≤ a.day)) :
    dayEom a = dayEom b := by
  have ha := a.day_bounds
  have hb := b.day_bounds
  unfold dayEom
  rw [hm, hd]
  have : b.month ≠ 2 ∨ b.day < 28 := by rw [← hm, ← hd]; omega
  rcases this with h | h
  · have : monthLength a.year b.month = monthLength b.year b.month := by
      unfold monthLength; split <;> simp_all
    rw [this]
  · have := (monthLength_le b.year b.month).1
    have := (monthLength_le a.year b.month).1
    rw [if_neg (by omega), if_neg (by omega)]

/-- C16: for dates with the same day and month (28 and 29 February aside), `n` years count exactly `n` in every /360
variant but 30E+/360 (for which see `C16_whole_years_rest`). -/
theorem C16_whole_years (conv : DayCount) (hc : conv = .thirtyE360 ∨ conv = .thirtyE360ISDA ∨ conv = .thirty360ISDA ∨
      conv = .thirtyU360) (a b : Date) (hm : a.month = b.month) (hd : a.day = b.day) (h28 : ¬ (a.month = 2 ∧ 28 ≤ a.day)) :
    conv.factor a b = some ((b.year - a.year : ℤ) : ℚ) := by
  have hlb : isLastDayOfFebruary b = false := by
    rw [Bool.eq_false_iff, Ne, isLastDayOfFebruary_iff]
    rintro ⟨h1, h2⟩
    have := (monthLength_le b.year b.month).1
    exact h28 ⟨hm.trans h1, by omega⟩
  have hE : dayEom a = dayEom b := dayEom_eq hm hd h28
  have h30 : day30 a = day30 b := by unfold day30; rw [hd]
  have aux : ∀ x : ℤ, ((pos30 b x - pos30 a x : ℤ) : ℚ) / 360 = ((b.year - a.year : ℤ) : ℚ) := by
    intro x; unfold pos30; rw [hm]; push_cast; ring
  have hday : day30 b ≠ 30 → (b.day : ℤ) = day30 b := by unfold day30; omega
  rcases hc with rfl | rfl | rfl | rfl
  · rw [(C16_formulas a b).1, h30, aux]
  · rw [(C16_formulas a b).2.1, hE, aux]
  · rw [(C16_formulas a b).2.2.2.1, h30]
    split
    · rw [aux]
    · rename_i h; rw [hday h, aux]
  · rw [(C16_formulas a b).2.2.2.2, hlb, hE]
    simp only [Bool.false_eq_true, if_false]
    have hEb : dayEom b = day30 b := by
      have hb := b.day_bounds
      have : b.month ≠ 2 ∨ b.day < 28 := by rw [← hm, ← hd]; omega
      unfold dayEom day30
      split
      · rename_i h
        rcases this with h' | h'
        · have : monthLength b.year b.month = 30 ∨ monthLength b.year b.month = 31 := by
            unfold monthLength; split <;> simp_all
          omega
        · have := (monthLength_le b.year b.month).1; omega
      · rename_i h
        have := (monthLength_le b.year b.month).2
        omega
    split
    · rename_i h; rw [← hEb, aux]
    · rename_i h; rw [hEb] at h; rw [hday h, hEb, aux]

/-- C16: for dates with the same day and month, 28 and 29 February included, `n` years count exactly `n` in 30E/360 and
30/360 ISDA; `n` times 360/365 in 30E/365 (28 and 29 February aside); and `n` in 30E+/360, plus one 360th from a 31st
to a 31st. -/
theorem C16_whole_years_rest (a b : Date) (hm : a.month = b.month) (hd : a.day = b.day) :
    DayCount.thirtyE360.factor a b = some ((b.year - a.year : ℤ) : ℚ) ∧
    DayCount.thirty360ISDA.factor a b = some ((b.year - a.year : ℤ) : ℚ) ∧
    (¬ (a.month = 2 ∧ 28 ≤ a.day) →
      DayCount.thirtyE365.factor a b = some (((b.year - a.year : ℤ) : ℚ) * (360 / 365))) ∧
    (b.dayNum ≠ maxDay → DayCount.thirtyEPlus360.factor a b =
      some (((b.year - a.year : ℤ) : ℚ) + (if a.day = 31 then 1 / 360 else 0))) := by
  have h30 : day30 a = day30 b := by unfold day30; rw [hd]
  have aux : ∀ x : ℤ, ((pos30 b x - pos30 a x : ℤ) : ℚ) / 360 = ((b.year - a.year : ℤ) : ℚ) := by
    intro x; unfold pos30; rw [hm]; push_cast; ring
  have hday : day30 b ≠ 30 → (b.day : ℤ) = day30 b := by unfold day30; omega
  refine ⟨?_, ?_, fun h28 => ?_, fun hmax => ?_⟩
  · rw [(C16_formulas a b).1, h30, aux]
  · rw [(C16_formulas a b).2.2.2.1, h30]
    split
    · rw [aux]
    · rename_i h
      rw [hday h, aux]
  · rw [(C16_formulas a b).2.2.1, dayEom_eq hm hd h28]
    congr 1
    unfold pos30; rw [hm]; push_cast; ring
  · rw [(C16_e_plus a b).1 hmax]
    congr 1
    have h31 := (monthLength_le a.year a.month).2
    have hab := a.day_bounds
    have h3 : a.day ≤ 31 := by omega
    by_cases hc : a.day = 31
    · rw [if_pos hc]
      unfold pos30 day30
      rw [hm, ← hd, hc]
      push_cast
      norm_num
      ring
    · rw [if_neg hc]
      have e : day30 a = (b.day : ℤ) := by unfold day30; omega
      rw [e, aux, add_zero]

/-- C16: away from month ends all five /360 variants agree. -/
theorem C16_agree (a b : Date) (ha : a.day ≤ 27) (hb : b.day ≤ 27) (conv : DayCount)
    (hc : conv = .thirtyE360 ∨ conv = .thirtyE360ISDA ∨ conv = .thirty360ISDA ∨ conv = .thirtyU360 ∨
      conv = .thirtyEPlus360) :
    conv.factor a b = some ((360 * ((b.year : ℚ) - a.year) + 30 * ((b.month : ℚ) - a.month) + ((b.day : ℚ) - a.day)) / 360) := by
  have la := (monthLength_le a.year a.month).1
  have lb := (monthLength_le b.year b.month).1
  have hlb : isLastDayOfFebruary b = false := by
    rw [Bool.eq_false_iff, Ne, isLastDayOfFebruary_iff]; omega
  have e1 : day30 a = a.day := by unfold day30; omega
  have e2 : day30 b = b.day := by unfold day30; omega
  have e3 : dayEom a = a.day := by unfold dayEom; rw [if_neg (by omega)]
  have e4 : dayEom b = b.day := by unfold dayEom; rw [if_neg (by omega)]
  have fin : ((pos30 b b.day - pos30 a a.day : ℤ) : ℚ) / 360
      = (360 * ((b.year : ℚ) - a.year) + 30 * ((b.month : ℚ) - a.month) + ((b.day : ℚ) - a.day)) / 360 := by
    unfold pos30; push_cast; ring
  have a30 : ¬ ((a.day : ℤ) = 30) := by omega
  rcases hc with rfl | rfl | rfl | rfl | rfl
  · rw [(C16_formulas a b).1, e1, e2, fin]
  · rw [(C16_formulas a b).2.1, e3, e4, fin]
  · rw [(C16_formulas a b).2.2.2.1, e1, if_neg a30, fin]
  · rw [(C16_formulas a b).2.2.2.2, e3, hlb, if_neg a30]
    simp only [Bool.false_eq_true, if_false]
    rw [fin]
  · rw [(C16_e_plus a b).1, e1, fin]
    intro hmax
    have h9 : b = ⟨9999, 12, 31, by decide⟩ := Date.dayNum_inj (by rw [hmax]; decide)
    rw [h9] at hb
    revert hb; decide

/-- C16: 30/360 ISDA and 30U/360 are not additive: from 2024-01-15 via 2024-01-31 to 2024-02-15. -/
theorem C16_not_additive (a b c : Date) (ha : a = ⟨2024, 1, 15, by decide⟩) (hb : b = ⟨2024, 1, 31, by decide⟩)
    (hc : c = ⟨2024, 2, 15, by decide⟩) :
    DayCount.thirty360ISDA.factor a b = some (16 / 360) ∧ DayCount.thirty360ISDA.factor b c = some (15 / 360) ∧
      DayCount.thirty360ISDA.factor a c = some (30 / 360) ∧ DayCount.thirtyU360.factor a b = some (16 / 360) ∧
      DayCount.thirtyU360.factor b c = some (15 / 360) ∧ DayCount.thirtyU360.factor a c = some (30 / 360) := by
  subst ha hb hc; decide +kernel

/-- The end of February 2023 to 30 May 2023 under the variants: 92/360 and 90/360. -/
example (a b : Date) (ha : a = ⟨2023, 2, 28, by decide⟩) (hb : b = ⟨2023, 5, 30, by decide⟩) :
    DayCount.thirtyE360.factor a b = some (92 / 360) ∧ DayCount.thirtyE360ISDA.factor a b = some (90 / 360) := by
  subst ha hb; decide +kernel

/-! ## C17: Actual/Actual ISDA -/

/-- How many days of `[a, b)` lie in calendar year `y`. -/
def daysInYearOf (a b : Date) (y : ℤ) : ℕ :=
  ((Finset.Ico a.dayNum b.dayNum).filter fun n => daysBeforeYear y < n ∧ n ≤ daysBeforeYear (y + 1)).card

/-- Time in years: the year plus the elapsed fraction of it. -/
def yearPos (d : Date) : ℚ := d.year + ((d.ordinal : ℚ) - 1) / daysInYear d.year

theorem daysInYear_cast (y : ℤ) : (if isLeap y then (366 : ℚ) else 365) = (daysInYear y : ℚ) := by
  unfold daysInYear; split <;> norm_num

theorem daysInYear_pos (y : ℤ) : (0 : ℚ) < daysInYear y := by unfold daysInYear; split <;> norm_num

theorem jan1_dayNum {y : ℤ} {j : Date} (h : Date.ofYMD y 1 1 = some j) : j.dayNum = daysBeforeYear y + 1 := by
  rw [Date.ofYMD_eq_some] at h
  obtain ⟨h1, h2, h3⟩ := h
  unfold Date.dayNum Date.ordinal
  rw [h1, h2, h3]; rfl

/-- C17: the factor is the difference of the positions on the time axis in years, for dates in either order; it panics
exactly when the start is in year 9999 and the dates differ. -/
theorem C17_formula (a b : Date) :
    (a = b ∨ a.year ≠ 9999 → DayCount.actActISDA.factor a b = some (yearPos b - yearPos a)) ∧
    (DayCount.actActISDA.factor a b = none ↔ a ≠ b ∧ a.year = 9999) := by
  simp only [DayCount.factor, factorISDA]
  by_cases hab : a = b
  · subst hab; simp
  simp only [hab, if_false, false_or]
  obtain ⟨a1, a2, -⟩ := a.valid
  obtain ⟨b1, b2, -⟩ := b.valid
  have hj2 : ∃ j, Date.ofYMD b.year 1 1 = some j :=
    ⟨⟨b.year, 1, 1, by refine ⟨b1, b2, by omega, by omega, by omega, ?_⟩; simp [monthLength]⟩, by
      rw [Date.ofYMD_eq_some]; exact ⟨rfl, rfl, rfl⟩⟩
  obtain ⟨j2, hj2⟩ := hj2
  constructor
  · intro hy
    have hj1 : ∃ j, Date.ofYMD (a.year + 1) 1 1 = some j :=
      ⟨⟨a.year + 1, 1, 1, by refine ⟨by omega, by omega, by omega, by omega, by omega, ?_⟩; simp [monthLength]⟩, by
        rw [Date.ofYMD_eq_some]; exact ⟨rfl, rfl, rfl⟩⟩
    obtain ⟨j1, hj1⟩ := hj1
    rw [hj1, Option.bind_some, hj2, Option.map_some]
    have n1 := jan1_dayNum hj1
    have n2 := jan1_dayNum hj2
    rw [daysBeforeYear_succ] at n1
    have oa := a.ordinal_le
    have ob := b.ordinal_pos
    have e1 : daysBetween a j1 = (daysInYear a.year : ℤ) - (a.ordinal - 1) := by
      unfold daysBetween; rw [n1]; unfold Date.dayNum; rw [abs_of_nonneg (by omega)]; omega
    have e2 : daysBetween j2 b = (b.ordinal : ℤ) - 1 := by
      unfold daysBetween; rw [n2]; unfold Date.dayNum; rw [abs_of_nonneg (by omega)]; omega
    rw [e1, e2, daysInYear_cast, daysInYear_cast]
    have pa := daysInYear_pos a.year
    have pb := daysInYear_pos b.year
    unfold yearPos
    congr 1
    push_cast
    field_simp
    ring
  · constructor
    · intro h
      refine ⟨hab, ?_⟩
      by_contra hy
      have hv : ValidYMD (a.year + 1) 1 1 := by
        refine ⟨by omega, by omega, by omega, by omega, by omega, ?_⟩; simp [monthLength]
      rw [Date.ofYMD, dif_pos hv, Option.bind_some, hj2, Option.map_some] at h
      cases h
    · rintro ⟨_, hy⟩
      rw [hy, Date.ofYMD, dif_neg (by unfold ValidYMD; omega)]
      rfl

theorem daysInYearOf_eq (a b : Date) (y : ℤ) : (daysInYearOf a b y : ℤ) =
    max 0 (min b.dayNum (daysBeforeYear (y + 1) + 1) - max a.dayNum (daysBeforeYear y + 1)) := by
  have : (Finset.Ico a.dayNum b.dayNum).filter (fun n => daysBeforeYear y < n ∧ n ≤ daysBeforeYear (y + 1))
      = Finset.Ico (max a.dayNum (daysBeforeYear y + 1)) (min b.dayNum (daysBeforeYear (y + 1) + 1)) := by
    ext x; simp only [Finset.mem_filter, Finset.mem_Ico]; omega
  unfold daysInYearOf
  rw [this, Int.card_Ico]
  omega

/-- C17: for ordered dates the factor is the sum over calendar years of (days of `[a, b)` in that year) / (length of
that year). -/
theorem C17_split_by_year (a b : Date) (hab : a ≤ b) (f : ℚ) (h : DayCount.actActISDA.factor a b = some f) :
    f = ∑ y ∈ Finset.Icc a.year b.year, (daysInYearOf a b y : ℚ) / daysInYear y := by
  have hf : f = yearPos b - yearPos a := by
    have : ¬ (a ≠ b ∧ a.year = 9999) := by
      rw [← (C17_formula a b).2, h]; simp
    have := (C17_formula a b).1 (by by_cases e : a = b <;> [exact Or.inl e; exact Or.inr fun h9 => this ⟨e, h9⟩])
    rw [h] at this; exact Option.some.inj this
  rw [hf]
  rw [Date.le_iff] at hab
  have oa := a.ordinal_le
  have oa' := a.ordinal_pos
  have ob := b.ordinal_le
  have ob' := b.ordinal_pos
  have sa := daysBeforeYear_succ a.year
  have sb := daysBeforeYear_succ b.year
  have pa := daysInYear_pos a.year
  have pb := daysInYear_pos b.year
  have hy : a.year ≤ b.year := by
    rcases Date.le_iff.2 hab with (h' | ⟨h', _⟩) | h'
    · omega
    · omega
    · rw [h']
  have hcast : ∀ y, (daysInYearOf a b y : ℚ) = ((daysInYearOf a b y : ℤ) : ℚ) := fun y => by push_cast; rfl
  rcases Int.lt_or_eq_of_le hy with hlt | heq
  · have hsplit : Finset.Icc a.year b.year = insert a.year (insert b.year (Finset.Ioo a.year b.year)) := by
      ext x; simp only [Finset.mem_insert, Finset.mem_Icc, Finset.mem_Ioo]; omega
    rw [hsplit, Finset.sum_insert (by simp; omega), Finset.sum_insert (by simp)]
    have hmid : ∑ y ∈ Finset.Ioo a.year b.year, (daysInYearOf a b y : ℚ) / daysInYear y
        = ((b.year - a.year - 1 : ℤ) : ℚ) := by
      rw [Finset.sum_congr rfl (g := fun _ => (1 : ℚ))]
      · rw [Finset.sum_const, Int.card_Ioo, nsmul_eq_mul, mul_one]
        have : (((b.year - a.year - 1).toNat : ℤ)) = b.year - a.year - 1 := by omega
        exact_mod_cast congrArg (Int.cast : ℤ → ℚ) this
      · intro y hyy
        rw [Finset.mem_Ioo] at hyy
        have m1 := daysBeforeYear_mono hyy.1
        have m2 := daysBeforeYear_mono hyy.2
        have s := daysBeforeYear_succ y
        have hq : (daysInYearOf a b y : ℤ) = daysInYear y := by
          rw [daysInYearOf_eq]
          unfold Date.dayNum
          omega
        rw [hcast, hq]
        have := daysInYear_pos y
        push_cast
        field_simp
    rw [hmid]
    have m := daysBeforeYear_mono hlt
    have qa : (daysInYearOf a b a.year : ℤ) = daysInYear a.year - (a.ordinal - 1) := by
      rw [daysInYearOf_eq]; unfold Date.dayNum; omega
    have qb : (daysInYearOf a b b.year : ℤ) = (b.ordinal - 1) := by
      rw [daysInYearOf_eq]; unfold Date.dayNum; omega
    rw [hcast a.year, hcast b.year, qa, qb]
    unfold yearPos
    push_cast
    field_simp
    ring
  · rw [← heq, Finset.Icc_self, Finset.sum_singleton]
    have q : (daysInYearOf a b a.year : ℤ) = b.ordinal - a.ordinal := by
      rw [daysInYearOf_eq]; unfold Date.dayNum at hab ⊢; rw [← heq] at ob sb hab ⊢; omega
    rw [hcast, q]
    unfold yearPos
    rw [← heq]
    push_cast
    field_simp
    ring

/-- C17: additive over any three dates and antisymmetric (start dates before year 9999). -/
theorem C17_measure (a b c : Date) (ha : a.year ≠ 9999) (hb : b.year ≠ 9999) (fab fba fbc fac : ℚ)
    (hab : DayCount.actActISDA.factor a b = some fab) (hba : DayCount.actActISDA.factor b a = some fba)
    (hbc : DayCount.actActISDA.factor b c = some fbc) (hac : DayCount.actActISDA.factor a c = some fac) :
    fba = - fab ∧ fab + fbc = fac ∧ (a < b → 0 < fab) := by
  rw [(C17_formula _ _).1 (Or.inr ha), Option.some.injEq] at hab hac
  rw [(C17_formula _ _).1 (Or.inr hb), Option.some.injEq] at hba hbc
  subst hab hba hbc hac
  refine ⟨by ring, by ring, fun hlt => ?_⟩
  have pa := daysInYear_pos a.year
  have pb := daysInYear_pos b.year
  have oa : (a.ordinal : ℚ) ≤ daysInYear a.year := by exact_mod_cast a.ordinal_le
  have ob : (1 : ℚ) ≤ b.ordinal := by exact_mod_cast b.ordinal_pos
  unfold yearPos
  rcases hlt with h | ⟨h1, h2⟩
  · have hy : (a.year : ℚ) + 1 ≤ b.year := by exact_mod_cast h
    have t1 : ((a.ordinal : ℚ) - 1) / daysInYear a.year < 1 := by rw [div_lt_one pa]; linarith
    have t2 : 0 ≤ ((b.ordinal : ℚ) - 1) / daysInYear b.year := div_nonneg (by linarith) pb.le
    linarith
  · rw [h1] at pa ⊢
    have : (a.ordinal : ℚ) < b.ordinal := by exact_mod_cast h2
    have := div_lt_div_of_pos_right (sub_lt_sub_right this 1) pb
    linarith

/-- 2023-07-01 to 2024-07-01 is 184/365 + 182/366. -/
example (a b : Date) (ha : a = ⟨2023, 7, 1, by decide⟩) (hb : b = ⟨2024, 7, 1, by decide⟩) :
    DayCount.actActISDA.factor a b = some (184 / 365 + 182 / 366) := by
  subst ha hb; decide +kernel

/-! ## C18: leap-sensitive conventions -/

/-- The number of leap years among the calendar years from `a` to `b`, both included. -/
def leapYearsTouched (a b : Date) : ℕ := ((Finset.Icc a.year b.year).filter fun y => isLeap y = true).card

/-- Number of 29ths of February in the interval `(a, b]`. -/
def leapDaysIn (a b : Date) : ℕ :=
  ((Finset.Ioc a.dayNum b.dayNum).filter fun n => (civil n).2 = (2, 29)).card

theorem yearsInRange_filter (a b : Date) :
    leapYearCount a b = leapYearsTouched a b := by
  unfold leapYearCount leapYearsTouched yearsInRange
  have hnd : ((List.range (b.year - a.year + 1).toNat).map fun (i : ℕ) => a.year + (i : ℤ)).Nodup := by
    refine List.Nodup.map ?_ List.nodup_range
    intro i j h
    simp only [add_right_inj, Nat.cast_inj] at h
    exact h
  rw [← List.toFinset_card_of_nodup (hnd.filter _)]
  congr 1
  ext y
  simp only [List.mem_toFinset, List.mem_filter, List.mem_map, List.mem_range, Finset.mem_filter, Finset.mem_Icc]
  constructor
  · rintro ⟨⟨i, hi, rfl⟩, h⟩; exact ⟨by omega, h⟩
  · rintro ⟨⟨h1, h2⟩, h⟩; exact ⟨⟨(y - a.year).toNat, by omega, by omega⟩, h⟩

theorem containsLeapYear_iff (a b : Date) : containsLeapYear a b = true ↔ 0 < leapYearsTouched a b := by
  rw [← yearsInRange_filter]
  unfold containsLeapYear leapYearCount
  rw [List.any_eq_true, List.length_pos_iff_exists_mem]
  simp [List.mem_filter]

/-- C18: NL/360 and NL/365 subtract the number of leap years touched; 365L and 365A divide by 366 iff a leap year is
touched. -/
theorem C18_formulas (a b : Date) :
    DayCount.nl360.factor a b = some ((((b.dayNum - a.dayNum : ℤ) : ℚ) - leapYearsTouched a b) / 360) ∧
    DayCount.nl365.factor a b = some ((((b.dayNum - a.dayNum : ℤ) : ℚ) - leapYearsTouched a b) / 365) ∧
    (DayCount.act365Leap.factor a b = some (((b.dayNum - a.dayNum : ℤ) : ℚ) /
      (if 0 < leapYearsTouched a b then 366 else 365))) ∧
    (DayCount.act365Actual.factor a b = DayCount.act365Leap.factor a b) := by
  have h := containsLeapYear_iff a b
  simp only [DayCount.factor, wholeDays, yearsInRange_filter]
  refine ⟨trivial, trivial, ?_, trivial⟩
  cases hc : containsLeapYear a b
  · rw [hc] at h
    rw [if_neg (by simp), if_neg (by rw [← h]; simp)]
  · rw [hc] at h
    rw [if_pos rfl, if_pos (h.1 rfl)]

/-- C18: the documented leap-day semantics fails.  On every empty interval in a leap year NL/365 is negative. -/
theorem C18_nl_same_day (a : Date) (h : isLeap a.year = true) :
    DayCount.nl365.factor a a = some (-1 / 365) ∧ leapDaysIn a a = 0 := by
  refine ⟨?_, by simp [leapDaysIn]⟩
  rw [(C18_formulas a a).2.1]
  have : leapYearsTouched a a = 1 := by simp [leapYearsTouched, h, Finset.filter_singleton]
  rw [this]
  simp

/-- C18: an interval of 184 days in 2024 that contains no 29 February is counted as 183 days by NL/365 and is divided
by 366 by 365A and 365L. -/
theorem C18_leap_day_defect (a b : Date) (ha : a = ⟨2024, 7, 1, by decide⟩) (hb : b = ⟨2024, 12, 31, by decide⟩) :
    leapDaysIn a b = 0 ∧ DayCount.act365Fixed.factor a b = some (183 / 365) ∧
      DayCount.nl365.factor a b = some (182 / 365) ∧ DayCount.act365Leap.factor a b = some (183 / 366) := by
  subst ha hb; decide +kernel

/-- C18: the AFB stub.  `Actual/Actual AFB` panics exactly when the end is 29 February and the start year is not a leap
year, or the anniversary in the start year precedes the start and the next year cannot hold it (not a leap year for
29 February, or beyond 9999). -/
theorem C18_afb_panics_iff (a b : Date) :
    DayCount.actActAFB.factor a b = none ↔
      ((b.month = 2 ∧ b.day = 29 ∧ isLeap a.year = false) ∨
       ((b.month < a.month ∨ (b.month = a.month ∧ b.day < a.day)) ∧
         (a.year = 9999 ∨ (b.month = 2 ∧ b.day = 29 ∧ isLeap (a.year + 1) = false)))) := by
  obtain ⟨a1, a2, a3, a4, a5, a6⟩ := a.valid
  obtain ⟨b1, b2, b3, b4, b5, b6⟩ := b.valid
  have hv : ∀ y : ℤ, -9999 ≤ y → y ≤ 9999 →
      (ValidYMD y b.month b.day ↔ ¬ (b.month = 2 ∧ b.day = 29 ∧ isLeap y = false)) := by
    intro y hy1 hy2
    unfold ValidYMD
    by_cases hm : b.month = 2
    · rw [hm] at b6 ⊢
      simp only [monthLength] at b6 ⊢
      cases hl : isLeap y
      · simp only [Bool.false_eq_true, if_false, and_true, true_and]
        split at b6 <;> omega
      · simp only [if_true]
        split at b6 <;> simp only [reduceCtorEq, and_false, not_false_eq_true, iff_true] <;> omega
    · have : monthLength y b.month = monthLength b.year b.month := by
        unfold monthLength; split <;> simp_all
      rw [this]; simp [hm]; omega
  simp only [DayCount.factor, factorAFB]
  by_cases h1 : b.month = 2 ∧ b.day = 29 ∧ isLeap a.year = false
  · have : Date.ofYMD a.year b.month b.day = none := by
      unfold Date.ofYMD; rw [dif_neg]; rw [hv _ a1 a2]; exact fun hc => hc h1
    rw [this]
    simp only [Option.bind_none, true_iff]
    exact Or.inl h1
  · have hva : ValidYMD a.year b.month b.day := (hv _ a1 a2).2 h1
    have hs : Date.ofYMD a.year b.month b.day = some ⟨a.year, b.month, b.day, hva⟩ := by
      unfold Date.ofYMD; rw [dif_pos hva]
    rw [hs, Option.bind_some, Option.map_eq_none_iff]
    simp only [h1, false_or]
    have hlt : (⟨a.year, b.month, b.day, hva⟩ : Date) < a ↔
        (b.month < a.month ∨ (b.month = a.month ∧ b.day < a.day)) := by
      constructor
      · rintro (h | ⟨_, h⟩)
        · exact absurd h (lt_irrefl _)
        · unfold Date.ordinal at h
          simp only at h
          rcases Nat.lt_trichotomy b.month a.month with h' | h' | h'
          · exact Or.inl h'
          · rw [h'] at h; exact Or.inr ⟨h', by omega⟩
          · have := daysBeforeMonth_mono (y := a.year) a3 h' b4; omega
      · intro h
        refine Or.inr ⟨rfl, ?_⟩
        unfold Date.ordinal
        simp only
        rcases h with h' | ⟨h', h''⟩
        · have := daysBeforeMonth_mono (y := a.year) b3 h' a4
          have := hva.2.2.2.2.2
          omega
        · rw [h']; omega
    by_cases h2 : (⟨a.year, b.month, b.day, hva⟩ : Date) < a
    · rw [if_pos h2]
      simp only [hlt.1 h2, true_and]
      by_cases h9 : a.year = 9999
      · have : Date.ofYMD (a.year + 1) b.month b.day = none := by
          unfold Date.ofYMD; rw [dif_neg]; unfold ValidYMD; omega
        rw [this]
        simp only [true_iff]
        exact Or.inl h9
      · simp only [h9, false_or]
        unfold Date.ofYMD
        split
        · rename_i hv'
          rw [hv _ (by omega) (by omega)] at hv'
          simp only [reduceCtorEq, false_iff]; exact hv'
        · rename_i hv'
          rw [hv _ (by omega) (by omega), not_not] at hv'
          simp only [true_iff]; exact hv'
    · rw [if_neg h2]
      simp only [reduceCtorEq, false_iff]
      intro hc
      exact h2 (hlt.2 hc.1)

/-- C18: the AFB value when the anniversary in the start year is on or after the start and no leap year is touched up
to it: actual days over 365. -/
theorem C18_afb_no_leap (a b s : Date) (hs : Date.ofYMD a.year b.month b.day = some s) (hsa : a ≤ s)
    (hl : isLeap a.year = false) :
    DayCount.actActAFB.factor a b = some (((b.dayNum - a.dayNum : ℤ) : ℚ) / 365) := by
  have hnlt : ¬ s < a := by rw [Date.lt_iff]; rw [Date.le_iff] at hsa; omega
  simp only [DayCount.factor, factorAFB, hs, Option.bind_some, if_neg hnlt, Option.map_some]
  have : containsLeapYear a s = false := by
    rw [Bool.eq_false_iff, Ne, containsLeapYear_iff]
    rw [Date.ofYMD_eq_some] at hs
    simp [leapYearsTouched, hs.1, Finset.filter_singleton, hl]
  rw [this]
  simp [wholeDays]

/-- C18: the AFB value when the anniversary in the (leap) start year is on or after the start: whole years plus the
stub over 366. -/
theorem C18_afb_leap (a b s : Date) (hs : Date.ofYMD a.year b.month b.day = some s) (hsa : a ≤ s)
    (hl : isLeap a.year = true) :
    DayCount.actActAFB.factor a b = some (((b.year - a.year : ℤ) : ℚ) + ((s.dayNum - a.dayNum : ℤ) : ℚ) / 366) := by
  have hnlt : ¬ s < a := by rw [Date.lt_iff]; rw [Date.le_iff] at hsa; omega
  simp only [DayCount.factor, factorAFB, hs, Option.bind_some, if_neg hnlt, Option.map_some]
  have : containsLeapYear a s = true := by
    rw [containsLeapYear_iff]
    rw [Date.ofYMD_eq_some] at hs
    simp [leapYearsTouched, hs.1, Finset.filter_singleton, hl]
  rw [Date.ofYMD_eq_some] at hs
  rw [this, if_pos rfl, hs.1]
  rfl

/-- C18: the AFB value when the anniversary in the start year precedes the start, so that the stub ends in the next
year: whole years plus the stub over 366 if one of the two years is a leap year, actual days over 365 otherwise. -/
theorem C18_afb_next_year (a b s t : Date) (hs : Date.ofYMD a.year b.month b.day = some s) (hsa : s < a)
    (ht : Date.ofYMD (a.year + 1) b.month b.day = some t) :
    DayCount.actActAFB.factor a b =
      some (if isLeap a.year = true ∨ isLeap (a.year + 1) = true
        then ((b.year - a.year - 1 : ℤ) : ℚ) + ((t.dayNum - a.dayNum : ℤ) : ℚ) / 366
        else ((b.dayNum - a.dayNum : ℤ) : ℚ) / 365) := by
  simp only [DayCount.factor, factorAFB, hs, Option.bind_some, if_pos hsa, ht, Option.map_some, Option.some.injEq]
  rw [Date.ofYMD_eq_some] at ht
  have hc : containsLeapYear a t = true ↔ isLeap a.year = true ∨ isLeap (a.year + 1) = true := by
    rw [containsLeapYear_iff]
    have : Finset.Icc a.year (a.year + 1) = {a.year, a.year + 1} := by
      ext x; simp only [Finset.mem_Icc, Finset.mem_insert, Finset.mem_singleton]; omega
    rw [leapYearsTouched, ht.1, this, Finset.card_pos]
    constructor
    · rintro ⟨x, hx⟩
      simp only [Finset.mem_filter, Finset.mem_insert, Finset.mem_singleton] at hx
      rcases hx with ⟨rfl | rfl, h⟩
      · exact Or.inl h
      · exact Or.inr h
    · rintro (h | h)
      · exact ⟨a.year, by simp [h]⟩
      · exact ⟨a.year + 1, by simp [h]⟩
  by_cases h : isLeap a.year = true ∨ isLeap (a.year + 1) = true
  · rw [if_pos (hc.2 h), if_pos h, ht.1]
    unfold wholeDays
    congr 2
    omega
  · rw [if_neg (fun h' => h (hc.1 h')), if_neg h]
    rfl

example (a b : Date) (ha : a = ⟨2023, 3, 1, by decide⟩) (hb : b = ⟨2024, 2, 29, by decide⟩) :
    DayCount.actActAFB.factor a b = none := by subst ha hb; decide +kernel

example (a b : Date) (ha : a = ⟨2020, 3, 1, by decide⟩) (hb : b = ⟨2023, 5, 1, by decide⟩) :
    DayCount.actActAFB.factor a b = some (3 + 61 / 366) := by subst ha hb; decide +kernel

/-! ### Cases meeting the hypotheses above -/

example := C15_formula .act360 360 rfl ⟨2024, 1, 1, by decide⟩ ⟨2024, 7, 1, by decide⟩

example := C16_measure .thirtyE360 (Or.inl rfl) ⟨2024, 1, 31, by decide⟩ ⟨2024, 2, 29, by decide⟩ ⟨2025, 3, 31, by decide⟩
  (29 / 360) (-29 / 360) (391 / 360) (420 / 360) (by decide +kernel) (by decide +kernel) (by decide +kernel)
  (by decide +kernel)

example := C16_whole_years .thirtyU360 (by decide) ⟨2024, 1, 31, by decide⟩ ⟨2027, 1, 31, by decide⟩ rfl rfl (by decide)

example := C16_whole_years_rest ⟨2024, 1, 31, by decide⟩ ⟨2027, 1, 31, by decide⟩ rfl rfl

example := C16_agree ⟨2024, 1, 27, by decide⟩ ⟨2027, 5, 3, by decide⟩ (by decide) (by decide) .thirtyEPlus360 (by decide)

example := C17_split_by_year ⟨2023, 7, 1, by decide⟩ ⟨2024, 7, 1, by decide⟩ (by decide) (184 / 365 + 182 / 366)
  (by decide +kernel)

example := C18_nl_same_day ⟨2024, 7, 1, by decide⟩ (by decide)

example := C18_afb_no_leap ⟨2023, 3, 1, by decide⟩ ⟨2025, 5, 1, by decide⟩ ⟨2023, 5, 1, by decide⟩ (by decide +kernel)
  (by decide) (by decide)

example := C18_afb_leap ⟨2020, 3, 1, by decide⟩ ⟨2023, 5, 1, by decide⟩ ⟨2020, 5, 1, by decide⟩ (by decide +kernel)
  (by decide) (by decide)

end Verif.Time
