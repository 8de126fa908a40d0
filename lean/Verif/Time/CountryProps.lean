import Verif.Time.CountryRules

/-!
# C22: the country calendars

`rulesOf` and `fixedRulesOf` (in `CountrySpec`) say in a small language what the holidays are; the theorems say that
the code computes them.
-/

namespace Verif.Time

open Countries

theorem Date.month_bounds (D : Date) : 1 ≤ D.month ∧ D.month ≤ 12 ∧ 1 ≤ D.day ∧ D.day ≤ 31 := by
  obtain ⟨_, _, h1, h2, h3, h4⟩ := D.valid
  have := (monthLength_le D.year D.month).2
  omega

/-- C22: for 21 markets, in every year from 1901 to 2199, the holidays are exactly the listed ones. -/
theorem C22_rules (heb : Hebrew) (m : Market) (rules : List Rule) (hr : rulesOf m = some rules) (D : Date)
    (h1 : 1901 ≤ D.year) (h2 : D.year ≤ 2199) :
    ∃ b, (Calendar.new m).isHoliday heb D = some b ∧ (b = true ↔ IsHolidayOf rules D) := by
  obtain ⟨a1, a2, a3, a4⟩ := D.month_bounds
  have a5 := D.weekday_lt
  cases hem : easterMonday D.year false with
  | none => rw [easterMonday_none_iff] at hem; omega
  | some em =>
    simp only [Calendar.isHoliday, Calendar.new, List.not_mem_nil, if_false, marketHoliday]
    cases m <;> simp only [rulesOf, Option.some.injEq, reduceCtorEq] at hr <;> subst hr <;>
      simp only [countryRule, hem, Option.some.injEq, exists_eq_left'] <;>
      rw [isHolidayOf_iff hem (by decide +kernel)]
    · exact argentina_iff _ _ _ _ _ _ a1 a2 a3 a4 a5
    · exact australia_iff _ _ _ _ _ _ a1 a2 a3 a4 a5
    · exact austria_iff _ _ _ _ _ _ a1 a2 a3 a4 a5
    · exact botswana_iff _ _ _ _ _ _ a1 a2 a3 a4 a5
    · exact brazil_iff _ _ _ _ _ _ a1 a2 a3 a4 a5
    · exact canada_iff _ _ _ _ _ _ a1 a2 a3 a4 a5
    · exact chile_iff _ _ _ _ _ _ a1 a2 a3 a4 a5
    · exact czechRepublic_iff _ _ _ _ _ _ a1 a2 a3 a4 a5
    · exact denmark_iff _ _ _ _ _ _ a1 a2 a3 a4 a5
    · exact finland_iff _ _ _ _ _ _ a1 a2 a3 a4 a5
    · exact france_iff _ _ _ _ _ _ a1 a2 a3 a4 a5
    · exact germany_iff _ _ _ _ _ _ a1 a2 a3 a4 a5
    · exact hungary_iff _ _ _ _ _ _ a1 a2 a3 a4 a5
    · exact iceland_iff _ _ _ _ _ _ a1 a2 a3 a4 a5
    · exact italy_iff _ _ _ _ _ _ a1 a2 a3 a4 a5
    · exact mexico_iff _ _ _ _ _ _ a1 a2 a3 a4 a5
    · exact netherlands_iff _ _ _ _ _ _ a1 a2 a3 a4 a5
    · exact newZealand_iff _ _ _ _ _ _ a1 a2 a3 a4 a5
    · exact unitedKingdom_iff _ _ _ _ _ _ a1 a2 a3 a4 a5
    · exact unitedStates_iff _ _ _ _ _ _ a1 a2 a3 a4 a5
    · exact switzerland_iff _ _ _ _ _ _ a1 a2 a3 a4 a5

/-- C22: so for these markets a date is a business day iff it is neither a Saturday or Sunday nor a listed holiday. -/
theorem C22_business_days (heb : Hebrew) (m : Market) (rules : List Rule) (hr : rulesOf m = some rules) (D : Date)
    (h1 : 1901 ≤ D.year) (h2 : D.year ≤ 2199) :
    ∃ b, (Calendar.new m).isBusinessDay heb D = some b ∧ (b = true ↔ D.weekday < 5 ∧ ¬ IsHolidayOf rules D) := by
  obtain ⟨b, hb, hiff⟩ := C22_rules heb m rules hr D h1 h2
  have hw : (Calendar.new m).isWeekend D = true ↔ D.weekday = 5 ∨ D.weekday = 6 := by
    cases m <;> simp_all [Calendar.isWeekend, Calendar.new, rulesOf]
  have hlt := D.weekday_lt
  unfold Calendar.isBusinessDay
  by_cases h : (Calendar.new m).isWeekend D = true
  · refine ⟨false, by simp [h], ?_⟩
    rw [hw] at h
    simp only [Bool.false_eq_true, false_iff, not_and]
    intro h'
    omega
  · refine ⟨!b, by simp [h, hb], ?_⟩
    rw [hw] at h
    rw [← hiff]
    cases b <;> simp
    omega

/-- C22: Hong Kong, India, Indonesia and Singapore: every listed fixed or Easter holiday is a holiday in every year. -/
theorem C22_fixed_rules (heb : Hebrew) (m : Market) (rules : List Rule) (hr : fixedRulesOf m = some rules) (D : Date)
    (h1 : 1901 ≤ D.year) (h2 : D.year ≤ 2199) (hD : IsHolidayOf rules D) :
    (Calendar.new m).isHoliday heb D = some true := by
  obtain ⟨a1, a2, a3, a4⟩ := D.month_bounds
  have a5 := D.weekday_lt
  cases hem : easterMonday D.year false with
  | none => rw [easterMonday_none_iff] at hem; omega
  | some em =>
    simp only [Calendar.isHoliday, Calendar.new, List.not_mem_nil, if_false, marketHoliday]
    cases m <;> simp only [fixedRulesOf, Option.some.injEq, reduceCtorEq] at hr <;> subst hr <;>
      simp only [countryRule, hem, Option.some.injEq] <;>
      rw [isHolidayOf_iff hem (by decide +kernel)] at hD
    · exact hongKong_sub _ _ _ _ _ _ a1 a2 a3 a4 a5 hD
    · exact india_sub _ _ _ _ _ _ a1 a2 a3 a4 a5 hD
    · exact indonesia_sub _ _ _ _ _ _ a1 a2 a3 a4 a5 hD
    · exact singapore_sub _ _ _ _ _ _ a1 a2 a3 a4 a5 hD

/-- C22: outside 2000 to 2030 the lunar holidays of Hong Kong, India and Indonesia silently vanish: the holidays are
exactly the fixed and Easter ones. -/
theorem C22_lunar_tables_end (heb : Hebrew) (m : Market) (rules : List Rule) (hr : fixedRulesOf m = some rules)
    (hm : m ≠ .singapore) (D : Date) (h1 : 1901 ≤ D.year) (h2 : D.year ≤ 2199) (hy : D.year < 2000 ∨ 2030 < D.year) :
    ∃ b, (Calendar.new m).isHoliday heb D = some b ∧ (b = true ↔ IsHolidayOf rules D) := by
  obtain ⟨a1, a2, a3, a4⟩ := D.month_bounds
  have a5 := D.weekday_lt
  cases hem : easterMonday D.year false with
  | none => rw [easterMonday_none_iff] at hem; omega
  | some em =>
    simp only [Calendar.isHoliday, Calendar.new, List.not_mem_nil, if_false, marketHoliday]
    cases m <;> simp only [fixedRulesOf, Option.some.injEq, reduceCtorEq] at hr <;> subst hr <;>
      simp only [countryRule, hem, Option.some.injEq, exists_eq_left'] <;>
      rw [isHolidayOf_iff hem (by decide +kernel)]
    · exact hongKong_iff_outside _ _ _ _ _ _ a1 a2 a3 a4 a5 hy
    · exact india_iff_outside _ _ _ _ _ _ a1 a2 a3 a4 a5 hy
    · exact indonesia_iff_outside _ _ _ _ _ _ a1 a2 a3 a4 a5 hy
    · exact absurd rfl hm

/-- C22 (defect): in Singapore the 25th of every month of every year is a holiday. -/
theorem C22_singapore_defect (heb : Hebrew) (D : Date) (h1 : 1901 ≤ D.year) (h2 : D.year ≤ 2199) (hd : D.day = 25) :
    (Calendar.new .singapore).isHoliday heb D = some true := by
  cases hem : easterMonday D.year false with
  | none => rw [easterMonday_none_iff] at hem; omega
  | some em =>
    simp [Calendar.isHoliday, Calendar.new, marketHoliday, countryRule, hem, Singapore.isHoliday, hd]

/-- C22 (defect): in Argentina 1 January is a holiday in no year, so it is a business day whenever it is a weekday. -/
theorem C22_argentina_defect (heb : Hebrew) (D : Date) (h1 : 1901 ≤ D.year) (h2 : D.year ≤ 2199) (hm : D.month = 1)
    (hd : D.day = 1) :
    (Calendar.new .argentina).isHoliday heb D = some false ∧
      (D.weekday < 5 → (Calendar.new .argentina).isBusinessDay heb D = some true) := by
  have hmain : (Calendar.new .argentina).isHoliday heb D = some false := by
    cases hem : easterMonday D.year false with
    | none => rw [easterMonday_none_iff] at hem; omega
    | some em =>
      have := (easterMonday_range hem).2.2.1
      have ho : D.ordinal = 1 := by unfold Date.ordinal; rw [hm, hd]; rfl
      simp only [Calendar.isHoliday, Calendar.new, marketHoliday, countryRule, hem, Argentina.isHoliday, hm, hd, ho,
        is_christmas_day, is_christmas_eve, is_new_years_eve, List.not_mem_nil, if_false, Option.some.injEq]
      have e1 : (1 == em - 4) = false := by rw [beq_eq_false_iff_ne]; omega
      have e2 : (1 == em - 3) = false := by rw [beq_eq_false_iff_ne]; omega
      rw [e1, e2]
      simp
  refine ⟨hmain, fun hw => ?_⟩
  unfold Calendar.isBusinessDay
  rw [hmain]
  have e5 : D.weekday ≠ 5 := by omega
  have e6 : D.weekday ≠ 6 := by omega
  simp [Calendar.isWeekend, Calendar.new, e5, e6]

/-- C22 (defect): in France neither Ascension (39 days after Easter) nor Whit Monday (50 days after) is a holiday, unless
it happens to fall on one of the fixed dates 1, 8, 10 or 21 May. -/
theorem C22_france_defect (heb : Hebrew) (D : Date) (h1 : 1901 ≤ D.year) (h2 : D.year ≤ 2199)
    (hD : ascension.Holds D ∨ whitMonday.Holds D) :
    ∃ b, (Calendar.new .france).isHoliday heb D = some b ∧
      (b = true ↔ D.month = 5 ∧ (D.day = 1 ∨ D.day = 8 ∨ D.day = 10 ∨ D.day = 21)) := by
  obtain ⟨b, hb, hiff⟩ := C22_rules heb .france france rfl D h1 h2
  refine ⟨b, hb, hiff.trans ?_⟩
  cases hem : easterMonday D.year false with
  | none => rw [easterMonday_none_iff] at hem; omega
  | some em =>
    have hr := easterMonday_range hem
    rw [Rule.holds_iff hem (by decide), Rule.holds_iff hem (by decide)] at hD
    rw [isHolidayOf_iff hem (by decide +kernel)]
    obtain ⟨a1, a2, a3, a4⟩ := D.month_bounds
    have ho : D.ordinal = daysBeforeMonth D.year D.month + D.day := rfl
    have hv := D.valid.2.2.2.2.2
    have hcheck := easterCheck_year false h1 h2
    simp only [easterCheck, hem, decide_eq_true_eq] at hcheck
    simp only [Rule.eval, france, ascension, whitMonday, easterMondayRule, List.mem_cons, List.not_mem_nil, or_false,
      exists_eq_or_imp, exists_eq_left] at hD ⊢
    generalize D.month = m at *
    generalize D.day = d at *
    generalize D.ordinal = yd at *
    interval_cases m <;> simp [daysBeforeMonth] at ho hD ⊢ <;> cases hl : isLeap D.year <;> simp [hl] at ho hcheck <;> omega

theorem singapore_tables_outside (y : ℤ) (m d : ℕ) (hy : y < 2004 ∨ 2024 < y) :
    Singapore.is_chinese_new_year y m d = false ∧ Singapore.is_hari_raya_haji y m d = false ∧
      Singapore.is_hari_raya_puasa y m d = false ∧ Singapore.is_vesak_day y m d = false ∧
      Singapore.is_deepavali y m d = false := by
  have : ∀ k : ℤ, 2004 ≤ k → k ≤ 2024 → (y == k) = false := by intro k h1 h2; rw [beq_eq_false_iff_ne]; omega
  simp [Singapore.is_chinese_new_year, Singapore.is_hari_raya_haji, Singapore.is_hari_raya_puasa,
    Singapore.is_vesak_day, Singapore.is_deepavali, this]

/-- C22: in Singapore, outside 2004 to 2024, the holidays are exactly the fixed and Easter ones and, by the defect above,
the 25th of every month. -/
theorem C22_singapore (heb : Hebrew) (D : Date) (h1 : 1901 ≤ D.year) (h2 : D.year ≤ 2199)
    (hy : D.year < 2004 ∨ 2024 < D.year) :
    ∃ b, (Calendar.new .singapore).isHoliday heb D = some b ∧ (b = true ↔ IsHolidayOf singapore D ∨ D.day = 25) := by
  obtain ⟨a1, a2, a3, a4⟩ := D.month_bounds
  have a5 := D.weekday_lt
  cases hem : easterMonday D.year false with
  | none => rw [easterMonday_none_iff] at hem; omega
  | some em =>
    simp only [Calendar.isHoliday, Calendar.new, List.not_mem_nil, if_false, marketHoliday, countryRule, hem,
      Option.some.injEq, exists_eq_left']
    constructor
    · intro h
      by_cases hd : D.day = 25
      · exact Or.inr hd
      · refine Or.inl ?_
        rw [isHolidayOf_iff hem (by decide +kernel)]
        obtain ⟨t1, t2, t3, t4, t5⟩ := singapore_tables_outside D.year D.month D.day hy
        have hr := easterMonday_range hem
        unfold Singapore.isHoliday at h
        rw [t1, t2, t3, t4, t5] at h
        unfold singapore
        revert h
        generalize D.month = m at *
        generalize D.day = d at *
        generalize D.weekday = wd at *
        simp [sundayToMonday, goodFriday, Rule.eval, minLen, hd]
        rintro ((((⟨h | ⟨h, h'⟩, e⟩ | e) | ⟨h | ⟨h, h'⟩, e⟩) | ⟨h | ⟨h, h'⟩, e⟩) | ⟨⟨h, h'⟩, e⟩) <;> simp [*]
    · rintro (h | h)
      · rw [isHolidayOf_iff hem (by decide +kernel)] at h
        exact singapore_sub _ _ _ _ _ _ a1 a2 a3 a4 a5 h
      · simp [Singapore.isHoliday, h]

/-- C22: in China 1 January is a holiday in every year; before 2004 the holidays are 1 January, 4 April, 1 to 7 May,
9 June, 15 September and 1 to 7 October; after 2023 the table has ended and 1 January is the only holiday, so the days
of the spring festival, Labour Day and National Day are business days when they are weekdays. -/
theorem C22_china (heb : Hebrew) (D : Date) (h1 : 1901 ≤ D.year) (h2 : D.year ≤ 2199) :
    ∃ b, (Calendar.new .china).isHoliday heb D = some b ∧
      (D.month = 1 ∧ D.day = 1 → b = true) ∧
      (D.year < 2004 → (b = true ↔ (D.month = 1 ∧ D.day = 1) ∨ (D.month = 4 ∧ D.day = 4) ∨
        (D.month = 5 ∧ D.day ≤ 7) ∨ (D.month = 6 ∧ D.day = 9) ∨ (D.month = 9 ∧ D.day = 15) ∨
        (D.month = 10 ∧ D.day ≤ 7))) ∧
      (2023 < D.year → (b = true ↔ D.month = 1 ∧ D.day = 1)) := by
  obtain ⟨a1, a2, a3, a4⟩ := D.month_bounds
  cases hem : easterMonday D.year false with
  | none => rw [easterMonday_none_iff] at hem; omega
  | some em =>
    simp only [Calendar.isHoliday, Calendar.new, List.not_mem_nil, if_false, marketHoliday, countryRule, hem,
      Option.some.injEq, exists_eq_left']
    refine ⟨?_, ?_, ?_⟩
    · rintro ⟨h, h'⟩
      simp [China.isHoliday, h, h']
    · intro hy
      have : ∀ k : ℤ, 2004 ≤ k → (D.year == k) = false := by intro k h1; rw [beq_eq_false_iff_ne]; omega
      have l1 : D.year ≤ 2007 := by omega
      have l2 : D.year ≤ 2008 := by omega
      simp [China.isHoliday, this, l1, l2]
      omega
    · intro hy
      have : ∀ k : ℤ, k ≤ 2023 → (D.year == k) = false := by intro k h1; rw [beq_eq_false_iff_ne]; omega
      have l1 : ¬ D.year ≤ 2007 := by omega
      have l2 : ¬ D.year ≤ 2008 := by omega
      simp [China.isHoliday, this, l1, l2]
      omega

/-- 25 July 2023, a Tuesday, is a "holiday" in Singapore; 1 January 2024, a Monday, a business day in Argentina;
9 May 2024, Ascension, a business day in France; 4 July 2020 was a Saturday, so 3 July was off in the US. -/
example : fixedRulesOf .singapore = some singapore := rfl
example (d : Date) (hd : d = ⟨2023, 7, 25, by decide⟩) :
    d.weekday = 1 ∧ (Calendar.new .singapore).isHoliday heb0 d = some true := by subst hd; decide +kernel
example (d : Date) (hd : d = ⟨2024, 1, 1, by decide⟩) :
    (Calendar.new .argentina).isBusinessDay heb0 d = some true := by subst hd; decide +kernel
example (d : Date) (hd : d = ⟨2024, 5, 9, by decide⟩) : ascension.Holds d := by
  subst hd
  exact (Rule.holds_iff (em := 92) (by decide +kernel) (by decide)).2 (by simp only [ascension, Rule.eval]; decide +kernel)
example (d : Date) (hd : d = ⟨2024, 5, 9, by decide⟩) :
    (Calendar.new .france).isBusinessDay heb0 d = some true := by subst hd; decide +kernel
example (d : Date) (hd : d = ⟨2020, 7, 3, by decide⟩) :
    (Calendar.new .unitedStates).isBusinessDay heb0 d = some false := by subst hd; decide +kernel
example : rulesOf .unitedStates = some unitedStates := rfl

example := C22_rules heb0 .unitedStates unitedStates rfl ⟨2024, 7, 4, by decide⟩ (by decide) (by decide)
example := C22_business_days heb0 .unitedStates unitedStates rfl ⟨2024, 7, 4, by decide⟩ (by decide) (by decide)
example := C22_lunar_tables_end heb0 .hongKong _ rfl (by decide) ⟨2031, 1, 1, by decide⟩ (by decide) (by decide) (by decide)
example := C22_singapore_defect heb0 ⟨2023, 7, 25, by decide⟩ (by decide) (by decide) rfl
example := C22_argentina_defect heb0 ⟨2024, 1, 1, by decide⟩ (by decide) (by decide) rfl rfl
example := C22_singapore heb0 ⟨2025, 8, 9, by decide⟩ (by decide) (by decide) (by decide)

end Verif.Time
