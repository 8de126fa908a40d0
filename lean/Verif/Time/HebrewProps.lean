import Verif.Time.HebrewSpec

/-!
# C85: the Israeli market and the Hebrew calendar
-/

namespace Verif.Time.HebrewCal

open Countries Month

/-! ## Helper lemmas -/

/-- What has to be checked of one Hebrew year. -/
def yearCheck (h : ℤ) : Bool :=
  decide (((months h).map (monthDays h)).sum = yearLength h ∧
    ((newYear h - 1) % 7 = 0 ∨ (newYear h - 1) % 7 = 1 ∨ (newYear h - 1) % 7 = 3 ∨ (newYear h - 1) % 7 = 5))

theorem yearCheck_all : ∀ i ∈ List.range 302, yearCheck (5660 + (i : ℤ)) = true := by decide +kernel

theorem yearCheck_year {h : ℤ} (h1 : 5660 ≤ h) (h2 : h ≤ 5961) : yearCheck h = true := by
  have := yearCheck_all (h - 5660).toNat (List.mem_range.2 (by omega))
  rwa [show 5660 + (((h - 5660).toNat : ℕ) : ℤ) = h by omega] at this

theorem year_facts {h : ℤ} (h1 : 5660 ≤ h) (h2 : h ≤ 5961) :
    ((months h).map (monthDays h)).sum = yearLength h ∧
    ((newYear h - 1) % 7 = 0 ∨ (newYear h - 1) % 7 = 1 ∨ (newYear h - 1) % 7 = 3 ∨ (newYear h - 1) % 7 = 5) := by
  have := yearCheck_year h1 h2
  unfold yearCheck at this
  simpa only [decide_eq_true_eq] using this

theorem newYear_bounds (h : ℤ) :
    molad h / 25920 - 1373428 ≤ newYear h ∧ newYear h ≤ molad h / 25920 - 1373426 := by
  unfold newYear newYearCount
  dsimp only
  norm_num only
  split_ifs <;> omega

theorem molad_eq (h : ℤ) : molad h = 31524 + 765433 * ((235 * h - 234) / 19) := by
  unfold molad monthsBefore; norm_num

theorem newYear_lt (h : ℤ) : newYear h + 340 < newYear (h + 1) := by
  have h1 := newYear_bounds h
  have h2 := newYear_bounds (h + 1)
  rw [molad_eq] at h1 h2
  have h3 : (235 * h - 234) / 19 + 12 ≤ (235 * (h + 1) - 234) / 19 := by omega
  omega

theorem newYear_mono {h k : ℤ} (hk : h < k) : newYear (h + 1) ≤ newYear k := by
  have : ∀ n : ℕ, newYear (h + 1) ≤ newYear (h + 1 + n) := by
    intro n
    induction n with
    | zero => simp
    | succ n ih =>
      have := newYear_lt (h + 1 + n)
      have e : h + 1 + ((n + 1 : ℕ) : ℤ) = h + 1 + n + 1 := by omega
      rw [e]; omega
  have := this (k - (h + 1)).toNat
  rwa [show h + 1 + (((k - (h + 1)).toNat : ℕ) : ℤ) = k by omega] at this

theorem monthDays_bounds (h : ℤ) (mon : Month) : 29 ≤ monthDays h mon ∧ monthDays h mon ≤ 30 := by
  cases mon <;> simp only [monthDays] <;> (try split_ifs) <;> omega

theorem days_of_range (D : Date) (h1 : 1901 ≤ D.year) (h2 : D.year ≤ 2199) :
    693961 ≤ D.dayNum ∧ D.dayNum ≤ 803168 := by
  have o1 := D.ordinal_pos
  have o2 := D.ordinal_le
  have a : daysBeforeYear 1901 ≤ daysBeforeYear D.year := by
    rcases Int.lt_or_eq_of_le h1 with h | h
    · have := daysBeforeYear_mono h; omega
    · rw [h]
  have b := daysBeforeYear_mono (show D.year < 2200 by omega)
  have e1 : daysBeforeYear 1901 = 693960 := by decide +kernel
  have e2 : daysBeforeYear 2200 = 803168 := by decide +kernel
  unfold Date.dayNum
  omega

theorem year_of_days (D : Date) (h1 : 693961 ≤ D.dayNum) (h2 : D.dayNum ≤ 803168) :
    1901 ≤ D.year ∧ D.year ≤ 2199 := by
  have o1 := D.ordinal_pos
  have o2 := D.ordinal_le
  have e1 : daysBeforeYear 1901 = 693960 := by decide +kernel
  have e2 : daysBeforeYear 2200 = 803168 := by decide +kernel
  unfold Date.dayNum at h1 h2
  constructor
  · by_contra hc
    have := daysBeforeYear_mono (show D.year < 1901 by omega)
    omega
  · by_contra hc
    rcases Int.lt_or_eq_of_le (show 2200 ≤ D.year by omega) with h | h
    · have := daysBeforeYear_mono h; omega
    · rw [← h] at h2; omega

/-- The days before a month and the days of the month together are within the year. -/
theorem before_bounds (h : ℤ) {mon : Month} (hm : mon ∈ months h) :
    newYear h - 1 ≤ beforeMonth h mon ∧
      beforeMonth h mon + monthDays h mon ≤ newYear h - 1 + ((months h).map (monthDays h)).sum ∧
      ((months h).map (monthDays h)).sum ≤ 390 := by
  unfold beforeMonth
  have hb := monthDays_bounds h
  have b1 := hb heshvan
  have b2 := hb kislev
  unfold months at *
  cases hl : leapYear h <;> simp only [hl, if_true, Bool.false_eq_true, if_false] at hm ⊢
  all_goals
    cases mon <;> simp at hm <;> simp [List.takeWhile] <;> simp only [monthDays] at * <;> omega

theorem isDate_range {D : Date} {h : ℤ} {mon : Month} {day : ℕ} (h1 : 1901 ≤ D.year) (h2 : D.year ≤ 2199)
    (hd : IsDate D h mon day) : 5660 ≤ h ∧ h ≤ 5961 ∧ newYear h ≤ D.dayNum ∧ D.dayNum < newYear (h + 1) := by
  obtain ⟨hm, d1, d2, he⟩ := hd
  have hb := before_bounds h hm
  have hr := days_of_range D h1 h2
  have hn := newYear_bounds h
  rw [molad_eq] at hn
  have ha : 5660 ≤ h ∧ h ≤ 5961 := by omega
  have hf := (year_facts ha.1 ha.2).1
  unfold yearLength at hf
  exact ⟨ha.1, ha.2, by omega, by omega⟩

theorem exists_year {n : ℤ} (h1 : 693961 ≤ n) (h2 : n ≤ 803168) :
    ∃ h : ℤ, 5660 ≤ h ∧ h ≤ 5961 ∧ newYear h ≤ n ∧ n < newYear (h + 1) := by
  have e1 : newYear 5660 ≤ n := le_trans (by decide +kernel) h1
  have e2 : n < newYear (5660 + ((301 : ℕ) : ℤ)) := lt_of_le_of_lt h2 (by decide +kernel)
  have : ∀ k : ℕ, k ≤ 301 → n < newYear (5660 + (k : ℤ)) →
      ∃ h : ℤ, 5660 ≤ h ∧ h ≤ 5961 ∧ newYear h ≤ n ∧ n < newYear (h + 1) := by
    intro k
    induction k with
    | zero => intro _ h; simp at h; omega
    | succ k ih =>
      intro hk h
      by_cases hc : newYear (5660 + (k : ℤ)) ≤ n
      · refine ⟨5660 + k, by omega, by omega, hc, ?_⟩
        have e : 5660 + (k : ℤ) + 1 = 5660 + ((k + 1 : ℕ) : ℤ) := by omega
        exact e ▸ h
      · exact ih (by omega) (by omega)
  exact this 301 le_rfl e2

/-- Inside a year the day determines month and day of month. -/
theorem split_year (h n : ℤ) (h1 : newYear h ≤ n) (h2 : n < newYear h + ((months h).map (monthDays h)).sum) :
    ∃ mon ∈ months h, beforeMonth h mon < n ∧ n ≤ beforeMonth h mon + monthDays h mon := by
  unfold beforeMonth
  generalize newYear h = s at *
  unfold months at *
  cases hl : leapYear h <;> simp only [hl, if_true, Bool.false_eq_true, if_false] at h2 ⊢ <;>
    simp [List.takeWhile] at h2 ⊢ <;> omega

theorem sum_nonneg (f : Month → ℤ) (hf : ∀ m, 0 < f m) (l : List Month) : 0 ≤ (l.map f).sum := by
  induction l with
  | nil => simp
  | cons x xs ih => have := hf x; simp only [List.map_cons, List.sum_cons]; omega

theorem interval_unique (f : Month → ℤ) (hf : ∀ m, 0 < f m) (a b : Month) (n : ℤ) (l : List Month) (s : ℤ)
    (ha : a ∈ l) (hb : b ∈ l)
    (h1 : s + ((l.takeWhile (· ≠ a)).map f).sum < n) (h2 : n ≤ s + ((l.takeWhile (· ≠ a)).map f).sum + f a)
    (h3 : s + ((l.takeWhile (· ≠ b)).map f).sum < n) (h4 : n ≤ s + ((l.takeWhile (· ≠ b)).map f).sum + f b) :
    a = b := by
  induction l generalizing s with
  | nil => simp at ha
  | cons x xs ih =>
    by_cases hxa : x = a
    · by_cases hxb : x = b
      · rw [← hxa, ← hxb]
      · have := sum_nonneg f hf (xs.takeWhile (· ≠ b))
        simp only [ne_eq, List.takeWhile_cons, hxa, not_true_eq_false, decide_false, Bool.false_eq_true, if_false,
          List.map_nil, List.sum_nil] at h1 h2
        rw [hxa] at hxb
        simp only [ne_eq, List.takeWhile_cons, hxa, hxb, not_false_eq_true, decide_true, if_true, List.map_cons,
          List.sum_cons] at h3 h4 this
        omega
    · by_cases hxb : x = b
      · have := sum_nonneg f hf (xs.takeWhile (· ≠ a))
        simp only [ne_eq, List.takeWhile_cons, hxb, not_true_eq_false, decide_false, Bool.false_eq_true, if_false,
          List.map_nil, List.sum_nil] at h3 h4
        rw [hxb] at hxa
        simp only [ne_eq, List.takeWhile_cons, hxb, hxa, not_false_eq_true, decide_true, if_true, List.map_cons,
          List.sum_cons] at h1 h2 this
        omega
      · simp only [ne_eq, List.takeWhile_cons, hxa, hxb, not_false_eq_true, decide_true, if_true, List.map_cons,
          List.sum_cons] at h1 h2 h3 h4
        refine ih (s + f x) ?_ ?_ ?_ ?_ ?_ ?_
        · rcases List.mem_cons.1 ha with h | h
          · exact absurd h.symm hxa
          · exact h
        · rcases List.mem_cons.1 hb with h | h
          · exact absurd h.symm hxb
          · exact h
        all_goals simp only [ne_eq]; omega

theorem month_unique {h : ℤ} {m m' : Month} (hm : m ∈ months h) (hm' : m' ∈ months h) (n : ℤ)
    (h1 : beforeMonth h m < n) (h2 : n ≤ beforeMonth h m + monthDays h m) (h3 : beforeMonth h m' < n)
    (h4 : n ≤ beforeMonth h m' + monthDays h m') : m = m' :=
  interval_unique (monthDays h) (fun m => by have := monthDays_bounds h m; omega) m m' n (months h) (newYear h - 1)
    hm hm' h1 h2 h3 h4

theorem iyar_mem (h : ℤ) : iyar ∈ months h := by unfold months; split <;> simp

theorem before_iyar {h : ℤ} (h1 : 5660 ≤ h) (h2 : h ≤ 5961) : beforeMonth h iyar = newYear (h + 1) - 148 := by
  have hf := (year_facts h1 h2).1
  unfold yearLength at hf
  unfold beforeMonth
  unfold months at *
  cases hl : leapYear h <;> simp only [hl, if_true, Bool.false_eq_true, if_false] at hf ⊢ <;>
    simp [List.takeWhile] at hf ⊢ <;> simp only [monthDays] at * <;> omega

/-- Weekday of 5 Iyar: Saturday, Monday, Wednesday or Friday. -/
theorem iyar_weekday {h : ℤ} (h1 : 5660 ≤ h) (h2 : h ≤ 5960) :
    (beforeMonth h iyar + 5 - 1) % 7 = 5 ∨ (beforeMonth h iyar + 5 - 1) % 7 = 0 ∨
      (beforeMonth h iyar + 5 - 1) % 7 = 2 ∨ (beforeMonth h iyar + 5 - 1) % 7 = 4 := by
  have := before_iyar h1 (by omega)
  have := (year_facts (h := h + 1) (by omega) (by omega)).2
  omega

theorem independence_bounds (h : ℤ) :
    beforeMonth h iyar + 3 ≤ independenceDay h ∧ independenceDay h ≤ beforeMonth h iyar + 6 := by
  unfold independenceDay
  dsimp only
  split_ifs <;> omega

theorem weekday_eq_iff (D : Date) (w : ℕ) (hw : w < 7) : D.weekday = w ↔ (D.dayNum - 1) % 7 = w := by
  unfold Date.weekday; omega

/-- The weekday patterns of the code say the same as the rule. -/
theorem independence_iff {D : Date} {h : ℤ} {day : ℕ} (h1 : 5660 ≤ h) (h2 : h ≤ 5960)
    (hd : D.dayNum = beforeMonth h iyar + day) :
    (D.dayNum = independenceDay h ∨ D.dayNum = independenceDay h - 1) ↔
      ((3 ≤ day ∧ day ≤ 4 ∧ D.weekday = 3) ∨ (2 ≤ day ∧ day ≤ 3 ∧ D.weekday = 2) ∨ (day = 5 ∧ D.weekday = 0) ∨
        (day = 6 ∧ D.weekday = 1) ∨ (day = 5 ∧ D.weekday = 2) ∨ (day = 4 ∧ D.weekday = 1)) := by
  have hw := iyar_weekday h1 h2
  rw [weekday_eq_iff D 3 (by omega), weekday_eq_iff D 2 (by omega), weekday_eq_iff D 0 (by omega),
    weekday_eq_iff D 1 (by omega)]
  unfold independenceDay
  dsimp only
  rw [hd]
  generalize beforeMonth h iyar = s at *
  rcases hw with hw | hw | hw | hw <;> simp only [hw] <;> norm_num only [if_true, if_false] <;> omega

/-- The month number the code ends up with. -/
def code (h : ℤ) : Month → ℕ
  | tishri => 1
  | heshvan => 2
  | kislev => 3
  | tevet => 4
  | shevat => 5
  | adarI => 6
  | adar => if leapYear h then 7 else 6
  | nisan => 7
  | iyar => 8
  | sivan => 9
  | tammuz => 10
  | av => 11
  | elul => 12

theorem code_eq {h : ℤ} {mon : Month} (hm : mon ∈ months h) :
    (if leapYear h && decide ((months h).idxOf mon + 1 > 7) then (months h).idxOf mon + 1 - 1
      else (months h).idxOf mon + 1) = code h mon := by
  unfold months at *
  cases hl : leapYear h <;> simp only [hl, if_true, Bool.false_eq_true, if_false] at hm ⊢ <;>
    cases mon <;> first | (simp only [code, hl, if_true, if_false]; decide) | (exfalso; revert hm; decide)

theorem israel_prop (heb : Hebrew) (y : ℤ) (m d wd yd em k day : ℕ) (l : Bool) (o : ℕ)
    (he : heb y m d = (l, o, day)) (hk : (if l && decide (o > 7) then o - 1 else o) = k) :
    Israel.isHoliday heb y m d wd yd em = true ↔
      (k, day) ∈ Israel.JEWISH_HOLIDAYS ∨
      (k = 8 ∧ ((3 ≤ day ∧ day ≤ 4 ∧ wd = 3) ∨ (2 ≤ day ∧ day ≤ 3 ∧ wd = 2) ∨ (day = 5 ∧ wd = 0) ∨
        (day = 6 ∧ wd = 1) ∨ (day = 5 ∧ wd = 2) ∨ (day = 4 ∧ wd = 1))) ∨
      (k = 11 ∧ ((day = 10 ∧ wd = 6) ∨ day = 9)) := by
  unfold Israel.isHoliday
  rw [he]
  dsimp only
  rw [hk]
  simp only [Bool.or_eq_true, Bool.and_eq_true, List.contains_iff_mem, beq_iff_eq, decide_eq_true_eq]
  generalize ((k, day) ∈ Israel.JEWISH_HOLIDAYS) = P
  constructor
  · rintro ((h | ⟨h, h'⟩) | ⟨h, h'⟩)
    · exact Or.inl h
    · exact Or.inr (Or.inl ⟨h, by omega⟩)
    · exact Or.inr (Or.inr ⟨h, by omega⟩)
  · rintro (h | ⟨h, h'⟩ | ⟨h, h'⟩)
    · exact Or.inl (Or.inl h)
    · exact Or.inl (Or.inr ⟨h, by omega⟩)
    · exact Or.inr ⟨h, by omega⟩

/-- The code's test on Hebrew month and day, in terms of the months. -/
theorem israel_iff (heb : Hebrew) (y : ℤ) (m d wd yd em : ℕ) (h : ℤ) (mon : Month) (day : ℕ) (hm : mon ∈ months h)
    (he : heb y m d = (leapYear h, (months h).idxOf mon + 1, day)) :
    Israel.isHoliday heb y m d wd yd em = true ↔
      ((mon, day) ∈ [(elul, 29), (tishri, 1), (tishri, 2), (tishri, 9), (tishri, 10), (tishri, 14), (tishri, 15),
        (tishri, 22), (tishri, 23), (adar, 14), (nisan, 14), (nisan, 15), (nisan, 20), (nisan, 21), (sivan, 5),
        (sivan, 6), (av, 9)] ∨ (mon = av ∧ day = 10 ∧ wd = 6) ∨
      (mon = iyar ∧ ((3 ≤ day ∧ day ≤ 4 ∧ wd = 3) ∨ (2 ≤ day ∧ day ≤ 3 ∧ wd = 2) ∨ (day = 5 ∧ wd = 0) ∨
        (day = 6 ∧ wd = 1) ∨ (day = 5 ∧ wd = 2) ∨ (day = 4 ∧ wd = 1)))) ∨ Mistaken h mon day := by
  rw [israel_prop heb y m d wd yd em (code h mon) day _ _ he (code_eq hm)]
  unfold Mistaken Israel.JEWISH_HOLIDAYS
  have hl : mon = adarI → leapYear h = true := by
    rintro rfl
    by_contra hc
    simp [months, hc] at hm
  simp only [List.mem_cons, Prod.mk.injEq, List.not_mem_nil, or_false]
  cases mon <;> simp only [code, reduceCtorEq, false_and, or_false, false_or, true_and, and_false, and_true,
    false_iff, Nat.reduceEqDiff]
  case adarI => simp [hl rfl]
  case adar => cases leapYear h <;> simp <;> omega
  all_goals try omega

/-! ## C85 -/

/-- C85: every date of the years 1901 to 2199 is exactly one Hebrew date. -/
theorem C85_hebrew_dates (D : Date) (h1 : 1901 ≤ D.year) (h2 : D.year ≤ 2199) :
    ∃! t : ℤ × Month × ℕ, IsDate D t.1 t.2.1 t.2.2 := by
  have hr := days_of_range D h1 h2
  obtain ⟨h, a1, a2, a3, a4⟩ := exists_year hr.1 hr.2
  have hf := (year_facts a1 a2).1
  unfold yearLength at hf
  obtain ⟨mon, hm, b1, b2⟩ := split_year h D.dayNum a3 (by omega)
  refine ⟨(h, mon, (D.dayNum - beforeMonth h mon).toNat), ⟨hm, by dsimp only; omega, by dsimp only; omega,
    by dsimp only; omega⟩, ?_⟩
  rintro ⟨h', mon', day'⟩ hd
  obtain ⟨r1, r2, r3, r4⟩ := isDate_range h1 h2 hd
  dsimp only at r1 r2 r3 r4
  have hh : h' = h := by
    rcases lt_trichotomy h' h with hlt | he | hlt
    · have := newYear_mono hlt; omega
    · exact he
    · have := newYear_mono hlt; omega
  subst hh
  obtain ⟨hm', d1, d2, he⟩ := hd
  dsimp only at hm' d1 d2 he
  have hmm := month_unique hm hm' D.dayNum b1 b2 (by omega) (by omega)
  subst hmm
  simp only [Prod.mk.injEq, true_and]
  omega

/-- C85: in the Israeli market a date of the years 1901 to 2199 is a holiday exactly when its Hebrew date is one of the
listed holidays or one of the mistaken days of leap years. -/
theorem C85_holidays (heb : Hebrew) (hheb : Faithful heb) (D : Date) (h1 : 1901 ≤ D.year) (h2 : D.year ≤ 2199)
    (h : ℤ) (mon : Month) (day : ℕ) (hd : IsDate D h mon day) :
    ∃ b, (Calendar.new .israel).isHoliday heb D = some b ∧ (b = true ↔ Holiday D h mon day ∨ Mistaken h mon day) := by
  have he := hheb D h mon day h1 h2 hd
  obtain ⟨r1, r2, r3, r4⟩ := isDate_range h1 h2 hd
  have r2' : h ≤ 5960 := by
    by_contra hc
    have : h = 5961 := by omega
    have hr := days_of_range D h1 h2
    have : newYear 5961 = 803422 := by decide +kernel
    subst h
    omega
  obtain ⟨hm, d1, d2, hn⟩ := hd
  cases hem : easterMonday D.year false with
  | none => rw [easterMonday_none_iff] at hem; omega
  | some em =>
    simp only [Calendar.isHoliday, Calendar.new, List.not_mem_nil, if_false, marketHoliday, countryRule, hem,
      Option.some.injEq, exists_eq_left']
    rw [israel_iff heb _ _ _ _ _ _ h mon day hm he]
    unfold Holiday
    by_cases hi : mon = iyar
    · subst hi
      rw [independence_iff r1 r2' hn]
      simp only [true_and]
    · have hno : ¬ (D.dayNum = independenceDay h ∨ D.dayNum = independenceDay h - 1) := by
        intro hc
        have hb := independence_bounds h
        refine hi (month_unique hm (iyar_mem h) D.dayNum (by omega) (by omega) (by omega) ?_)
        simp only [monthDays]
        omega
      simp only [hi, hno, false_and, or_false]

/-- C85: a date is a business day there exactly when it is neither a Friday or Saturday nor one of those days. -/
theorem C85_business_days (heb : Hebrew) (hheb : Faithful heb) (D : Date) (h1 : 1901 ≤ D.year) (h2 : D.year ≤ 2199)
    (h : ℤ) (mon : Month) (day : ℕ) (hd : IsDate D h mon day) :
    ∃ b, (Calendar.new .israel).isBusinessDay heb D = some b ∧
      (b = true ↔ D.weekday ≠ 4 ∧ D.weekday ≠ 5 ∧ ¬ Holiday D h mon day ∧ ¬ Mistaken h mon day) := by
  obtain ⟨b, hb, hiff⟩ := C85_holidays heb hheb D h1 h2 h mon day hd
  unfold Calendar.isBusinessDay
  by_cases hw : (Calendar.new .israel).isWeekend D = true
  · refine ⟨false, by simp [hw], ?_⟩
    simp only [Calendar.isWeekend, Calendar.new, Bool.or_eq_true, beq_iff_eq] at hw
    simp only [Bool.false_eq_true, false_iff]
    tauto
  · refine ⟨!b, by simp [hw, hb], ?_⟩
    simp only [Calendar.isWeekend, Calendar.new, Bool.or_eq_true, beq_iff_eq, not_or] at hw
    rw [← not_or, ← hiff]
    cases b <;> simp [hw]

/-- C85: Independence Day falls on a Tuesday, Wednesday or Thursday, and both it and the day before it are holidays on
which the market is not closed for the weekend. -/
theorem C85_independence (heb : Hebrew) (hheb : Faithful heb) (h : ℤ) (hh : 5661 ≤ h ∧ h ≤ 5959) (D : Date) :
    (D.dayNum = independenceDay h →
      (D.weekday = 1 ∨ D.weekday = 2 ∨ D.weekday = 3) ∧ (Calendar.new .israel).isHoliday heb D = some true) ∧
    (D.dayNum = independenceDay h - 1 →
      (D.weekday = 0 ∨ D.weekday = 1 ∨ D.weekday = 2) ∧ (Calendar.new .israel).isHoliday heb D = some true) := by
  have hb := independence_bounds h
  have hw := iyar_weekday (h := h) (by omega) (by omega)
  have hbi := before_iyar (h := h) (by omega) (by omega)
  have hn := newYear_bounds (h + 1)
  rw [molad_eq] at hn
  have key : (D.dayNum = independenceDay h ∨ D.dayNum = independenceDay h - 1) →
      (Calendar.new .israel).isHoliday heb D = some true := by
    intro hD
    obtain ⟨y1, y2⟩ := year_of_days D (by omega) (by omega)
    have hd : IsDate D h iyar (D.dayNum - beforeMonth h iyar).toNat :=
      ⟨iyar_mem h, by omega, by simp only [monthDays]; omega, by omega⟩
    obtain ⟨b, hb1, hb2⟩ := C85_holidays heb hheb D y1 y2 h iyar _ hd
    rw [hb1, hb2.2 (Or.inl (Or.inr (Or.inr hD)))]
  refine ⟨fun hD => ⟨?_, key (Or.inl hD)⟩, fun hD => ⟨?_, key (Or.inr hD)⟩⟩ <;>
  · unfold Date.weekday
    unfold independenceDay at hD
    dsimp only at hD
    generalize beforeMonth h iyar = s at *
    rcases hw with hw | hw | hw | hw <;> simp only [hw] at hD <;> norm_num only [if_true, if_false] at hD <;> omega

/-- C85 (defect): in a leap year 14 Adar I and the 15th, 20th and 21st of Adar, on which there is no holiday, are
holidays of the market. -/
theorem C85_leap_year_defect (heb : Hebrew) (hheb : Faithful heb) (D : Date) (h1 : 1901 ≤ D.year) (h2 : D.year ≤ 2199)
    (h : ℤ) (hl : leapYear h = true) (mon : Month) (day : ℕ) (hd : IsDate D h mon day)
    (hmis : (mon = adarI ∧ day = 14) ∨ (mon = adar ∧ (day = 15 ∨ day = 20 ∨ day = 21))) :
    (Calendar.new .israel).isHoliday heb D = some true ∧ ¬ Holiday D h mon day := by
  have hm : Mistaken h mon day := by
    refine ⟨hl, ?_⟩
    rcases hmis with ⟨rfl, rfl⟩ | ⟨rfl, rfl | rfl | rfl⟩ <;> simp
  obtain ⟨b, hb1, hb2⟩ := C85_holidays heb hheb D h1 h2 h mon day hd
  refine ⟨by rw [hb1, hb2.2 (Or.inr hm)], ?_⟩
  obtain ⟨hmem, d1, d2, hn⟩ := hd
  have hi : mon ≠ iyar := by rcases hmis with ⟨rfl, _⟩ | ⟨rfl, _⟩ <;> simp
  have hno : ¬ (D.dayNum = independenceDay h ∨ D.dayNum = independenceDay h - 1) := by
    intro hc
    have hb := independence_bounds h
    refine hi (month_unique hmem (iyar_mem h) D.dayNum (by omega) (by omega) (by omega) ?_)
    simp only [monthDays]
    omega
  unfold Holiday
  rcases hmis with ⟨rfl, rfl⟩ | ⟨rfl, rfl | rfl | rfl⟩ <;> simp [hno]

/-- An oracle as assumed exists. -/
theorem faithful_exists : ∃ heb, Faithful heb := by
  classical
  refine ⟨fun y m d => if hx : ∃ t : Date × ℤ × Month × ℕ, (1901 ≤ t.1.year ∧ t.1.year ≤ 2199) ∧ t.1.year = y ∧
    t.1.month = m ∧ t.1.day = d ∧ IsDate t.1 t.2.1 t.2.2.1 t.2.2.2
    then (leapYear hx.choose.2.1, (months hx.choose.2.1).idxOf hx.choose.2.2.1 + 1, hx.choose.2.2.2)
    else (false, 0, 0), ?_⟩
  intro D h mon day h1 h2 hd
  have hx : ∃ t : Date × ℤ × Month × ℕ, (1901 ≤ t.1.year ∧ t.1.year ≤ 2199) ∧ t.1.year = D.year ∧
      t.1.month = D.month ∧ t.1.day = D.day ∧ IsDate t.1 t.2.1 t.2.2.1 t.2.2.2 :=
    ⟨(D, h, mon, day), ⟨h1, h2⟩, rfl, rfl, rfl, hd⟩
  dsimp only
  rw [dif_pos hx]
  obtain ⟨_, e1, e2, e3, hI⟩ := hx.choose_spec
  have eD : hx.choose.1 = D := Date.ext' e1 e2 e3
  rw [eD] at hI
  have hu := (C85_hebrew_dates D h1 h2).unique (y₁ := hx.choose.2) (y₂ := (h, mon, day)) hI hd
  rw [hu]

/-- 25 March 2024 was 15 Adar of the leap year 5784: the market, like Purim, should have closed the day before. -/
example (D : Date) (hD : D = ⟨2024, 3, 25, by decide⟩) : IsDate D 5784 adar 15 ∧ leapYear 5784 = true := by
  subst hD; unfold IsDate; decide +kernel

/-- 12 September 2026 is 1 Tishri 5787, and 22 April 2026 is Independence Day (5 Iyar 5786, a Wednesday). -/
example (D E : Date) (hD : D = ⟨2026, 9, 12, by decide⟩) (hE : E = ⟨2026, 4, 22, by decide⟩) :
    IsDate D 5787 tishri 1 ∧ E.dayNum = independenceDay 5786 := by
  subst hD hE; unfold IsDate; decide +kernel

end Verif.Time.HebrewCal
