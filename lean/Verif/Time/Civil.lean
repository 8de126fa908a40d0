import Verif.Time.Date

/-! Helper lemmas: `civil` inverts `dayNum`. -/

namespace Verif.Time

/-- `daysBeforeYear` of a March-based year, in cycles. -/
theorem march_year {era c q a : ℤ} (hc : 0 ≤ c ∧ c ≤ 3) (hq : 0 ≤ q ∧ q ≤ 24) (ha : 0 ≤ a ∧ a ≤ 3) :
    daysBeforeYear (400 * era + 100 * c + 4 * q + a + 1) = 146097 * era + 36524 * c + 1461 * q + 365 * a := by
  unfold daysBeforeYear
  omega

theorem march_leap {era c q a : ℤ} (hc : 0 ≤ c ∧ c ≤ 3) (hq : 0 ≤ q ∧ q ≤ 24) (ha : 0 ≤ a ∧ a ≤ 3) :
    isLeap (400 * era + 100 * c + 4 * q + a + 1) = true ↔ a = 3 ∧ (q ≠ 24 ∨ c = 3) := by
  rw [isLeap_iff]
  have h4 : (400 * era + 100 * c + 4 * q + a + 1) % 4 = 0 ↔ a = 3 := by omega
  rw [h4]
  constructor
  · rintro ⟨rfl, h | h⟩
    · exact ⟨rfl, Or.inl (by omega)⟩
    · refine ⟨rfl, Or.inr ?_⟩; omega
  · rintro ⟨rfl, h⟩
    refine ⟨rfl, ?_⟩
    by_cases hq24 : q = 24
    · right; rcases h with h | h <;> omega
    · left; omega

theorem civil_cases (Y n doy mp N : ℤ) (hmp : (5 * doy + 2) / 153 = mp) (hd : 0 ≤ doy ∧ doy ≤ 365)
    (hdl : doy = 365 → isLeap (Y + 1) = true) (hY : daysBeforeYear (Y + 1) = N) (hn : n = N + doy - 305)
    (m d y : ℤ) (hm : m = if mp < 10 then mp + 3 else mp - 9) (hdd : d = doy - (153 * mp + 2) / 5 + 1)
    (hy : y = Y + (if m ≤ 2 then 1 else 0)) :
    1 ≤ m.toNat ∧ m.toNat ≤ 12 ∧ 1 ≤ d.toNat ∧ d.toNat ≤ monthLength y m.toNat ∧
    daysBeforeYear y + (daysBeforeMonth y m.toNat : ℤ) + d.toNat = n := by
  have h1 : 0 ≤ mp := by omega
  have h2 : mp ≤ 11 := by omega
  have hYp : daysBeforeYear (Y + 1) = daysBeforeYear Y + daysInYear Y := daysBeforeYear_succ Y
  interval_cases mp <;> simp at hm <;> subst hm <;> simp at hy <;> subst hy
  all_goals try (
    simp only [Int.reduceToNat, daysBeforeMonth, monthLength]
    refine ⟨by omega, by omega, by omega, by omega, ?_⟩
    unfold daysInYear at hYp
    split <;> simp_all <;> omega)
  · simp only [Int.reduceToNat, daysBeforeMonth, monthLength]
    refine ⟨by omega, by omega, by omega, by omega, ?_⟩
    push_cast; omega
  · simp only [Int.reduceToNat, daysBeforeMonth, monthLength]
    cases hl : isLeap (Y + 1) with
    | false =>
      rw [hl] at hdl
      have : doy ≠ 365 := fun h => by simpa using hdl h
      simp only [Bool.false_eq_true, if_false]
      exact ⟨by omega, by omega, by omega, by omega, by push_cast; omega⟩
    | true =>
      simp only [if_true]
      exact ⟨by omega, by omega, by omega, by omega, by push_cast; omega⟩

theorem civil_spec (n : ℤ) : 1 ≤ (civil n).2.1 ∧ (civil n).2.1 ≤ 12 ∧ 1 ≤ (civil n).2.2 ∧
    (civil n).2.2 ≤ monthLength (civil n).1 (civil n).2.1 ∧
    daysBeforeYear (civil n).1 + (daysBeforeMonth (civil n).1 (civil n).2.1 : ℤ) + (civil n).2.2 = n := by
  unfold civil
  simp only
  generalize hz : n + 305 = z
  generalize hera : z / 146097 = era
  generalize hdoe : z % 146097 = doe
  generalize hc : min (doe / 36524) 3 = c
  generalize hr : doe - 36524 * c = r
  generalize hq : r / 1461 = q
  generalize hr' : r - 1461 * q = r'
  generalize ha : min (r' / 365) 3 = a
  generalize hdoy : r' - 365 * a = doy
  generalize hmp : (5 * doy + 2) / 153 = mp
  have hcb : 0 ≤ c ∧ c ≤ 3 := by omega
  have hr0 : 0 ≤ r ∧ r ≤ 36524 ∧ (r = 36524 → c = 3) := by omega
  have hqb : 0 ≤ q ∧ q ≤ 24 := by omega
  have hab : 0 ≤ a ∧ a ≤ 3 := by omega
  have hdoyb : 0 ≤ doy ∧ doy ≤ 365 := by omega
  have hdoyl : doy = 365 → a = 3 ∧ (q ≠ 24 ∨ c = 3) := by omega
  have hn : n = 146097 * era + 36524 * c + 1461 * q + 365 * a + doy - 305 := by omega
  exact civil_cases (400 * era + 100 * c + 4 * q + a) n doy mp _ hmp hdoyb
    (fun h => (march_leap hcb hqb hab).2 (hdoyl h)) (march_year hcb hqb hab) hn _ _ _ rfl rfl rfl

/-- A day number in range is the day number of a date. -/
theorem Date.ofDay_some {n : ℤ} (h1 : minDay ≤ n) (h2 : n ≤ maxDay) :
    ∃ d, Date.ofDay n = some d ∧ d.dayNum = n := by
  obtain ⟨c1, c2, c3, c4, c5⟩ := civil_spec n
  have hord : daysBeforeMonth (civil n).1 (civil n).2.1 + (civil n).2.2 ≤ daysInYear (civil n).1 := by
    rcases Nat.lt_or_ge (civil n).2.1 12 with h | h
    · have := daysBeforeMonth_mono (y := (civil n).1) c1 h (by omega)
      have := daysBeforeMonth_dec (civil n).1
      omega
    · have e : (civil n).2.1 = 12 := by omega
      rw [e] at c4 ⊢
      have := daysBeforeMonth_dec (civil n).1
      omega
  have hv : ValidYMD (civil n).1 (civil n).2.1 (civil n).2.2 := by
    refine ⟨?_, ?_, c1, c2, c3, c4⟩
    · by_contra hlt
      have := daysBeforeYear_mono (show (civil n).1 < -9999 by omega)
      unfold minDay at h1
      omega
    · by_contra hgt
      have : daysBeforeYear 10000 ≤ daysBeforeYear (civil n).1 := by
        rcases Int.lt_or_eq_of_le (show (10000 : ℤ) ≤ (civil n).1 by omega) with h | h
        · have := daysBeforeYear_mono h; omega
        · rw [h]
      unfold maxDay at h2
      omega
  refine ⟨⟨_, _, _, hv⟩, ?_, ?_⟩
  · unfold Date.ofDay Date.ofYMD
    rw [dif_pos hv]
  · unfold Date.dayNum Date.ordinal
    push_cast
    omega

theorem Date.ofDay_eq_some_iff {n : ℤ} {d : Date} : Date.ofDay n = some d ↔ d.dayNum = n := by
  constructor
  · intro h
    have hc := (civil_spec n).2.2.2.2
    unfold Date.ofDay Date.ofYMD at h
    split at h
    · cases h
      unfold Date.dayNum Date.ordinal
      push_cast
      omega
    · cases h
  · intro h
    obtain ⟨h1, h2⟩ := d.dayNum_range
    obtain ⟨d', h3, h4⟩ := Date.ofDay_some (n := n) (by omega) (by omega)
    rw [h3, Date.dayNum_inj (h4.trans h.symm)]

theorem Date.ofDay_dayNum (d : Date) : Date.ofDay d.dayNum = some d := Date.ofDay_eq_some_iff.2 rfl

theorem Date.ofDay_none_iff {n : ℤ} : Date.ofDay n = none ↔ n < minDay ∨ maxDay < n := by
  constructor
  · intro h
    by_contra hc
    push Not at hc
    obtain ⟨d, h1, _⟩ := Date.ofDay_some hc.1 hc.2
    rw [h] at h1; cases h1
  · intro h
    cases hd : Date.ofDay n with
    | none => rfl
    | some d =>
      have := Date.ofDay_eq_some_iff.1 hd
      have := d.dayNum_range
      omega

theorem Date.addDays_eq_some_iff {d d' : Date} {k : ℤ} : d.addDays k = some d' ↔ d'.dayNum = d.dayNum + k :=
  Date.ofDay_eq_some_iff

theorem Date.nextDay_eq_some_iff {d d' : Date} : d.nextDay = some d' ↔ d'.dayNum = d.dayNum + 1 :=
  Date.ofDay_eq_some_iff

theorem Date.prevDay_eq_some_iff {d d' : Date} : d.prevDay = some d' ↔ d'.dayNum = d.dayNum - 1 :=
  Date.ofDay_eq_some_iff

theorem Date.ofYMD_eq_some {y : ℤ} {m d : ℕ} {D : Date} :
    Date.ofYMD y m d = some D ↔ D.year = y ∧ D.month = m ∧ D.day = d := by
  unfold Date.ofYMD
  constructor
  · intro h
    split at h
    · cases h; exact ⟨rfl, rfl, rfl⟩
    · cases h
  · rintro ⟨rfl, rfl, rfl⟩
    rw [dif_pos D.valid]

/-- Sanity check of the calendar model: `next_day` goes to the next day of the month, the first of the next month, or
1 January of the next year. -/
theorem Date.nextDay_triple (d : Date) :
    d.nextDay = if d.day < monthLength d.year d.month then Date.ofYMD d.year d.month (d.day + 1)
      else if d.month < 12 then Date.ofYMD d.year (d.month + 1) 1 else Date.ofYMD (d.year + 1) 1 1 := by
  obtain ⟨v1, v2, v3, v4, v5, v6⟩ := d.valid
  have main : ∀ D : Date, D.dayNum = d.dayNum + 1 → d.nextDay = some D := fun D h => Date.nextDay_eq_some_iff.2 h
  split
  · rename_i h
    have hv : ValidYMD d.year d.month (d.day + 1) := ⟨v1, v2, v3, v4, by omega, by omega⟩
    rw [main ⟨_, _, _, hv⟩ (by unfold Date.dayNum Date.ordinal; push_cast; omega)]
    simp [Date.ofYMD, hv]
  · split
    · rename_i h h'
      have hv : ValidYMD d.year (d.month + 1) 1 := ⟨v1, v2, by omega, by omega, by omega, by
        have : 28 ≤ monthLength d.year (d.month + 1) := by
          unfold monthLength; split <;> (try split) <;> omega
        omega⟩
      have := daysBeforeMonth_succ (y := d.year) v3 (by omega : d.month ≤ 11)
      rw [main ⟨_, _, _, hv⟩ (by unfold Date.dayNum Date.ordinal; simp only [this]; push_cast; omega)]
      simp [Date.ofYMD, hv]
    · rename_i h h'
      have hm : d.month = 12 := by omega
      by_cases hy : d.year = 9999
      · have hnv : ¬ ValidYMD (d.year + 1) 1 1 := by unfold ValidYMD; omega
        unfold Date.ofYMD
        rw [dif_neg hnv]
        unfold Date.nextDay Date.addDays
        rw [Date.ofDay_none_iff]
        right
        have h1 := daysBeforeMonth_dec d.year
        have h2 := daysBeforeYear_succ d.year
        have h3 : daysBeforeYear 10000 = daysBeforeYear (d.year + 1) := by rw [hy]; rfl
        rw [hm] at h v6
        unfold maxDay Date.dayNum Date.ordinal
        rw [hm]
        push_cast
        omega
      · have hv : ValidYMD (d.year + 1) 1 1 := ⟨by omega, by omega, by omega, by omega, by omega, by simp [monthLength]⟩
        have h1 := daysBeforeMonth_dec d.year
        have h2 := daysBeforeYear_succ d.year
        rw [hm] at h v6
        rw [main ⟨_, _, _, hv⟩ (by
          unfold Date.dayNum Date.ordinal
          simp only [hm, h2]
          have : daysBeforeMonth (d.year + 1) 1 = 0 := rfl
          rw [this]; push_cast; omega)]
        simp [Date.ofYMD, hv]

/-- The next day has the next weekday. -/
theorem Date.weekday_lt (d : Date) : d.weekday < 7 := by unfold Date.weekday; omega

/-- Anchor: 2024-01-01 was a Monday. -/
example : (Date.ofYMD 2024 1 1).map Date.weekday = some 0 := by decide

end Verif.Time
