import Verif.Time.CalendarProps

/-!
# C21: the Easter table

The specification is the ecclesiastical definition: Easter is the first Sunday strictly after the paschal full moon.
The full moon comes from the Gregorian epact (western) or from the 19-year Julian cycle (orthodox).
-/

namespace Verif.Time

open Countries

/-- Day number of the day before 1 March of year `y`, so that "March `n`" is `marchZero y + n`. -/
def marchZero (y : ℤ) : ℤ := daysBeforeYear y + daysBeforeMonth y 3

/-- The Gregorian paschal full moon (Lilius/Clavius): golden number, century, solar and lunar corrections, epact. -/
def paschalMoonWestern (y : ℤ) : ℤ :=
  let golden := y % 19 + 1
  let century := y / 100 + 1
  let solar := 3 * century / 4 - 12
  let lunar := (8 * century + 5) / 25 - 5
  let e := (11 * golden + 20 + lunar - solar) % 30
  let epact := if e = 24 ∨ (e = 25 ∧ golden > 11) then e + 1 else e
  marchZero y + (if 44 - epact < 21 then 74 - epact else 44 - epact)

/-- The Julian paschal full moon: Julian 21 March plus the age of the moon in the 19-year cycle, as a Gregorian day
(the Julian calendar is `y / 100 - y / 400 - 2` days behind after February). -/
def paschalMoonOrthodox (y : ℤ) : ℤ :=
  marchZero y + 21 + (19 * (y % 19) + 15) % 30 + (y / 100 - y / 400 - 2)

/-- Easter Sunday: the first Sunday strictly after the paschal full moon of its year. -/
def IsEaster (moon : ℤ → ℤ) (E : Date) : Prop :=
  E.weekday = 6 ∧ moon E.year < E.dayNum ∧ E.dayNum ≤ moon E.year + 7

/-- The moon used for each of the two columns of the table. -/
def moonOf (orthodox : Bool) : ℤ → ℤ := if orthodox then paschalMoonOrthodox else paschalMoonWestern

/-! ## Helper lemmas -/

/-- What has to be checked for one year of the table. -/
def easterCheck (orthodox : Bool) (y : ℤ) : Bool :=
  match easterMonday y orthodox with
  | none => false
  | some em =>
    let n := daysBeforeYear y + em - 1
    decide (n % 7 = 0 ∧ moonOf orthodox y < n ∧ n ≤ moonOf orthodox y + 7 ∧ 82 + (if isLeap y then 1 else 0) ≤ em ∧
      em ≤ 134)

theorem easterCheck_all (o : Bool) : ∀ i ∈ List.range 299, easterCheck o (1901 + (i : ℤ)) = true := by
  cases o <;> decide +kernel

theorem easterCheck_year (o : Bool) {y : ℤ} (h1 : 1901 ≤ y) (h2 : y ≤ 2199) : easterCheck o y = true := by
  have := easterCheck_all o (y - 1901).toNat (List.mem_range.2 (by omega))
  rwa [show 1901 + (((y - 1901).toNat : ℕ) : ℤ) = y by omega] at this

/-- Every day of a year is a date. -/
theorem exists_ordinal {y : ℤ} (hy : -9999 ≤ y ∧ y ≤ 9999) {k : ℕ} (h1 : 1 ≤ k) (h2 : k ≤ daysInYear y) :
    ∃ D : Date, D.year = y ∧ D.ordinal = k := by
  have hmin : minDay ≤ daysBeforeYear y + k := by
    unfold minDay
    rcases Int.lt_or_eq_of_le hy.1 with h | h
    · have := daysBeforeYear_mono h; omega
    · rw [← h]; omega
  have hmax : daysBeforeYear y + k ≤ maxDay := by
    unfold maxDay
    have := daysBeforeYear_mono (show y < 10000 by omega)
    omega
  cases hD : Date.ofDay (daysBeforeYear y + k) with
  | none => rw [Date.ofDay_none_iff] at hD; omega
  | some D =>
    rw [Date.ofDay_eq_some_iff] at hD
    have h3 := D.ordinal_pos
    have h4 := D.ordinal_le
    unfold Date.dayNum at hD
    have hyear : D.year = y := by
      rcases lt_trichotomy D.year y with h | h | h
      · have := daysBeforeYear_mono h; omega
      · exact h
      · have := daysBeforeYear_mono h; omega
    exact ⟨D, hyear, by rw [hyear] at hD; omega⟩

theorem easterMonday_range {y : ℤ} {o : Bool} {em : ℕ} (h : easterMonday y o = some em) :
    1901 ≤ y ∧ y ≤ 2199 ∧ 82 ≤ em ∧ em ≤ 134 := by
  have hr : ¬ (y < 1901 ∨ 2199 < y) := by rw [← easterMonday_none_iff y o, h]; simp
  have := easterCheck_year o (y := y) (by omega) (by omega)
  unfold easterCheck at this
  rw [h] at this
  simp only [decide_eq_true_eq] at this
  split at this <;> omega

/-! ## C21 -/

/-- C21: for every year from 1901 to 2199 and both churches there is exactly one Easter Sunday, the next day is a
Monday of the same year, its day of the year is what `easter_monday` returns, and it is never before 23 March. -/
theorem C21_easter_table (orthodox : Bool) (y : ℤ) (h1 : 1901 ≤ y) (h2 : y ≤ 2199) :
    ∃ E M : Date, E.year = y ∧ IsEaster (moonOf orthodox) E ∧
      (∀ E' : Date, E'.year = y → IsEaster (moonOf orthodox) E' → E' = E) ∧
      E.nextDay = some M ∧ M.year = y ∧ M.weekday = 0 ∧
      easterMonday y orthodox = some M.ordinal ∧ (4 ≤ M.month ∨ M.month = 3 ∧ 23 ≤ M.day) := by
  have hc := easterCheck_year orthodox h1 h2
  unfold easterCheck at hc
  cases hem : easterMonday y orthodox with
  | none => rw [hem] at hc; simp at hc
  | some em =>
    rw [hem] at hc
    simp only [decide_eq_true_eq] at hc
    obtain ⟨h7, hm1, hm2, hlo, hhi⟩ := hc
    have hd : 365 ≤ daysInYear y := by unfold daysInYear; split <;> omega
    have hlo' : 82 ≤ em := by split at hlo <;> omega
    obtain ⟨M, hM1, hM2⟩ := exists_ordinal (y := y) (k := em) (by omega) (by omega) (by omega)
    obtain ⟨E, hE1, hE2⟩ := exists_ordinal (y := y) (k := em - 1) (by omega) (by omega) (by omega)
    have hMn : M.dayNum = daysBeforeYear y + em := by unfold Date.dayNum; rw [hM1, hM2]
    have hEn : E.dayNum = daysBeforeYear y + em - 1 := by unfold Date.dayNum; rw [hE1, hE2]; omega
    refine ⟨E, M, hE1, ⟨?_, ?_, ?_⟩, ?_, Date.nextDay_eq_some_iff.2 (by omega), hM1, ?_, by rw [hM2], ?_⟩
    · unfold Date.weekday; omega
    · rw [hE1, hEn]; exact hm1
    · rw [hE1, hEn]; exact hm2
    · rintro E' hE' ⟨hw, ha, hb⟩
      rw [hE'] at ha hb
      unfold Date.weekday at hw
      exact Date.dayNum_inj (by omega)
    · unfold Date.weekday; omega
    · have hv := M.valid
      unfold ValidYMD at hv
      have hml : M.day ≤ monthLength y M.month := by rw [← hM1]; exact hv.2.2.2.2.2
      by_contra hcon
      have hord : M.ordinal = daysBeforeMonth y M.month + M.day := by unfold Date.ordinal; rw [hM1]
      rw [hM2] at hord
      have hmm : M.month = 1 ∨ M.month = 2 ∨ M.month = 3 := by omega
      rcases hmm with hm | hm | hm <;> rw [hm] at hord hml <;>
        simp only [daysBeforeMonth, monthLength] at hord hml <;> split at hlo <;> simp_all <;> omega

/-- C21: outside the years 1901 to 2199 the lookup panics, and only there. -/
theorem C21_outside_panics (orthodox : Bool) (y : ℤ) : easterMonday y orthodox = none ↔ y < 1901 ∨ 2199 < y :=
  easterMonday_none_iff y orthodox

/-- Western Easter 2024 was 31 March; orthodox Easter 2024 was 5 May. -/
example (e : Date) (he : e = ⟨2024, 3, 31, by decide⟩) : IsEaster (moonOf false) e := by
  subst he; unfold IsEaster; decide +kernel
example (e : Date) (he : e = ⟨2024, 5, 5, by decide⟩) : IsEaster (moonOf true) e := by
  subst he; unfold IsEaster; decide +kernel
example : easterMonday 2024 false = some 92 := by decide +kernel
example : easterMonday 1900 false = none := by decide +kernel

example := C21_easter_table true 2024 (by norm_num) (by norm_num)

end Verif.Time
