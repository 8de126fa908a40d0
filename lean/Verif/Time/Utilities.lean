import Verif.Time.Calendar
import Mathlib.Algebra.Order.Field.Rat
import Mathlib.Data.Rat.Cast.Order

/-!
# Date utilities, day counting, frequencies, schedules

Model of the rest of `crates/RustQuant_time/src/utilities.rs`, of `day_counting.rs`, `frequency.rs` and of
`calendar.rs:380-405`.  `f64` values are exact rationals; `none` is a panic (or `Err`, where noted).
-/

namespace Verif.Time

open Countries

/-! ## utilities.rs -/

/-- `utilities.rs:112-114`, `days_between`. -/
def daysBetween (a b : Date) : ℤ := |b.dayNum - a.dayNum|

/-- `utilities.rs:53-55`, `year_fraction`. -/
def yearFraction (a b : Date) : ℚ := daysBetween a b / 365.25

/-- `utilities.rs:58-62`, `is_weekend`. -/
def isWeekendDate (d : Date) : Bool := d.weekday == 5 || d.weekday == 6

/-- `utilities.rs:65-67`, `is_weekday`. -/
def isWeekdayDate (d : Date) : Bool := !isWeekendDate d

/-- `utilities.rs:70-72`, `get_years_in_range`: `(start.year()..=end.year()).collect()`. -/
def yearsInRange (a b : Date) : List ℤ := (List.range (b.year - a.year + 1).toNat).map fun (i : ℕ) => a.year + i

/-- `utilities.rs:97-102`, `get_days_in_years_in_range`. -/
def daysInYearsInRange (a b : Date) : List ℕ := (yearsInRange a b).map daysInYear

/-- `utilities.rs:105-109`, `contains_leap_year`. -/
def containsLeapYear (a b : Date) : Bool := (yearsInRange a b).any isLeap

/-- `utilities.rs:129-135`, `leap_year_count`. -/
def leapYearCount (a b : Date) : ℕ := ((yearsInRange a b).filter isLeap).length

/-- `utilities.rs:138-140`, `is_first_day_of_month`. -/
def isFirstDayOfMonth (d : Date) : Bool := d.day == 1

/-- `utilities.rs:143-145`, `is_last_day_of_month`. -/
def isLastDayOfMonth (d : Date) : Bool := d.day == monthLength d.year d.month

/-- `utilities.rs:148-155`, `is_last_day_of_february`. -/
def isLastDayOfFebruary (d : Date) : Bool :=
  (d.month == 2 && d.day == 28 && !isLeap d.year) || (d.month == 2 && d.day == 29 && isLeap d.year)

/-- The loop of `date_sequence`, `utilities.rs:184-187`. -/
def dateSequenceLoop (cur e : Date) : Option (List Date) :=
  if cur ≤ e then
    match _h : cur.addDays 1 with
    | none => none
    | some nxt => (dateSequenceLoop nxt e).map (cur :: ·)
  else some []
termination_by (maxDay - cur.dayNum).toNat
decreasing_by
  rw [Date.addDays_eq_some_iff] at _h
  have := nxt.dayNum_range
  omega

/-- `utilities.rs:180-190`, `date_sequence`.  For `end < start` the capacity `(end - start) as usize` is a huge number
and `Vec::with_capacity` panics. -/
def dateSequence (s e : Date) : Option (List Date) := if e.dayNum < s.dayNum then none else dateSequenceLoop s e

/-- `utilities.rs:193-195`, `get_first_day_of_month` (`none` is `Err`). -/
def getFirstDayOfMonth (y : ℤ) (m : ℕ) : Option ℕ := (Date.ofYMD y m 1).map Date.weekday

/-- `utilities.rs:198-204`, `get_last_day_of_month` (`none` is `Err`, or the panic of `+`). -/
def getLastDayOfMonth (y : ℤ) (m : ℕ) : Option ℕ :=
  (Date.ofYMD y m 1).bind fun d => (d.addDays (monthLength y m)).map Date.weekday

/-- `time::Date::next_occurrence`: the next date strictly later with the given weekday.
Called at utilities.rs 212-272. -/
def Date.nextOccurrence (d : Date) (w : ℕ) : Option Date :=
  d.addDays (if (w + 7 - d.weekday) % 7 = 0 then 7 else ((w + 7 - d.weekday) % 7 : ℕ))

/-- `time::Date::prev_occurrence`: the latest date strictly earlier with the given weekday.
Called at utilities.rs 283-349. -/
def Date.prevOccurrence (d : Date) (w : ℕ) : Option Date :=
  d.addDays (-(if (d.weekday + 7 - w) % 7 = 0 then 7 else ((d.weekday + 7 - w) % 7 : ℕ)))

/-- `utilities.rs:207-274`, `get_first_monday_of_month` … `get_first_sunday_of_month`: seven copies of one function,
here indexed by the weekday. -/
def getFirstOfMonth (w : ℕ) (y : ℤ) (m : ℕ) : Option Date :=
  (Date.ofYMD y m 1).bind fun d => if d.weekday = w then some d else d.nextOccurrence w

/-- `utilities.rs:277-351`, `get_last_monday_of_month` … `get_last_sunday_of_month`. -/
def getLastOfMonth (w : ℕ) (y : ℤ) (m : ℕ) : Option Date :=
  (Date.ofYMD y m (monthLength y m)).bind fun d => if d.weekday = w then some d else d.prevOccurrence w

/-! ## day_counting.rs -/

/-- `day_counting.rs:22-97`, `DayCountConvention`. -/
inductive DayCount where
  | oneOne | act360 | act364 | act366 | act36525 | act365Actual | act365Fixed | act365Leap | actActAFB | actActICMA
  | actActISDA | nl360 | nl365 | thirty360ISDA | thirtyE360 | thirtyE360ISDA | thirtyE365 | thirtyEPlus360 | thirtyU360
deriving DecidableEq

/-- `(end - start).whole_days() as f64`. Written e.g. at day_counting.rs 189. -/
def wholeDays (a b : Date) : ℚ := ((b.dayNum - a.dayNum : ℤ) : ℚ)

/-- `day_counting.rs:130-150`, Actual/Actual AFB. -/
def factorAFB (a b : Date) : Option ℚ :=
  (Date.ofYMD a.year b.month b.day).bind fun s =>
    (if s < a then Date.ofYMD (a.year + 1) b.month b.day else Date.ofYMD a.year b.month b.day).map fun stub =>
      if containsLeapYear a stub then ((b.year - stub.year : ℤ) : ℚ) + wholeDays a stub / 366
      else wholeDays a b / 365

/-- `day_counting.rs:158-185`, Actual/Actual ISDA. -/
def factorISDA (a b : Date) : Option ℚ :=
  if a = b then some 0
  else (Date.ofYMD (a.year + 1) 1 1).bind fun j1 => (Date.ofYMD b.year 1 1).map fun j2 =>
    ((b.year - a.year - 1 : ℤ) : ℚ) + (daysBetween a j1 : ℚ) / (if isLeap a.year then 366 else 365)
      + (daysBetween j2 b : ℚ) / (if isLeap b.year then 366 else 365)

/-- `day_counting.rs:346-355`, `thirty_360_numerator`. -/
def thirtyNumerator (y1 y2 m1 m2 d1 d2 : ℤ) : ℚ := ((360 * (y2 - y1) + 30 * (m2 - m1) + (d2 - d1) : ℤ) : ℚ)

/-- `day_counting.rs:250-263`, 30/360 ISDA. -/
def factor30ISDA (a b : Date) : ℚ :=
  let d1 : ℤ := if a.day = 31 then 30 else a.day
  let d2 : ℤ := if d1 = 30 ∧ b.day = 31 then 30 else b.day
  thirtyNumerator a.year b.year a.month b.month d1 d2 / 360

/-- `day_counting.rs:266-279`, 30E/360. -/
def factor30E (a b : Date) : ℚ :=
  let d1 : ℤ := if a.day = 31 then 30 else a.day
  let d2 : ℤ := if b.day = 31 then 30 else b.day
  thirtyNumerator a.year b.year a.month b.month d1 d2 / 360

/-- The adjustment `day == 31 || is_last_day_of_february(date)` of `day_counting.rs:286-292` and `:334-340`. -/
def febAdj (d : Date) : ℤ := if d.day = 31 ∨ isLastDayOfFebruary d = true then 30 else d.day

/-- `day_counting.rs:282-295`, 30E/360 ISDA. -/
def factor30EISDA (a b : Date) : ℚ := thirtyNumerator a.year b.year a.month b.month (febAdj a) (febAdj b) / 360

/-- `day_counting.rs:330-343`, 30E/365. -/
def factor30E365 (a b : Date) : ℚ := thirtyNumerator a.year b.year a.month b.month (febAdj a) (febAdj b) / 365

/-- `day_counting.rs:298-311`, 30E+/360: an end day of 31 is replaced by the next date; `next_day().unwrap()` panics
for the last representable date. -/
def factor30EPlus (a b : Date) : Option ℚ :=
  let d1 : ℤ := if a.day = 31 then 30 else a.day
  if b.day = 31 then
    b.nextDay.map fun n => thirtyNumerator a.year n.year a.month n.month d1 n.day / 360
  else some (thirtyNumerator a.year b.year a.month b.month d1 b.day / 360)

/-- `day_counting.rs:314-327`, 30U/360.  `&&` binds tighter than `||`. -/
def factor30U (a b : Date) : ℚ :=
  let d1 : ℤ := febAdj a
  let d2 : ℤ := if (b.day = 31 ∧ d1 = 30) ∨ isLastDayOfFebruary b = true then 30 else b.day
  thirtyNumerator a.year b.year a.month b.month d1 d2 / 360

/-- `day_counting.rs:105-127`, `day_count_factor`, with the one-line conventions of lines 188-247 inlined;
`Actual_Actual_ICMA` is `todo!()` (line 153-155). -/
def DayCount.factor (conv : DayCount) (a b : Date) : Option ℚ :=
  match conv with
  | .oneOne => some 1
  | .act360 => some (wholeDays a b / 360)
  | .act364 => some (wholeDays a b / 364)
  | .act366 => some (wholeDays a b / 366)
  | .act36525 => some (wholeDays a b / 365.25)
  | .act365Actual => some (if containsLeapYear a b then wholeDays a b / 366 else wholeDays a b / 365)
  | .act365Fixed => some (wholeDays a b / 365)
  | .act365Leap => some (if containsLeapYear a b then wholeDays a b / 366 else wholeDays a b / 365)
  | .actActAFB => factorAFB a b
  | .actActICMA => none
  | .actActISDA => factorISDA a b
  | .nl360 => some ((wholeDays a b - leapYearCount a b) / 360)
  | .nl365 => some ((wholeDays a b - leapYearCount a b) / 365)
  | .thirty360ISDA => some (factor30ISDA a b)
  | .thirtyE360 => some (factor30E a b)
  | .thirtyE360ISDA => some (factor30EISDA a b)
  | .thirtyE365 => some (factor30E365 a b)
  | .thirtyEPlus360 => factor30EPlus a b
  | .thirtyU360 => some (factor30U a b)

/-! ## frequency.rs -/

/-- `frequency.rs:21-55`, `Frequency`. -/
inductive Frequency where
  | daily | weekly | biWeekly | semiMonthly | monthly | semiQuarterly | quarterly | triAnnually | semiAnnually | annually
  | zero
deriving DecidableEq

/-- The discriminants, `frequency.rs:21-55` with `constants.rs:31-40`. -/
def Frequency.value : Frequency → ℤ
  | .daily => 252 | .weekly => 52 | .biWeekly => 26 | .semiMonthly => 24 | .monthly => 12 | .semiQuarterly => 6
  | .quarterly => 4 | .triAnnually => 3 | .semiAnnually => 2 | .annually => 1 | .zero => 0

/-- `frequency.rs:65-91`, `infer_frequency`. -/
def inferFrequency (a b : Date) : Option Frequency :=
  let diff := b.dayNum - a.dayNum
  if diff = 1 then some .daily
  else if diff = 7 then some .weekly
  else if diff = 14 then some .biWeekly
  else if diff > 14 ∧ diff < 16 then some .semiMonthly
  else if diff ≥ 28 ∧ diff ≤ 31 then some .monthly
  else if diff ≥ 45 ∧ diff ≤ 46 then some .semiQuarterly
  else if diff ≥ 91 ∧ diff ≤ 92 then some .quarterly
  else if diff ≥ 121 ∧ diff ≤ 122 then some .triAnnually
  else if diff ≥ 182 ∧ diff ≤ 183 then some .semiAnnually
  else if diff ≥ 365 ∧ diff ≤ 366 then some .annually
  else none

/-! ## Schedules -/

/-- `calendar.rs:372-377`, `day_count_factors`. -/
def dayCountFactors (conv : DayCount) (ds : List Date) : Option (List ℚ) := (pairs conv.factor ds).mapM id

/-- `schedule.rs:31-43`, `Schedule`. -/
structure Schedule where
  dates : List Date
  factors : List ℚ
  dayCount : DayCount
  rolling : RollConvention

/-- `calendar.rs:380-405`, `generate_schedule_from_dates`; `today` is the clock reading.  `rolled_dates[0]` panics for
an empty list. -/
def Calendar.generateSchedule (heb : Hebrew) (c : Calendar) (today : Date) (ds : List Date) (rc : RollConvention)
    (dc : DayCount) : Option Schedule :=
  (c.rollDates heb ds rc).bind fun rolled =>
    (dayCountFactors dc rolled).bind fun fs =>
      match rolled with
      | [] => none
      | r0 :: _ => (dc.factor today r0).map fun f0 => ⟨rolled, f0 :: fs, dc, rc⟩

end Verif.Time
