import Verif.Time.CalendarProps

/-!
# The Hebrew calendar

Specification used for the Israeli market.  Nothing here is in `/repo`: the code asks the crate `icu` for the Hebrew
date.  The calendar is given by its traditional rules: the mean new moon of Tishri counted from the first one
(`BaHaRaD`), the four postponements of the new year, the nineteen-year cycle of leap years and the lengths of the
months.
-/

namespace Verif.Time.HebrewCal

inductive Month where
  | tishri | heshvan | kislev | tevet | shevat | adarI | adar | nisan | iyar | sivan | tammuz | av | elul
deriving DecidableEq

open Month

/-- Seven leap years in every nineteen: years 3, 6, 8, 11, 14, 17 and 19 of the cycle. -/
def leapYear (h : ℤ) : Bool := [3, 6, 8, 11, 14, 17, 0].contains (h % 19)

/-- The months of a year in order; a leap year has a first Adar before Adar. -/
def months (h : ℤ) : List Month :=
  if leapYear h then [tishri, heshvan, kislev, tevet, shevat, adarI, adar, nisan, iyar, sivan, tammuz, av, elul]
  else [tishri, heshvan, kislev, tevet, shevat, adar, nisan, iyar, sivan, tammuz, av, elul]

/-- Months from the first Tishri to the Tishri of year `h` (235 in nineteen years). -/
def monthsBefore (h : ℤ) : ℤ := (235 * h - 234) / 19

/-- The mean new moon of Tishri in parts (1080 to the hour), from the beginning of a Sunday.  The first was on a Monday
at 5 hours 204 parts; a lunation is 29 days 12 hours 793 parts. -/
def molad (h : ℤ) : ℤ := (24 * 1080 + 5 * 1080 + 204) + (29 * 24 * 1080 + 12 * 1080 + 793) * monthsBefore h

/-- The day of the new year counted from that Sunday (so `% 7` is the weekday, 0 for Sunday).  It is the day of the new
moon, except that it is postponed
* when the new moon is at noon or later (18 hours), or on a Tuesday from 9 hours 204 parts on in a common year, or on a
  Monday from 15 hours 589 parts on after a leap year;
* and then when it would be a Sunday, a Wednesday or a Friday. -/
def newYearCount (h : ℤ) : ℤ :=
  let day := molad h / (24 * 1080)
  let parts := molad h % (24 * 1080)
  let late := 18 * 1080 ≤ parts ∨ (day % 7 = 2 ∧ 9 * 1080 + 204 ≤ parts ∧ leapYear h = false) ∨
    (day % 7 = 1 ∧ 15 * 1080 + 589 ≤ parts ∧ leapYear (h - 1) = true)
  let day' := if late then day + 1 else day
  if day' % 7 = 0 ∨ day' % 7 = 3 ∨ day' % 7 = 5 then day' + 1 else day'

/-- 1 Tishri of year `h` as a day number. -/
def newYear (h : ℤ) : ℤ := newYearCount h - 1373428

/-- Days in year `h`. -/
def yearLength (h : ℤ) : ℤ := newYear (h + 1) - newYear h

/-- Days in a month.  Heshvan is long in years of 355 and 385 days, Kislev short in years of 353 and 383. -/
def monthDays (h : ℤ) : Month → ℤ
  | tishri => 30
  | heshvan => if yearLength h % 10 = 5 then 30 else 29
  | kislev => if yearLength h % 10 = 3 then 29 else 30
  | tevet => 29
  | shevat => 30
  | adarI => 30
  | adar => 29
  | nisan => 30
  | iyar => 29
  | sivan => 30
  | tammuz => 29
  | av => 30
  | elul => 29

/-- Day number of the day before the first of a month. -/
def beforeMonth (h : ℤ) (mon : Month) : ℤ :=
  newYear h - 1 + (((months h).takeWhile (· ≠ mon)).map (monthDays h)).sum

/-- The Gregorian date `D` is the Hebrew date `day mon h`. -/
def IsDate (D : Date) (h : ℤ) (mon : Month) (day : ℕ) : Prop :=
  mon ∈ months h ∧ 1 ≤ day ∧ (day : ℤ) ≤ monthDays h mon ∧ D.dayNum = beforeMonth h mon + day

/-- What is assumed of the crate `icu`: for dates of the years 1901 to 2199 it answers whether the Hebrew year is a leap
year, the place of the month in that year (from 1), and the day of the month. -/
def Faithful (heb : Countries.Hebrew) : Prop :=
  ∀ (D : Date) (h : ℤ) (mon : Month) (day : ℕ), 1901 ≤ D.year → D.year ≤ 2199 → IsDate D h mon day →
    heb D.year D.month D.day = (leapYear h, (months h).idxOf mon + 1, day)

/-- Israeli Independence Day of year `h`: 5 Iyar, brought forward to Thursday from Friday and Saturday and put off to
Tuesday from Monday (weekday of day number `n`: `(n - 1) % 7`, 0 for Monday). -/
def independenceDay (h : ℤ) : ℤ :=
  let n := beforeMonth h iyar + 5
  if (n - 1) % 7 = 4 then n - 1 else if (n - 1) % 7 = 5 then n - 2 else if (n - 1) % 7 = 0 then n + 1 else n

/-- The holidays the market means to observe: the days of Rosh Hashana, Yom Kippur, Sukkot, Simchat Torah, Passover
(first and last day) and Shavuot with their eves, Purim, the fast of Av (10 Av when 9 Av is a Saturday), Independence
Day and the day before it. -/
def Holiday (D : Date) (h : ℤ) (mon : Month) (day : ℕ) : Prop :=
  (mon, day) ∈ [(elul, 29), (tishri, 1), (tishri, 2), (tishri, 9), (tishri, 10), (tishri, 14), (tishri, 15),
    (tishri, 22), (tishri, 23), (adar, 14), (nisan, 14), (nisan, 15), (nisan, 20), (nisan, 21), (sivan, 5), (sivan, 6),
    (av, 9)] ∨
  (mon = av ∧ day = 10 ∧ D.weekday = 6) ∨
  D.dayNum = independenceDay h ∨ D.dayNum = independenceDay h - 1

/-- The days the code takes for holidays by mistake: in a leap year 14 Adar I and three days of Adar, a month before the
days of Passover. -/
def Mistaken (h : ℤ) (mon : Month) (day : ℕ) : Prop :=
  leapYear h = true ∧ (mon, day) ∈ [(adarI, 14), (adar, 15), (adar, 20), (adar, 21)]

end Verif.Time.HebrewCal
