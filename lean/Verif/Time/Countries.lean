import Verif.Time.Date

/-!
# Country holiday rules

Generated by `tools/gen_countries.py` from `crates/RustQuant_time/src/countries/*.rs` (Israel by hand), one definition
per Rust function, expression by expression.  `y m d` are the civil date, `wd` the weekday (0 = Monday), `yd` the day
of the year and `em` the day of the year of Easter Monday.  `u16` subtractions such as `em - 3` are natural-number
subtractions here; `em` is at least 82 (`Verif.Time.easterMonday_range`), so they never underflow.
-/

namespace Verif.Time.Countries

/-- `utilities.rs:354-356`, `is_christmas_day`. -/
def is_christmas_day (_y : ℤ) (m d _wd : ℕ) : Bool := m == 12 && d == 25

/-- `utilities.rs:359-361`, `is_christmas_eve`. -/
def is_christmas_eve (_y : ℤ) (m d _wd : ℕ) : Bool := m == 12 && d == 24

/-- `utilities.rs:364-366`, `is_new_years_day`. -/
def is_new_years_day (_y : ℤ) (m d _wd : ℕ) : Bool := m == 1 && d == 1

/-- `utilities.rs:369-372`, `is_new_years_eve`. -/
def is_new_years_eve (_y : ℤ) (m d wd : ℕ) : Bool := (d == 31 || (d == 30 && wd == 4)) && m == 12

/-- `countries/argentina.rs:17-50`, `is_holiday_impl_argentina`. -/
def Argentina.isHoliday (y : ℤ) (m : ℕ) (d : ℕ) (wd : ℕ) (yd : ℕ) (em : ℕ) : Bool :=
  ((is_christmas_day y m d wd)
    || (yd == (em - 4))
    || (yd == (em - 3))
    || ((d == 1) && (m == 5))
    || ((d == 25) && (m == 5))
    || ((decide (15 ≤ d) && decide (d ≤ 21)) && (wd == 0) && (m == 6))
    || ((d == 9) && (m == 7))
    || ((decide (15 ≤ d) && decide (d ≤ 21)) && (wd == 0) && (m == 8))
    || (((d == 10) || (d == 11) || (d == 12) || (d == 15) || (d == 16)) && (wd == 0) && (m == 10))
    || ((d == 8) && (m == 12))
    || (is_christmas_eve y m d wd)
    || (is_new_years_eve y m d wd))

/-- `countries/australia.rs:17-48`, `is_holiday_impl_australia`. -/
def Australia.isHoliday (y : ℤ) (m : ℕ) (d : ℕ) (wd : ℕ) (yd : ℕ) (em : ℕ) : Bool :=
  ((((d == 1) || (((d == 2) || (d == 3)) && (wd == 0))) && (m == 1))
    || (((d == 26) || (((d == 27) || (d == 28)) && (wd == 0))) && (m == 1))
    || (yd == (em - 3))
    || (yd == em)
    || ((d == 25) && (m == 4))
    || ((decide (d > 7) && decide (d ≤ 14)) && (wd == 0) && (m == 6))
    || (decide (d ≤ 7) && (wd == 0) && (m == 8))
    || (decide (d ≤ 7) && (wd == 0) && (m == 10))
    || (((d == 25) || ((d == 27) && ((wd == 0) || (wd == 1)))) && (m == 12))
    || (((d == 26) || ((d == 28) && ((wd == 0) || (wd == 1)))) && (m == 12))
    || ((d == 22) && (m == 9) && (y == 2022)))

/-- `countries/austria.rs:17-67`, `is_holiday_impl_austria`. -/
def Austria.isHoliday (y : ℤ) (m : ℕ) (d : ℕ) (_wd : ℕ) (yd : ℕ) (em : ℕ) : Bool :=
  (((d == 1) && (m == 1))
    || ((d == 6) && (m == 1))
    || (yd == em)
    || (yd == (em + 38))
    || (yd == (em + 49))
    || (yd == (em + 59))
    || ((d == 1) && (m == 5))
    || ((d == 15) && (m == 8))
    || ((d == 26) && (m == 10) && decide (y ≥ 1967))
    || ((d == 12) && (m == 11) && (decide (1919 ≤ y) && decide (y ≤ 1934)))
    || ((d == 1) && (m == 11))
    || ((d == 8) && (m == 12))
    || ((d == 25) && (m == 12))
    || ((d == 26) && (m == 12)))

/-- `countries/botswana.rs:17-58`, `is_holiday_impl_botswana`. -/
def Botswana.isHoliday (_y : ℤ) (m : ℕ) (d : ℕ) (wd : ℕ) (yd : ℕ) (em : ℕ) : Bool :=
  ((((d == 1) || ((d == 2) && (wd == 0)) || ((d == 3) && (wd == 1))) && (m == 1))
    || (yd == (em - 3))
    || (yd == em)
    || (((d == 1) || ((d == 2) && (wd == 0))) && (m == 5))
    || (yd == (em + 38))
    || (((d == 1) || ((d == 2) && (wd == 0))) && (m == 7))
    || ((decide (15 ≤ d) && decide (d ≤ 21)) && (wd == 0) && (m == 7))
    || (((d == 30) && (m == 9)) || ((d == 1) && (wd == 0) && (m == 10)))
    || (((d == 1) || ((d == 2) && (wd == 0)) || ((d == 3) && (wd == 1))) && (m == 10))
    || ((d == 25) && (m == 12))
    || (((d == 26) || ((d == 27) && (wd == 0))) && (m == 12)))

/-- `countries/brazil.rs:17-61`, `is_holiday_impl_brazil`. -/
def Brazil.isHoliday (y : ℤ) (m : ℕ) (d : ℕ) (_wd : ℕ) (yd : ℕ) (em : ℕ) : Bool :=
  (((d == 1) && (m == 1))
    || ((d == 21) && (m == 4))
    || ((d == 1) && (m == 5))
    || ((d == 7) && (m == 9))
    || ((d == 12) && (m == 10))
    || ((d == 2) && (m == 11))
    || ((d == 15) && (m == 11))
    || ((d == 20) && (m == 11) && decide (y ≥ 2024))
    || ((d == 25) && (m == 12))
    || (yd == (em - 3))
    || ((yd == (em - 49)) || (yd == (em - 48)))
    || (yd == (em + 59)))

/-- `countries/canada.rs:17-62`, `is_holiday_impl_canada`. -/
def Canada.isHoliday (y : ℤ) (m : ℕ) (d : ℕ) (wd : ℕ) (yd : ℕ) (em : ℕ) : Bool :=
  ((((d == 1) || (((d == 2) || (d == 3)) && (wd == 0))) && (m == 1))
    || ((decide (15 ≤ d) && decide (d ≤ 21)) && (wd == 0) && (m == 2) && decide (y ≥ 2008))
    || (yd == (em - 3))
    || (decide (d > 17) && decide (d ≤ 24) && (wd == 0) && (m == 5))
    || (((d == 1) || (((d == 2) || (d == 3)) && (wd == 0))) && (m == 7))
    || (decide (d ≤ 7) && (wd == 0) && (m == 8))
    || (decide (d ≤ 7) && (wd == 0) && (m == 9))
    || ((((d == 30) && (m == 9)) || (decide (d ≤ 2) && (m == 10) && (wd == 0))) && decide (y ≥ 2021))
    || (decide (d > 7) && decide (d ≤ 14) && (wd == 0) && (m == 10))
    || (((d == 11) || (((d == 12) || (d == 13)) && (wd == 0))) && (m == 11))
    || (((d == 25) || ((d == 27) && ((wd == 0) || (wd == 1)))) && (m == 12))
    || (((d == 26) || ((d == 28) && ((wd == 0) || (wd == 1)))) && (m == 12)))

/-- `countries/chile.rs:17-79`, `is_holiday_impl_chile`. -/
def Chile.isHoliday (y : ℤ) (m : ℕ) (d : ℕ) (wd : ℕ) (yd : ℕ) (em : ℕ) : Bool :=
  (((d == 1) && (m == 1))
    || ((d == 2) && (m == 1) && (wd == 0) && decide (y > 2016))
    || (yd == (em - 3))
    || (yd == (em - 2))
    || ((d == 1) && (m == 5))
    || ((d == 21) && (m == 5))
    || ((d == 21) && (m == 6) && decide (y ≥ 2021))
    || ((decide (26 ≤ d) && decide (d ≤ 29)) && (m == 6) && (wd == 0))
    || ((d == 2) && (m == 7) && (wd == 0))
    || ((d == 16) && (m == 7))
    || ((d == 15) && (m == 8))
    || ((d == 17) && (m == 9) && (((wd == 0) && decide (y ≥ 2007)) || ((wd == 4) && decide (y > 2016))))
    || ((d == 18) && (m == 9))
    || ((d == 19) && (m == 9))
    || ((d == 20) && (m == 9) && (wd == 4) && decide (y ≥ 2007))
    || ((decide (9 ≤ d) && decide (d ≤ 12)) && (m == 10) && (wd == 0))
    || ((d == 15) && (m == 10) && (wd == 0))
    || ((((d == 27) && (m == 10) && (wd == 4)) || ((d == 31) && (m == 10) && (wd != 1) && (wd != 2)) || ((d == 2) && (m == 11) && (wd == 4))) && decide (y ≥ 2008))
    || ((d == 1) && (m == 11))
    || ((d == 8) && (m == 12))
    || ((d == 25) && (m == 12)))

/-- `countries/china.rs:17-163`, `is_holiday_impl_china`. -/
def China.isHoliday (y : ℤ) (m : ℕ) (d : ℕ) (_wd : ℕ) (_yd : ℕ) (_em : ℕ) : Bool :=
  (((d == 1) && (m == 1))
    || ((y == 2005) && (d == 3) && (m == 1))
    || ((y == 2006) && ((d == 2) || (d == 3)) && (m == 1))
    || ((y == 2007) && decide (d ≤ 3) && (m == 1))
    || ((y == 2007) && (d == 31) && (m == 12))
    || ((y == 2009) && (d == 2) && (m == 1))
    || ((y == 2011) && (d == 3) && (m == 1))
    || ((y == 2012) && ((d == 2) || (d == 3)) && (m == 1))
    || ((y == 2013) && decide (d ≤ 3) && (m == 1))
    || ((y == 2014) && (d == 1) && (m == 1))
    || ((y == 2015) && decide (d ≤ 3) && (m == 1))
    || ((y == 2017) && (d == 2) && (m == 1))
    || ((y == 2018) && (d == 1) && (m == 1))
    || ((y == 2018) && (d == 31) && (m == 12))
    || ((y == 2019) && (d == 1) && (m == 1))
    || ((y == 2020) && (d == 1) && (m == 1))
    || ((y == 2021) && (d == 1) && (m == 1))
    || ((y == 2022) && (d == 3) && (m == 1))
    || ((y == 2023) && (d == 2) && (m == 1))
    || ((y == 2004) && (decide (19 ≤ d) && decide (d ≤ 28)) && (m == 1))
    || ((y == 2005) && (decide (7 ≤ d) && decide (d ≤ 15)) && (m == 2))
    || ((y == 2006) && ((decide (d ≥ 26) && (m == 1)) || (decide (d ≤ 3) && (m == 2))))
    || ((y == 2007) && (decide (17 ≤ d) && decide (d ≤ 25)) && (m == 2))
    || ((y == 2008) && (decide (6 ≤ d) && decide (d ≤ 12)) && (m == 2))
    || ((y == 2009) && (decide (26 ≤ d) && decide (d ≤ 30)) && (m == 1))
    || ((y == 2010) && (decide (15 ≤ d) && decide (d ≤ 19)) && (m == 2))
    || ((y == 2011) && (decide (2 ≤ d) && decide (d ≤ 8)) && (m == 2))
    || ((y == 2012) && (decide (23 ≤ d) && decide (d ≤ 28)) && (m == 1))
    || ((y == 2013) && (decide (11 ≤ d) && decide (d ≤ 15)) && (m == 2))
    || ((y == 2014) && decide (d ≥ 31) && (m == 1))
    || ((y == 2014) && decide (d ≤ 6) && (m == 2))
    || ((y == 2015) && (decide (18 ≤ d) && decide (d ≤ 24)) && (m == 2))
    || ((y == 2016) && (decide (8 ≤ d) && decide (d ≤ 12)) && (m == 2))
    || ((y == 2017) && ((decide (d ≥ 27) && (m == 1)) || (decide (d ≤ 2) && (m == 2))))
    || ((y == 2018) && ((decide (15 ≤ d) && decide (d ≤ 21)) && (m == 2)))
    || ((y == 2019) && (decide (4 ≤ d) && decide (d ≤ 8)) && (m == 2))
    || ((y == 2020) && ((d == 24) || (decide (27 ≤ d) && decide (d ≤ 31))) && (m == 1))
    || ((y == 2021) && ((d == 11) || (d == 12) || (d == 15) || (d == 16) || (d == 17)) && (m == 2))
    || ((y == 2022) && (((d == 31) && (m == 1)) || (decide (d ≤ 4) && (m == 2))))
    || ((y == 2023) && (decide (23 ≤ d) && decide (d ≤ 27)) && (m == 1))
    || (decide (y ≤ 2008) && (d == 4) && (m == 4))
    || ((y == 2009) && (d == 6) && (m == 4))
    || ((y == 2010) && (d == 5) && (m == 4))
    || ((y == 2011) && (decide (3 ≤ d) && decide (d ≤ 5)) && (m == 4))
    || ((y == 2012) && (decide (2 ≤ d) && decide (d ≤ 4)) && (m == 4))
    || ((y == 2013) && (decide (4 ≤ d) && decide (d ≤ 5)) && (m == 4))
    || ((y == 2014) && (d == 7) && (m == 4))
    || ((y == 2015) && (decide (5 ≤ d) && decide (d ≤ 6)) && (m == 4))
    || ((y == 2016) && (d == 4) && (m == 4))
    || ((y == 2017) && (decide (3 ≤ d) && decide (d ≤ 4)) && (m == 4))
    || ((y == 2018) && (decide (5 ≤ d) && decide (d ≤ 6)) && (m == 4))
    || ((y == 2019) && (d == 5) && (m == 4))
    || ((y == 2020) && (d == 6) && (m == 4))
    || ((y == 2021) && (d == 5) && (m == 4))
    || ((y == 2022) && (decide (4 ≤ d) && decide (d ≤ 5)) && (m == 4))
    || ((y == 2023) && (d == 5) && (m == 4))
    || (decide (y ≤ 2007) && (decide (1 ≤ d) && decide (d ≤ 7)) && (m == 5))
    || ((y == 2008) && (decide (1 ≤ d) && decide (d ≤ 2)) && (m == 5))
    || ((y == 2009) && (d == 1) && (m == 5))
    || ((y == 2010) && (d == 3) && (m == 5))
    || ((y == 2011) && (d == 2) && (m == 5))
    || ((y == 2012) && (((d == 30) && (m == 4)) || ((d == 1) && (m == 5))))
    || ((y == 2013) && ((decide (d ≥ 29) && (m == 4)) || ((d == 1) && (m == 5))))
    || ((y == 2014) && (decide (1 ≤ d) && decide (d ≤ 3)) && (m == 5))
    || ((y == 2015) && (d == 1) && (m == 5))
    || ((y == 2016) && (decide (1 ≤ d) && decide (d ≤ 2)) && (m == 5))
    || ((y == 2017) && (d == 1) && (m == 5))
    || ((y == 2018) && (((d == 30) && (m == 4)) || ((d == 1) && (m == 5))))
    || ((y == 2019) && (decide (1 ≤ d) && decide (d ≤ 3)) && (m == 5))
    || ((y == 2020) && ((d == 1) || (d == 4) || (d == 5)) && (m == 5))
    || ((y == 2021) && ((d == 3) || (d == 4) || (d == 5)) && (m == 5))
    || ((y == 2022) && (decide (2 ≤ d) && decide (d ≤ 4)) && (m == 5))
    || ((y == 2023) && (decide (1 ≤ d) && decide (d ≤ 3)) && (m == 5))
    || (decide (y ≤ 2008) && (d == 9) && (m == 6))
    || ((y == 2009) && ((d == 28) || (d == 29)) && (m == 5))
    || ((y == 2010) && (decide (14 ≤ d) && decide (d ≤ 16)) && (m == 6))
    || ((y == 2011) && (decide (4 ≤ d) && decide (d ≤ 6)) && (m == 6))
    || ((y == 2012) && (decide (22 ≤ d) && decide (d ≤ 24)) && (m == 6))
    || ((y == 2013) && (decide (10 ≤ d) && decide (d ≤ 12)) && (m == 6))
    || ((y == 2014) && (d == 2) && (m == 6))
    || ((y == 2015) && (d == 22) && (m == 6))
    || ((y == 2016) && (decide (9 ≤ d) && decide (d ≤ 10)) && (m == 6))
    || ((y == 2017) && (decide (29 ≤ d) && decide (d ≤ 30)) && (m == 5))
    || ((y == 2018) && (d == 18) && (m == 6))
    || ((y == 2019) && (d == 7) && (m == 6))
    || ((y == 2020) && (decide (25 ≤ d) && decide (d ≤ 26)) && (m == 6))
    || ((y == 2021) && (d == 14) && (m == 6))
    || ((y == 2022) && (d == 3) && (m == 6))
    || ((y == 2023) && (decide (22 ≤ d) && decide (d ≤ 23)) && (m == 6))
    || (decide (y ≤ 2008) && (d == 15) && (m == 9))
    || ((y == 2010) && (decide (22 ≤ d) && decide (d ≤ 24)) && (m == 9))
    || ((y == 2011) && (decide (10 ≤ d) && decide (d ≤ 12)) && (m == 9))
    || ((y == 2012) && (d == 30) && (m == 9))
    || ((y == 2013) && (decide (19 ≤ d) && decide (d ≤ 20)) && (m == 9))
    || ((y == 2014) && (d == 8) && (m == 9))
    || ((y == 2015) && (d == 27) && (m == 9))
    || ((y == 2016) && (decide (15 ≤ d) && decide (d ≤ 16)) && (m == 9))
    || ((y == 2018) && (d == 24) && (m == 9))
    || ((y == 2019) && (d == 13) && (m == 9))
    || ((y == 2021) && ((d == 20) || (d == 21)) && (m == 9))
    || ((y == 2022) && (d == 12) && (m == 9))
    || ((y == 2023) && (d == 29) && (m == 9))
    || (decide (y ≤ 2007) && (decide (1 ≤ d) && decide (d ≤ 7)) && (m == 10))
    || ((y == 2008) && ((decide (d ≥ 29) && (m == 9)) || (decide (d ≤ 3) && (m == 10))))
    || ((y == 2009) && (decide (1 ≤ d) && decide (d ≤ 8)) && (m == 10))
    || ((y == 2010) && (decide (1 ≤ d) && decide (d ≤ 7)) && (m == 10))
    || ((y == 2011) && (decide (1 ≤ d) && decide (d ≤ 7)) && (m == 10))
    || ((y == 2012) && (decide (1 ≤ d) && decide (d ≤ 7)) && (m == 10))
    || ((y == 2013) && (decide (1 ≤ d) && decide (d ≤ 7)) && (m == 10))
    || ((y == 2014) && (decide (1 ≤ d) && decide (d ≤ 7)) && (m == 10))
    || ((y == 2015) && (decide (1 ≤ d) && decide (d ≤ 7)) && (m == 10))
    || ((y == 2016) && (decide (3 ≤ d) && decide (d ≤ 7)) && (m == 10))
    || ((y == 2017) && (decide (2 ≤ d) && decide (d ≤ 6)) && (m == 10))
    || ((y == 2018) && (decide (1 ≤ d) && decide (d ≤ 5)) && (m == 10))
    || ((y == 2019) && (decide (1 ≤ d) && decide (d ≤ 7)) && (m == 10))
    || ((y == 2020) && (decide (1 ≤ d) && decide (d ≤ 2)) && (m == 10))
    || ((y == 2020) && (decide (5 ≤ d) && decide (d ≤ 8)) && (m == 10))
    || ((y == 2021) && ((d == 1) || (d == 4) || (d == 5) || (d == 6) || (d == 7)) && (m == 10))
    || ((y == 2022) && (decide (3 ≤ d) && decide (d ≤ 7)) && (m == 10))
    || ((y == 2023) && (decide (2 ≤ d) && decide (d ≤ 6)) && (m == 10))
    || ((y == 2015) && (decide (3 ≤ d) && decide (d ≤ 4)) && (m == 9)))

/-- `countries/czech_republic.rs:17-68`, `is_holiday_impl_czech_republic`. -/
def CzechRepublic.isHoliday (y : ℤ) (m : ℕ) (d : ℕ) (_wd : ℕ) (yd : ℕ) (em : ℕ) : Bool :=
  (((d == 1) && (m == 1))
    || ((yd == (em - 3)) && decide (y ≥ 2016))
    || (yd == em)
    || ((d == 1) && (m == 5))
    || ((d == 8) && (m == 5))
    || ((d == 5) && (m == 7))
    || ((d == 6) && (m == 7))
    || ((d == 28) && (m == 9))
    || ((d == 28) && (m == 10))
    || ((d == 17) && (m == 11))
    || ((d == 24) && (m == 12))
    || ((d == 25) && (m == 12))
    || ((d == 26) && (m == 12))
    || ((d == 2) && (m == 1) && (y == 2004))
    || ((d == 31) && (m == 12) && (y == 2004)))

/-- `countries/denmark.rs:17-64`, `is_holiday_impl_denmark`. -/
def Denmark.isHoliday (y : ℤ) (m : ℕ) (d : ℕ) (_wd : ℕ) (yd : ℕ) (em : ℕ) : Bool :=
  ((yd == (em - 4))
    || (yd == (em - 3))
    || (yd == em)
    || ((yd == (em + 25)) && decide (y ≤ 2023))
    || (yd == (em + 38))
    || ((yd == (em + 39)) && decide (y ≥ 2009))
    || (yd == (em + 49))
    || ((d == 1) && (m == 1))
    || ((d == 5) && (m == 6))
    || ((d == 24) && (m == 12))
    || ((d == 25) && (m == 12))
    || ((d == 26) && (m == 12))
    || ((d == 31) && (m == 12)))

/-- `countries/finland.rs:17-48`, `is_holiday_impl_finland`. -/
def Finland.isHoliday (_y : ℤ) (m : ℕ) (d : ℕ) (wd : ℕ) (yd : ℕ) (em : ℕ) : Bool :=
  (((d == 1) && (m == 1))
    || ((d == 6) && (m == 1))
    || (yd == (em - 3))
    || (yd == em)
    || (yd == (em + 38))
    || ((d == 1) && (m == 5))
    || ((wd == 4) && (decide (18 ≤ d) && decide (d ≤ 24)) && (m == 6))
    || ((d == 6) && (m == 12))
    || ((d == 24) && (m == 12))
    || ((d == 25) && (m == 12))
    || ((d == 26) && (m == 12)))

/-- `countries/france.rs:17-48`, `is_holiday_impl_france`. -/
def France.isHoliday (_y : ℤ) (m : ℕ) (d : ℕ) (_wd : ℕ) (yd : ℕ) (em : ℕ) : Bool :=
  (((d == 1) && (m == 1))
    || (yd == em)
    || ((d == 1) && (m == 5))
    || ((d == 8) && (m == 5))
    || ((d == 10) && (m == 5))
    || ((d == 21) && (m == 5))
    || ((d == 14) && (m == 7))
    || ((d == 15) && (m == 8))
    || ((d == 1) && (m == 11))
    || ((d == 11) && (m == 11))
    || ((d == 25) && (m == 12)))

/-- `countries/germany.rs:13-54`, `is_holiday_impl_germany`. -/
def Germany.isHoliday (_y : ℤ) (m : ℕ) (d : ℕ) (_wd : ℕ) (yd : ℕ) (em : ℕ) : Bool :=
  (((d == 1) && (m == 1))
    || (yd == (em - 3))
    || (yd == em)
    || (yd == (em + 38))
    || (yd == (em + 49))
    || (yd == (em + 59))
    || ((d == 1) && (m == 5))
    || ((d == 3) && (m == 10))
    || ((d == 24) && (m == 12))
    || ((d == 25) && (m == 12))
    || ((d == 26) && (m == 12)))

/-- `countries/hong_kong.rs:55-78`, `is_lunar_new_year`. -/
def HongKong.is_lunar_new_year (y : ℤ) (m : ℕ) (d : ℕ) : Bool :=
  ((y == 2004 && (decide (22 ≤ d) && decide (d ≤ 24)) && m == 1)
    || (y == 2005 && (decide (9 ≤ d) && decide (d ≤ 11)) && m == 2)
    || (y == 2006 && (decide (28 ≤ d) && decide (d ≤ 30)) && m == 1)
    || (y == 2007 && (decide (17 ≤ d) && decide (d ≤ 19)) && m == 2)
    || (y == 2008 && (decide (7 ≤ d) && decide (d ≤ 9)) && m == 2)
    || (y == 2009 && (decide (26 ≤ d) && decide (d ≤ 28)) && m == 1)
    || (y == 2010 && (decide (13 ≤ d) && decide (d ≤ 15)) && m == 2)
    || (y == 2011 && (decide (2 ≤ d) && decide (d ≤ 4)) && m == 2)
    || (y == 2012 && (decide (23 ≤ d) && decide (d ≤ 25)) && m == 1)
    || (y == 2013 && (decide (10 ≤ d) && decide (d ≤ 12)) && m == 2)
    || (y == 2014 && (d == 31 || d == 1 || d == 2) && m == 1)
    || (y == 2015 && (decide (19 ≤ d) && decide (d ≤ 21)) && m == 2)
    || (y == 2016 && (decide (8 ≤ d) && decide (d ≤ 10)) && m == 2)
    || (y == 2017 && (decide (28 ≤ d) && decide (d ≤ 30)) && m == 1)
    || (y == 2018 && (decide (16 ≤ d) && decide (d ≤ 18)) && m == 2)
    || (y == 2019 && (decide (5 ≤ d) && decide (d ≤ 7)) && m == 2)
    || (y == 2020 && (d == 25 || d == 27 || d == 28) && m == 1))

/-- `countries/hong_kong.rs:80-102`, `is_buddhas_birthday`. -/
def HongKong.is_buddhas_birthday (y : ℤ) (m : ℕ) (d : ℕ) : Bool :=
  ((y == 2004 && d == 26 && m == 5)
    || (y == 2005 && d == 16 && m == 5)
    || (y == 2006 && d == 5 && m == 5)
    || (y == 2007 && d == 24 && m == 5)
    || (y == 2008 && d == 12 && m == 5)
    || (y == 2009 && d == 2 && m == 5)
    || (y == 2010 && d == 21 && m == 5)
    || (y == 2011 && d == 10 && m == 5)
    || (y == 2012 && d == 28 && m == 5)
    || (y == 2013 && d == 17 && m == 5)
    || (y == 2014 && d == 6 && m == 5)
    || (y == 2015 && d == 25 && m == 5)
    || (y == 2016 && d == 14 && m == 5)
    || (y == 2017 && d == 3 && m == 5)
    || (y == 2018 && d == 22 && m == 5)
    || (y == 2019 && d == 12 && m == 5)
    || (y == 2020 && d == 30 && m == 5))

/-- `countries/hong_kong.rs:104-126`, `is_ching_ming_festival`. -/
def HongKong.is_ching_ming_festival (y : ℤ) (m : ℕ) (d : ℕ) : Bool :=
  ((y == 2004 && d == 5 && m == 4)
    || (y == 2005 && d == 5 && m == 4)
    || (y == 2006 && d == 5 && m == 4)
    || (y == 2007 && d == 5 && m == 4)
    || (y == 2008 && d == 4 && m == 4)
    || (y == 2009 && d == 4 && m == 4)
    || (y == 2010 && d == 5 && m == 4)
    || (y == 2011 && d == 5 && m == 4)
    || (y == 2012 && d == 4 && m == 4)
    || (y == 2013 && d == 4 && m == 4)
    || (y == 2014 && d == 5 && m == 4)
    || (y == 2015 && d == 5 && m == 4)
    || (y == 2016 && d == 4 && m == 4)
    || (y == 2017 && d == 4 && m == 4)
    || (y == 2018 && d == 5 && m == 4)
    || (y == 2019 && d == 5 && m == 4)
    || (y == 2020 && d == 4 && m == 4))

/-- `countries/hong_kong.rs:128-151`, `is_tuen_ng_festival`. -/
def HongKong.is_tuen_ng_festival (y : ℤ) (m : ℕ) (d : ℕ) : Bool :=
  ((y == 2004 && d == 22 && m == 6)
    || (y == 2005 && d == 11 && m == 6)
    || (y == 2006 && d == 1 && m == 6)
    || (y == 2007 && d == 19 && m == 6)
    || (y == 2008 && d == 9 && m == 6)
    || (y == 2009 && d == 28 && m == 6)
    || (y == 2010 && d == 16 && m == 6)
    || (y == 2011 && d == 6 && m == 6)
    || (y == 2012 && d == 23 && m == 6)
    || (y == 2013 && d == 12 && m == 6)
    || (y == 2014 && d == 2 && m == 6)
    || (y == 2015 && d == 20 && m == 6)
    || (y == 2016 && d == 9 && m == 6)
    || (y == 2017 && d == 30 && m == 5)
    || (y == 2018 && d == 18 && m == 6)
    || (y == 2019 && d == 7 && m == 6)
    || (y == 2020 && d == 25 && m == 6))

/-- `countries/hong_kong.rs:153-175`, `is_mid_autumn_festival`. -/
def HongKong.is_mid_autumn_festival (y : ℤ) (m : ℕ) (d : ℕ) : Bool :=
  ((y == 2004 && d == 28 && m == 9)
    || (y == 2005 && d == 18 && m == 9)
    || (y == 2006 && d == 7 && m == 10)
    || (y == 2007 && d == 26 && m == 9)
    || (y == 2008 && d == 15 && m == 9)
    || (y == 2009 && d == 3 && m == 10)
    || (y == 2010 && d == 22 && m == 9)
    || (y == 2011 && d == 12 && m == 9)
    || (y == 2012 && d == 30 && m == 9)
    || (y == 2013 && d == 19 && m == 9)
    || (y == 2014 && d == 9 && m == 9)
    || (y == 2015 && d == 27 && m == 9)
    || (y == 2016 && d == 15 && m == 9)
    || (y == 2017 && d == 5 && m == 10)
    || (y == 2018 && d == 25 && m == 9)
    || (y == 2019 && d == 14 && m == 9)
    || (y == 2020 && d == 1 && m == 10))

/-- `countries/hong_kong.rs:177-199`, `is_chung_yeung_festival`. -/
def HongKong.is_chung_yeung_festival (y : ℤ) (m : ℕ) (d : ℕ) : Bool :=
  ((y == 2004 && d == 28 && m == 10)
    || (y == 2005 && d == 18 && m == 10)
    || (y == 2006 && d == 7 && m == 10)
    || (y == 2007 && d == 26 && m == 10)
    || (y == 2008 && d == 16 && m == 10)
    || (y == 2009 && d == 26 && m == 10)
    || (y == 2010 && d == 16 && m == 10)
    || (y == 2011 && d == 5 && m == 10)
    || (y == 2012 && d == 23 && m == 10)
    || (y == 2013 && d == 14 && m == 10)
    || (y == 2014 && d == 2 && m == 10)
    || (y == 2015 && d == 21 && m == 10)
    || (y == 2016 && d == 10 && m == 10)
    || (y == 2017 && d == 28 && m == 10)
    || (y == 2018 && d == 17 && m == 10)
    || (y == 2019 && d == 7 && m == 10)
    || (y == 2020 && d == 26 && m == 10))

/-- `countries/hong_kong.rs:201-223`, `is_second_day_after_christmas`. -/
def HongKong.is_second_day_after_christmas (y : ℤ) (m : ℕ) (d : ℕ) : Bool :=
  ((y == 2004 && d == 27 && m == 12)
    || (y == 2005 && d == 27 && m == 12)
    || (y == 2006 && d == 27 && m == 12)
    || (y == 2007 && d == 27 && m == 12)
    || (y == 2008 && d == 29 && m == 12)
    || (y == 2009 && d == 28 && m == 12)
    || (y == 2010 && d == 27 && m == 12)
    || (y == 2011 && d == 27 && m == 12)
    || (y == 2012 && d == 27 && m == 12)
    || (y == 2013 && d == 27 && m == 12)
    || (y == 2014 && d == 29 && m == 12)
    || (y == 2015 && d == 28 && m == 12)
    || (y == 2016 && d == 27 && m == 12)
    || (y == 2017 && d == 27 && m == 12)
    || (y == 2018 && d == 27 && m == 12)
    || (y == 2019 && d == 27 && m == 12)
    || (y == 2020 && d == 28 && m == 12))

/-- `countries/hong_kong.rs:13-52`, `is_holiday_impl_hong_kong`. -/
def HongKong.isHoliday (y : ℤ) (m : ℕ) (d : ℕ) (wd : ℕ) (yd : ℕ) (em : ℕ) : Bool :=
  ((((d == 1) || ((d == 2) && (wd == 0))) && (m == 1))
    || (yd == (em - 3))
    || (yd == em)
    || (((d == 1) || ((d == 2) && (wd == 0))) && (m == 5))
    || (((d == 1) || ((d == 2) && (wd == 0))) && (m == 7))
    || (((d == 1) || ((d == 2) && (wd == 0))) && (m == 10))
    || ((d == 25) && (m == 12))
    || ((d == 26) && (m == 12))
    || (HongKong.is_lunar_new_year y m d)
    || (HongKong.is_buddhas_birthday y m d)
    || (HongKong.is_ching_ming_festival y m d)
    || (HongKong.is_tuen_ng_festival y m d)
    || (HongKong.is_mid_autumn_festival y m d)
    || (HongKong.is_chung_yeung_festival y m d)
    || (HongKong.is_second_day_after_christmas y m d))

/-- `countries/hungary.rs:13-44`, `is_holiday_impl_hungary`. -/
def Hungary.isHoliday (_y : ℤ) (m : ℕ) (d : ℕ) (_wd : ℕ) (yd : ℕ) (em : ℕ) : Bool :=
  (((d == 1) && (m == 1))
    || ((d == 15) && (m == 3))
    || (yd == (em - 3))
    || (yd == em)
    || ((d == 1) && (m == 5))
    || (yd == (em + 49))
    || ((d == 20) && (m == 8))
    || ((d == 23) && (m == 10))
    || ((d == 1) && (m == 11))
    || ((d == 25) && (m == 12))
    || ((d == 26) && (m == 12)))

/-- `countries/iceland.rs:13-50`, `is_holiday_impl_iceland`. -/
def Iceland.isHoliday (_y : ℤ) (m : ℕ) (d : ℕ) (wd : ℕ) (yd : ℕ) (em : ℕ) : Bool :=
  (((d == 1) && (m == 1))
    || (yd == (em - 4))
    || (yd == (em - 3))
    || (yd == em)
    || ((wd == 3) && (decide (19 ≤ d) && decide (d ≤ 25)) && (m == 4))
    || ((d == 1) && (m == 5))
    || (yd == (em + 38))
    || (yd == (em + 49))
    || ((d == 17) && (m == 6))
    || (decide (d ≤ 7) && (wd == 0) && (m == 8))
    || ((d == 24) && (m == 12))
    || ((d == 25) && (m == 12))
    || ((d == 26) && (m == 12))
    || ((d == 31) && (m == 12)))

/-- `countries/india.rs:56-92`, `is_mahashivratri`. -/
def India.is_mahashivratri (y : ℤ) (d : ℕ) (m : ℕ) : Bool :=
  ((y == 2000 && d == 4 && m == 3)
    || (y == 2001 && d == 21 && m == 2)
    || (y == 2002 && d == 12 && m == 3)
    || (y == 2003 && d == 1 && m == 3)
    || (y == 2004 && d == 18 && m == 2)
    || (y == 2005 && d == 8 && m == 3)
    || (y == 2006 && d == 26 && m == 2)
    || (y == 2007 && d == 16 && m == 2)
    || (y == 2008 && d == 6 && m == 3)
    || (y == 2009 && d == 23 && m == 2)
    || (y == 2010 && d == 12 && m == 2)
    || (y == 2011 && d == 2 && m == 3)
    || (y == 2012 && d == 20 && m == 2)
    || (y == 2013 && d == 10 && m == 3)
    || (y == 2014 && d == 27 && m == 2)
    || (y == 2015 && d == 17 && m == 2)
    || (y == 2016 && d == 7 && m == 3)
    || (y == 2017 && d == 24 && m == 2)
    || (y == 2018 && d == 13 && m == 2)
    || (y == 2019 && d == 4 && m == 3)
    || (y == 2020 && d == 21 && m == 2)
    || (y == 2021 && d == 11 && m == 3)
    || (y == 2022 && d == 1 && m == 3)
    || (y == 2023 && d == 18 && m == 2)
    || (y == 2024 && d == 8 && m == 3)
    || (y == 2025 && d == 26 && m == 2)
    || (y == 2026 && d == 15 && m == 2)
    || (y == 2027 && d == 6 && m == 3)
    || (y == 2028 && d == 23 && m == 2)
    || (y == 2029 && d == 11 && m == 2))

/-- `countries/india.rs:94-129`, `is_holi`. -/
def India.is_holi (y : ℤ) (d : ℕ) (m : ℕ) : Bool :=
  ((y == 2000 && d == 20 && m == 3)
    || (y == 2001 && d == 10 && m == 3)
    || (y == 2002 && d == 29 && m == 3)
    || (y == 2003 && d == 18 && m == 3)
    || (y == 2004 && d == 7 && m == 3)
    || (y == 2005 && d == 26 && m == 3)
    || (y == 2006 && d == 15 && m == 3)
    || (y == 2007 && d == 4 && m == 3)
    || (y == 2008 && d == 22 && m == 3)
    || (y == 2009 && d == 11 && m == 3)
    || (y == 2010 && d == 1 && m == 3)
    || (y == 2011 && d == 20 && m == 3)
    || (y == 2012 && d == 8 && m == 3)
    || (y == 2013 && d == 27 && m == 3)
    || (y == 2014 && d == 17 && m == 3)
    || (y == 2015 && d == 6 && m == 3)
    || (y == 2016 && d == 24 && m == 3)
    || (y == 2017 && d == 13 && m == 3)
    || (y == 2018 && d == 2 && m == 3)
    || (y == 2019 && d == 21 && m == 3)
    || (y == 2020 && d == 10 && m == 3)
    || (y == 2021 && d == 29 && m == 3)
    || (y == 2022 && d == 18 && m == 3)
    || (y == 2023 && d == 8 && m == 3)
    || (y == 2024 && d == 25 && m == 3)
    || (y == 2025 && d == 14 && m == 3)
    || (y == 2026 && d == 4 && m == 3)
    || (y == 2027 && d == 22 && m == 3)
    || (y == 2028 && d == 11 && m == 3)
    || (y == 2029 && d == 1 && m == 3))

/-- `countries/india.rs:131-166`, `is_eid_ul_fitar`. -/
def India.is_eid_ul_fitar (y : ℤ) (d : ℕ) (m : ℕ) : Bool :=
  ((y == 2000 && d == 8 && m == 1)
    || (y == 2000 && d == 28 && m == 12)
    || (y == 2001 && d == 17 && m == 12)
    || (y == 2002 && d == 6 && m == 12)
    || (y == 2003 && d == 26 && m == 11)
    || (y == 2004 && d == 14 && m == 11)
    || (y == 2005 && d == 4 && m == 11)
    || (y == 2006 && d == 24 && m == 10)
    || (y == 2007 && d == 13 && m == 10)
    || (y == 2008 && d == 2 && m == 10)
    || (y == 2009 && d == 21 && m == 9)
    || (y == 2010 && d == 10 && m == 9)
    || (y == 2011 && d == 31 && m == 8)
    || (y == 2012 && d == 20 && m == 8)
    || (y == 2013 && d == 9 && m == 8)
    || (y == 2014 && d == 29 && m == 7)
    || (y == 2015 && d == 19 && m == 7)
    || (y == 2016 && d == 6 && m == 7)
    || (y == 2017 && d == 26 && m == 6)
    || (y == 2018 && d == 15 && m == 6)
    || (y == 2019 && d == 5 && m == 6)
    || (y == 2020 && d == 25 && m == 5)
    || (y == 2021 && d == 14 && m == 5)
    || (y == 2022 && d == 3 && m == 5)
    || (y == 2023 && d == 22 && m == 4)
    || (y == 2024 && d == 11 && m == 4)
    || (y == 2025 && d == 31 && m == 3)
    || (y == 2026 && d == 21 && m == 3)
    || (y == 2027 && d == 10 && m == 3)
    || (y == 2028 && d == 27 && m == 2)
    || (y == 2029 && d == 15 && m == 2))

/-- `countries/india.rs:168-203`, `is_rama_navami`. -/
def India.is_rama_navami (y : ℤ) (d : ℕ) (m : ℕ) : Bool :=
  ((y == 2000 && d == 12 && m == 4)
    || (y == 2001 && d == 2 && m == 4)
    || (y == 2002 && d == 21 && m == 4)
    || (y == 2003 && d == 11 && m == 4)
    || (y == 2004 && d == 30 && m == 3)
    || (y == 2005 && d == 18 && m == 4)
    || (y == 2006 && d == 6 && m == 4)
    || (y == 2007 && d == 26 && m == 3)
    || (y == 2008 && d == 13 && m == 4)
    || (y == 2009 && d == 3 && m == 4)
    || (y == 2010 && d == 24 && m == 3)
    || (y == 2011 && d == 12 && m == 4)
    || (y == 2012 && d == 1 && m == 4)
    || (y == 2013 && d == 19 && m == 4)
    || (y == 2014 && d == 8 && m == 4)
    || (y == 2015 && d == 28 && m == 3)
    || (y == 2016 && d == 15 && m == 4)
    || (y == 2017 && d == 4 && m == 4)
    || (y == 2018 && d == 25 && m == 3)
    || (y == 2019 && d == 13 && m == 4)
    || (y == 2020 && d == 2 && m == 4)
    || (y == 2021 && d == 21 && m == 4)
    || (y == 2022 && d == 10 && m == 4)
    || (y == 2023 && d == 30 && m == 3)
    || (y == 2024 && d == 17 && m == 4)
    || (y == 2025 && d == 6 && m == 4)
    || (y == 2026 && d == 26 && m == 3)
    || (y == 2027 && d == 15 && m == 4)
    || (y == 2028 && d == 3 && m == 4)
    || (y == 2029 && d == 22 && m == 4))

/-- `countries/india.rs:205-231`, `is_mahavir_jayanti`. -/
def India.is_mahavir_jayanti (y : ℤ) (d : ℕ) (m : ℕ) : Bool :=
  ((y == 2005 && d == 22 && m == 4)
    || (y == 2006 && d == 11 && m == 4)
    || (y == 2007 && d == 31 && m == 3)
    || (y == 2008 && d == 18 && m == 4)
    || (y == 2009 && d == 7 && m == 4)
    || (y == 2010 && d == 28 && m == 4)
    || (y == 2011 && d == 16 && m == 4)
    || (y == 2012 && d == 5 && m == 4)
    || (y == 2013 && d == 24 && m == 4)
    || (y == 2014 && d == 13 && m == 4)
    || (y == 2015 && d == 2 && m == 4)
    || (y == 2016 && d == 20 && m == 4)
    || (y == 2017 && d == 9 && m == 4)
    || (y == 2018 && d == 29 && m == 3)
    || (y == 2019 && d == 17 && m == 4)
    || (y == 2020 && d == 6 && m == 4)
    || (y == 2021 && d == 25 && m == 4)
    || (y == 2022 && d == 14 && m == 4)
    || (y == 2023 && d == 4 && m == 4)
    || (y == 2024 && d == 21 && m == 4)
    || (y == 2025 && d == 10 && m == 4))

/-- `countries/india.rs:233-267`, `is_bakri_id`. -/
def India.is_bakri_id (y : ℤ) (d : ℕ) (m : ℕ) : Bool :=
  ((y == 2000 && d == 16 && m == 3)
    || (y == 2001 && d == 6 && m == 3)
    || (y == 2002 && d == 23 && m == 2)
    || (y == 2003 && d == 12 && m == 2)
    || (y == 2004 && d == 2 && m == 2)
    || (y == 2005 && d == 21 && m == 1)
    || (y == 2006 && d == 11 && m == 1)
    || (y == 2007 && d == 20 && m == 12)
    || (y == 2008 && d == 9 && m == 12)
    || (y == 2009 && d == 28 && m == 11)
    || (y == 2010 && d == 17 && m == 11)
    || (y == 2011 && d == 7 && m == 11)
    || (y == 2012 && d == 27 && m == 10)
    || (y == 2013 && d == 16 && m == 10)
    || (y == 2014 && d == 6 && m == 10)
    || (y == 2015 && d == 25 && m == 9)
    || (y == 2016 && d == 13 && m == 9)
    || (y == 2017 && d == 2 && m == 9)
    || (y == 2018 && d == 22 && m == 8)
    || (y == 2019 && d == 12 && m == 8)
    || (y == 2020 && d == 1 && m == 8)
    || (y == 2021 && d == 21 && m == 7)
    || (y == 2022 && d == 10 && m == 7)
    || (y == 2023 && d == 29 && m == 6)
    || (y == 2024 && d == 17 && m == 6)
    || (y == 2025 && d == 7 && m == 6)
    || (y == 2026 && d == 28 && m == 5)
    || (y == 2027 && d == 17 && m == 5)
    || (y == 2028 && d == 6 && m == 5)
    || (y == 2029 && d == 25 && m == 4))

/-- `countries/india.rs:269-295`, `is_muharram`. -/
def India.is_muharram (y : ℤ) (d : ℕ) (m : ℕ) : Bool :=
  ((y == 2007 && d == 30 && m == 1)
    || (y == 2009 && d == 28 && m == 12)
    || (y == 2010 && d == 17 && m == 12)
    || (y == 2011 && d == 6 && m == 12)
    || (y == 2012 && d == 25 && m == 11)
    || (y == 2013 && d == 14 && m == 11)
    || (y == 2014 && d == 4 && m == 11)
    || (y == 2015 && d == 24 && m == 10)
    || (y == 2016 && d == 12 && m == 10)
    || (y == 2017 && d == 1 && m == 10)
    || (y == 2018 && d == 21 && m == 9)
    || (y == 2019 && d == 10 && m == 9)
    || (y == 2020 && d == 30 && m == 8)
    || (y == 2021 && d == 20 && m == 8)
    || (y == 2022 && d == 9 && m == 8)
    || (y == 2023 && d == 29 && m == 7)
    || (y == 2024 && d == 17 && m == 7)
    || (y == 2025 && d == 6 && m == 7)
    || (y == 2026 && d == 26 && m == 6)
    || (y == 2027 && d == 16 && m == 6)
    || (y == 2028 && d == 4 && m == 6)
    || (y == 2029 && d == 25 && m == 5))

/-- `countries/india.rs:297-332`, `is_dussehra`. -/
def India.is_dussehra (y : ℤ) (d : ℕ) (m : ℕ) : Bool :=
  ((y == 2000 && d == 7 && m == 10)
    || (y == 2001 && d == 26 && m == 10)
    || (y == 2002 && d == 15 && m == 10)
    || (y == 2003 && d == 5 && m == 10)
    || (y == 2004 && d == 22 && m == 10)
    || (y == 2005 && d == 12 && m == 10)
    || (y == 2006 && d == 2 && m == 10)
    || (y == 2007 && d == 21 && m == 10)
    || (y == 2008 && d == 9 && m == 10)
    || (y == 2009 && d == 28 && m == 9)
    || (y == 2010 && d == 17 && m == 10)
    || (y == 2011 && d == 6 && m == 10)
    || (y == 2012 && d == 24 && m == 10)
    || (y == 2013 && d == 13 && m == 10)
    || (y == 2014 && d == 3 && m == 10)
    || (y == 2015 && d == 22 && m == 10)
    || (y == 2016 && d == 11 && m == 10)
    || (y == 2017 && d == 30 && m == 9)
    || (y == 2018 && d == 19 && m == 10)
    || (y == 2019 && d == 8 && m == 10)
    || (y == 2020 && d == 25 && m == 10)
    || (y == 2021 && d == 15 && m == 10)
    || (y == 2022 && d == 5 && m == 10)
    || (y == 2023 && d == 24 && m == 10)
    || (y == 2024 && d == 12 && m == 10)
    || (y == 2025 && d == 2 && m == 10)
    || (y == 2026 && d == 20 && m == 10)
    || (y == 2027 && d == 9 && m == 10)
    || (y == 2028 && d == 27 && m == 9)
    || (y == 2029 && d == 16 && m == 10))

/-- `countries/india.rs:334-369`, `is_diwali`. -/
def India.is_diwali (y : ℤ) (d : ℕ) (m : ℕ) : Bool :=
  ((y == 2000 && d == 26 && m == 10)
    || (y == 2001 && d == 14 && m == 11)
    || (y == 2002 && d == 4 && m == 11)
    || (y == 2003 && d == 25 && m == 10)
    || (y == 2004 && d == 12 && m == 11)
    || (y == 2005 && d == 1 && m == 11)
    || (y == 2006 && d == 21 && m == 10)
    || (y == 2007 && d == 9 && m == 11)
    || (y == 2008 && d == 28 && m == 10)
    || (y == 2009 && d == 17 && m == 10)
    || (y == 2010 && d == 5 && m == 11)
    || (y == 2011 && d == 26 && m == 10)
    || (y == 2012 && d == 13 && m == 11)
    || (y == 2013 && d == 3 && m == 11)
    || (y == 2014 && d == 23 && m == 10)
    || (y == 2015 && d == 11 && m == 11)
    || (y == 2016 && d == 30 && m == 10)
    || (y == 2017 && d == 19 && m == 10)
    || (y == 2018 && d == 7 && m == 11)
    || (y == 2019 && d == 27 && m == 10)
    || (y == 2020 && d == 14 && m == 11)
    || (y == 2021 && d == 4 && m == 11)
    || (y == 2022 && d == 24 && m == 10)
    || (y == 2023 && d == 12 && m == 11)
    || (y == 2024 && d == 31 && m == 10)
    || (y == 2025 && d == 20 && m == 10)
    || (y == 2026 && d == 8 && m == 11)
    || (y == 2027 && d == 29 && m == 10)
    || (y == 2028 && d == 17 && m == 10)
    || (y == 2029 && d == 5 && m == 11))

/-- `countries/india.rs:371-397`, `is_gurunanak_jayanti`. -/
def India.is_gurunanak_jayanti (y : ℤ) (d : ℕ) (m : ℕ) : Bool :=
  ((y == 2005 && d == 15 && m == 11)
    || (y == 2006 && d == 5 && m == 11)
    || (y == 2007 && d == 24 && m == 11)
    || (y == 2008 && d == 13 && m == 11)
    || (y == 2009 && d == 2 && m == 11)
    || (y == 2010 && d == 21 && m == 11)
    || (y == 2011 && d == 10 && m == 11)
    || (y == 2012 && d == 28 && m == 11)
    || (y == 2013 && d == 17 && m == 11)
    || (y == 2014 && d == 6 && m == 11)
    || (y == 2015 && d == 25 && m == 11)
    || (y == 2016 && d == 14 && m == 11)
    || (y == 2017 && d == 4 && m == 11)
    || (y == 2018 && d == 23 && m == 11)
    || (y == 2019 && d == 12 && m == 11)
    || (y == 2020 && d == 30 && m == 11)
    || (y == 2021 && d == 19 && m == 11)
    || (y == 2022 && d == 8 && m == 11)
    || (y == 2023 && d == 27 && m == 11)
    || (y == 2024 && d == 15 && m == 11)
    || (y == 2025 && d == 5 && m == 11))

/-- `countries/india.rs:13-54`, `is_holiday_impl_india`. -/
def India.isHoliday (y : ℤ) (m : ℕ) (d : ℕ) (_wd : ℕ) (yd : ℕ) (em : ℕ) : Bool :=
  (((d == 26) && (m == 1))
    || (India.is_mahashivratri y d m)
    || (India.is_holi y d m)
    || (yd == (em - 3))
    || (India.is_eid_ul_fitar y d m)
    || (India.is_rama_navami y d m)
    || (India.is_mahavir_jayanti y d m)
    || ((d == 1) && (m == 5))
    || (India.is_bakri_id y d m)
    || (India.is_muharram y d m)
    || ((d == 15) && (m == 8))
    || ((d == 2) && (m == 10))
    || (India.is_dussehra y d m)
    || (India.is_diwali y d m)
    || (India.is_gurunanak_jayanti y d m)
    || ((d == 25) && (m == 12)))

/-- `countries/indonesia.rs:59-88`, `is_ascension_day_of_prophet_muhammad`. -/
def Indonesia.is_ascension_day_of_prophet_muhammad (y : ℤ) (d : ℕ) (m : ℕ) : Bool :=
  ((y == 2000 && d == 26 && m == 10)
    || (y == 2001 && d == 15 && m == 10)
    || (y == 2002 && d == 4 && m == 10)
    || (y == 2003 && d == 24 && m == 9)
    || (y == 2004 && d == 12 && m == 9)
    || (y == 2005 && d == 1 && m == 9)
    || (y == 2006 && d == 22 && m == 8)
    || (y == 2007 && d == 11 && m == 8)
    || (y == 2008 && d == 31 && m == 7)
    || (y == 2009 && d == 20 && m == 7)
    || (y == 2010 && d == 9 && m == 7)
    || (y == 2011 && d == 29 && m == 6)
    || (y == 2012 && d == 17 && m == 6)
    || (y == 2013 && d == 6 && m == 6)
    || (y == 2014 && d == 27 && m == 5)
    || (y == 2015 && d == 16 && m == 5)
    || (y == 2016 && d == 6 && m == 5)
    || (y == 2017 && d == 24 && m == 4)
    || (y == 2018 && d == 14 && m == 4)
    || (y == 2019 && d == 3 && m == 4)
    || (y == 2020 && d == 22 && m == 3)
    || (y == 2021 && d == 11 && m == 3)
    || (y == 2022 && d == 28 && m == 2)
    || (y == 2023 && d == 18 && m == 2)
    || (y == 2024 && d == 8 && m == 2))

/-- `countries/indonesia.rs:90-121`, `is_lunar_new_year`. -/
def Indonesia.is_lunar_new_year (y : ℤ) (d : ℕ) (m : ℕ) : Bool :=
  ((y == 2000 && d == 5 && m == 2)
    || (y == 2001 && d == 24 && m == 1)
    || (y == 2002 && d == 12 && m == 2)
    || (y == 2003 && d == 1 && m == 2)
    || (y == 2004 && d == 22 && m == 1)
    || (y == 2005 && d == 9 && m == 2)
    || (y == 2006 && d == 30 && m == 1)
    || (y == 2007 && d == 19 && m == 2)
    || (y == 2008 && d == 7 && m == 2)
    || (y == 2009 && d == 26 && m == 1)
    || (y == 2010 && d == 15 && m == 2)
    || (y == 2011 && d == 3 && m == 2)
    || (y == 2012 && d == 23 && m == 1)
    || (y == 2013 && d == 11 && m == 2)
    || (y == 2014 && d == 31 && m == 1)
    || (y == 2015 && d == 19 && m == 2)
    || (y == 2016 && d == 8 && m == 2)
    || (y == 2017 && d == 28 && m == 1)
    || (y == 2018 && d == 16 && m == 2)
    || (y == 2019 && d == 5 && m == 2)
    || (y == 2020 && d == 25 && m == 1)
    || (y == 2021 && d == 12 && m == 2)
    || (y == 2022 && d == 1 && m == 2)
    || (y == 2023 && d == 23 && m == 1)
    || (y == 2024 && d == 9 && m == 2)
    || (y == 2025 && d == 29 && m == 1))

/-- `countries/indonesia.rs:123-149`, `is_hindu_new_year`. -/
def Indonesia.is_hindu_new_year (y : ℤ) (d : ℕ) (m : ℕ) : Bool :=
  ((y == 2006 && d == 30 && m == 3)
    || (y == 2007 && d == 19 && m == 3)
    || (y == 2008 && d == 7 && m == 3)
    || (y == 2009 && d == 26 && m == 3)
    || (y == 2010 && d == 16 && m == 3)
    || (y == 2011 && d == 5 && m == 3)
    || (y == 2012 && d == 23 && m == 3)
    || (y == 2013 && d == 12 && m == 3)
    || (y == 2014 && d == 31 && m == 3)
    || (y == 2015 && d == 21 && m == 3)
    || (y == 2016 && d == 9 && m == 3)
    || (y == 2017 && d == 28 && m == 3)
    || (y == 2018 && d == 17 && m == 3)
    || (y == 2019 && d == 7 && m == 3)
    || (y == 2020 && d == 25 && m == 3)
    || (y == 2021 && d == 14 && m == 3)
    || (y == 2022 && d == 3 && m == 3)
    || (y == 2023 && d == 22 && m == 3)
    || (y == 2023 && d == 23 && m == 3)
    || (y == 2024 && d == 11 && m == 3)
    || (y == 2024 && d == 12 && m == 3))

/-- `countries/indonesia.rs:151-204`, `is_eid_ul_fitar`. -/
def Indonesia.is_eid_ul_fitar (y : ℤ) (d : ℕ) (m : ℕ) : Bool :=
  ((y == 2006 && d == 23 && m == 10)
    || (y == 2007 && d == 12 && m == 10)
    || (y == 2008 && d == 29 && m == 9)
    || (y == 2008 && d == 30 && m == 9)
    || (y == 2010 && d == 9 && m == 9)
    || (y == 2015 && d == 16 && m == 7)
    || (y == 2016 && d == 4 && m == 7)
    || (y == 2016 && d == 5 && m == 7)
    || (y == 2018 && d == 11 && m == 6)
    || (y == 2018 && d == 12 && m == 6)
    || (y == 2019 && d == 3 && m == 6)
    || (y == 2019 && d == 4 && m == 6)
    || (y == 2021 && d == 12 && m == 5)
    || (y == 2022 && d == 29 && m == 4)
    || (y == 2023 && d == 19 && m == 4)
    || (y == 2023 && d == 20 && m == 4)
    || (y == 2024 && d == 8 && m == 4)
    || (y == 2024 && d == 9 && m == 4)
    || (y == 2006 && d == 26 && m == 10)
    || (y == 2007 && d == 15 && m == 10)
    || (y == 2008 && d == 3 && m == 10)
    || (y == 2009 && d == 23 && m == 9)
    || (y == 2010 && d == 13 && m == 9)
    || (y == 2014 && d == 30 && m == 7)
    || (y == 2015 && d == 20 && m == 7)
    || (y == 2016 && d == 8 && m == 7)
    || (y == 2018 && d == 18 && m == 6)
    || (y == 2018 && d == 13 && m == 6)
    || (y == 2019 && d == 7 && m == 6)
    || (y == 2019 && d == 6 && m == 6)
    || (y == 2019 && d == 5 && m == 6)
    || (y == 2020 && d == 25 && m == 5)
    || (y == 2020 && d == 24 && m == 5)
    || (y == 2021 && d == 14 && m == 5)
    || (y == 2021 && d == 17 && m == 5)
    || (y == 2021 && d == 13 && m == 5)
    || (y == 2022 && d == 2 && m == 5)
    || (y == 2022 && d == 3 && m == 5)
    || (y == 2022 && d == 4 && m == 5)
    || (y == 2023 && d == 21 && m == 4)
    || (y == 2023 && d == 24 && m == 4)
    || (y == 2023 && d == 22 && m == 4)
    || (y == 2023 && d == 23 && m == 4)
    || (y == 2024 && d == 12 && m == 4)
    || (y == 2024 && d == 15 && m == 4)
    || (y == 2024 && d == 11 && m == 4)
    || (y == 2024 && d == 10 && m == 4)
    || (y == 2025 && d == 1 && m == 4)
    || (y == 2025 && d == 2 && m == 4))

/-- `countries/indonesia.rs:206-233`, `is_vesak_day`. -/
def Indonesia.is_vesak_day (y : ℤ) (d : ℕ) (m : ℕ) : Bool :=
  ((y == 2007 && d == 1 && m == 6)
    || (y == 2008 && d == 19 && m == 5)
    || (y == 2008 && d == 20 && m == 5)
    || (y == 2009 && d == 9 && m == 5)
    || (y == 2010 && d == 28 && m == 5)
    || (y == 2011 && d == 17 && m == 5)
    || (y == 2012 && d == 6 && m == 5)
    || (y == 2013 && d == 25 && m == 5)
    || (y == 2014 && d == 15 && m == 5)
    || (y == 2015 && d == 2 && m == 6)
    || (y == 2016 && d == 22 && m == 5)
    || (y == 2017 && d == 11 && m == 5)
    || (y == 2018 && d == 29 && m == 5)
    || (y == 2019 && d == 19 && m == 5)
    || (y == 2020 && d == 7 && m == 5)
    || (y == 2021 && d == 26 && m == 5)
    || (y == 2022 && d == 16 && m == 5)
    || (y == 2023 && d == 4 && m == 6)
    || (y == 2023 && d == 2 && m == 6)
    || (y == 2024 && d == 23 && m == 5)
    || (y == 2024 && d == 24 && m == 5)
    || (y == 2025 && d == 13 && m == 5))

/-- `countries/indonesia.rs:235-248`, `is_eid_ul_adha`. -/
def Indonesia.is_eid_ul_adha (y : ℤ) (d : ℕ) (m : ℕ) : Bool :=
  ((y == 2019 && d == 11 && m == 8)
    || (y == 2020 && d == 31 && m == 7)
    || (y == 2021 && d == 20 && m == 7)
    || (y == 2022 && d == 10 && m == 7)
    || (y == 2023 && d == 29 && m == 6)
    || (y == 2024 && d == 17 && m == 6)
    || (y == 2024 && d == 18 && m == 6)
    || (y == 2025 && d == 7 && m == 6))

/-- `countries/indonesia.rs:250-282`, `is_muharram`. -/
def Indonesia.is_muharram (y : ℤ) (d : ℕ) (m : ℕ) : Bool :=
  ((y == 2000 && d == 6 && m == 4)
    || (y == 2001 && d == 26 && m == 3)
    || (y == 2002 && d == 15 && m == 3)
    || (y == 2003 && d == 5 && m == 3)
    || (y == 2004 && d == 22 && m == 2)
    || (y == 2005 && d == 10 && m == 2)
    || (y == 2006 && d == 31 && m == 1)
    || (y == 2007 && d == 20 && m == 1)
    || (y == 2008 && d == 10 && m == 1)
    || (y == 2008 && d == 29 && m == 12)
    || (y == 2009 && d == 18 && m == 12)
    || (y == 2010 && d == 7 && m == 12)
    || (y == 2011 && d == 27 && m == 11)
    || (y == 2012 && d == 15 && m == 11)
    || (y == 2013 && d == 5 && m == 11)
    || (y == 2014 && d == 25 && m == 10)
    || (y == 2015 && d == 14 && m == 10)
    || (y == 2016 && d == 2 && m == 10)
    || (y == 2017 && d == 21 && m == 9)
    || (y == 2018 && d == 11 && m == 9)
    || (y == 2019 && d == 1 && m == 9)
    || (y == 2020 && d == 20 && m == 8)
    || (y == 2021 && d == 10 && m == 8)
    || (y == 2021 && d == 11 && m == 8)
    || (y == 2022 && d == 30 && m == 7)
    || (y == 2023 && d == 19 && m == 7)
    || (y == 2024 && d == 7 && m == 7)
    || (y == 2025 && d == 27 && m == 6))

/-- `countries/indonesia.rs:284-310`, `is_birth_of_prophet_muhammad`. -/
def Indonesia.is_birth_of_prophet_muhammad (y : ℤ) (d : ℕ) (m : ℕ) : Bool :=
  ((y == 2006 && d == 10 && m == 4)
    || (y == 2007 && d == 31 && m == 3)
    || (y == 2008 && d == 20 && m == 3)
    || (y == 2009 && d == 9 && m == 3)
    || (y == 2010 && d == 26 && m == 2)
    || (y == 2011 && d == 15 && m == 2)
    || (y == 2012 && d == 5 && m == 2)
    || (y == 2013 && d == 24 && m == 1)
    || (y == 2014 && d == 14 && m == 1)
    || (y == 2015 && d == 3 && m == 1)
    || (y == 2015 && d == 24 && m == 12)
    || (y == 2016 && d == 12 && m == 12)
    || (y == 2017 && d == 1 && m == 12)
    || (y == 2018 && d == 20 && m == 11)
    || (y == 2019 && d == 9 && m == 11)
    || (y == 2020 && d == 29 && m == 10)
    || (y == 2021 && d == 19 && m == 10)
    || (y == 2021 && d == 20 && m == 10)
    || (y == 2022 && d == 8 && m == 10)
    || (y == 2023 && d == 28 && m == 9)
    || (y == 2024 && d == 15 && m == 9)
    || (y == 2025 && d == 5 && m == 9))

/-- `countries/indonesia.rs:13-57`, `is_holiday_impl_indonesia`. -/
def Indonesia.isHoliday (y : ℤ) (m : ℕ) (d : ℕ) (_wd : ℕ) (yd : ℕ) (em : ℕ) : Bool :=
  (((d == 1) && (m == 1))
    || (Indonesia.is_ascension_day_of_prophet_muhammad y d m)
    || (Indonesia.is_lunar_new_year y d m)
    || (Indonesia.is_hindu_new_year y d m)
    || (yd == (em - 3))
    || (Indonesia.is_eid_ul_fitar y d m)
    || ((d == 1) && (m == 5))
    || (yd == (em + 38))
    || ((y == 2007) && (m == 5) && (d == 18))
    || ((y == 2008) && (m == 5) && (d == 2))
    || ((y == 2024) && (m == 5) && (d == 10))
    || (Indonesia.is_vesak_day y d m)
    || ((d == 1) && (m == 6))
    || (Indonesia.is_eid_ul_adha y d m)
    || (Indonesia.is_muharram y d m)
    || ((d == 17) && (m == 8))
    || (Indonesia.is_birth_of_prophet_muhammad y d m)
    || ((d == 25) && (m == 12))
    || ((d == 26) && (m == 12)))

/-- `countries/italy.rs:13-43`, `is_holiday_impl_italy`. -/
def Italy.isHoliday (_y : ℤ) (m : ℕ) (d : ℕ) (_wd : ℕ) (yd : ℕ) (em : ℕ) : Bool :=
  (((d == 1) && (m == 1))
    || ((d == 6) && (m == 1))
    || (yd == em)
    || ((d == 25) && (m == 4))
    || ((d == 1) && (m == 5))
    || ((d == 2) && (m == 6))
    || ((d == 15) && (m == 8))
    || ((d == 1) && (m == 11))
    || ((d == 8) && (m == 12))
    || ((d == 25) && (m == 12))
    || ((d == 26) && (m == 12)))

/-- `countries/mexico.rs:13-38`, `is_holiday_impl_mexico`. -/
def Mexico.isHoliday (y : ℤ) (m : ℕ) (d : ℕ) (wd : ℕ) (_yd : ℕ) (_em : ℕ) : Bool :=
  (((d == 1) && (m == 1))
    || (decide (d ≤ 7) && (m == 2) && (wd == 0))
    || ((m == 3) && (decide (15 ≤ d) && decide (d ≤ 21)) && (wd == 0))
    || ((d == 1) && (m == 5))
    || ((d == 16) && (m == 9))
    || ((decide (15 ≤ d) && decide (d ≤ 21)) && (wd == 0) && (m == 11))
    || ((d == 1) && (m == 10) && (((y - 2018) % 6) == 0))
    || ((d == 25) && (m == 12)))

/-- `countries/netherlands.rs:46-58`, `is_kings_day`. -/
def Netherlands.is_kings_day (_y : ℤ) (m d wd : ℕ) : Bool :=
  m == 4 && ((d == 27 && (wd + 1) != 7) || (d == 26 && (wd + 1) == 6))

/-- `countries/netherlands.rs:13-44`, `is_holiday_impl_netherlands`. -/
def Netherlands.isHoliday (y : ℤ) (m : ℕ) (d : ℕ) (wd : ℕ) (yd : ℕ) (em : ℕ) : Bool :=
  (((d == 1) && (m == 1))
    || (yd == (em - 3))
    || (yd == (em - 1))
    || (yd == em)
    || (Netherlands.is_kings_day y m d wd)
    || ((d == 5) && (m == 5) && (((y % 5) == 0) && decide (y ≥ 2020)))
    || (yd == (em + 38))
    || (yd == (em + 48))
    || (yd == (em + 49))
    || ((d == 25) && (m == 12))
    || ((d == 26) && (m == 12)))

/-- `countries/new_zealand.rs:13-66`, `is_holiday_impl_new_zealand`. -/
def NewZealand.isHoliday (y : ℤ) (m : ℕ) (d : ℕ) (wd : ℕ) (yd : ℕ) (em : ℕ) : Bool :=
  ((((d == 1) || ((d == 3) && ((wd == 0) || (wd == 1)))) && (m == 1))
    || (((d == 2) || ((d == 4) && ((wd == 0) || (wd == 1)))) && (m == 1))
    || ((decide (19 ≤ d) && decide (d ≤ 25)) && (wd == 0) && (m == 1))
    || ((d == 6) && (m == 2))
    || (((d == 7) || (d == 8)) && (wd == 0) && (m == 2) && decide (y > 2013))
    || (yd == (em - 3))
    || (yd == em)
    || ((d == 25) && (m == 4))
    || (((d == 26) || (d == 27)) && (wd == 0) && (m == 4) && decide (y > 2013))
    || (decide (d ≤ 7) && (wd == 0) && (m == 6))
    || ((decide (22 ≤ d) && decide (d ≤ 28)) && (wd == 0) && (m == 10))
    || (((d == 25) || ((d == 27) && ((wd == 0) || (wd == 1)))) && (m == 12))
    || (((d == 26) || ((d == 28) && ((wd == 0) || (wd == 1)))) && (m == 12))
    || ((d == 20) && (m == 6) && (y == 2025))
    || ((d == 21) && (m == 6) && ((y == 2030) || (y == 2052)))
    || ((d == 24) && (m == 6) && ((y == 2022) || (y == 2033) || (y == 2044)))
    || ((d == 25) && (m == 6) && ((y == 2027) || (y == 2038) || (y == 2049)))
    || ((d == 28) && (m == 6) && (y == 2024))
    || ((d == 29) && (m == 6) && ((y == 2035) || (y == 2046)))
    || ((d == 30) && (m == 6) && (y == 2051))
    || ((d == 2) && (m == 7) && (y == 2032))
    || ((d == 3) && (m == 7) && ((y == 2043) || (y == 2048)))
    || ((d == 6) && (m == 7) && ((y == 2029) || (y == 2040)))
    || ((d == 7) && (m == 7) && ((y == 2034) || (y == 2045)))
    || ((d == 10) && (m == 7) && ((y == 2026) || (y == 2037)))
    || ((d == 11) && (m == 7) && ((y == 2031) || (y == 2042)))
    || ((d == 14) && (m == 7) && ((y == 2023) || (y == 2028)))
    || ((d == 15) && (m == 7) && ((y == 2039) || (y == 2050)))
    || ((d == 18) && (m == 7) && (y == 2036))
    || ((d == 19) && (m == 7) && ((y == 2041) || (y == 2047))))

/-- `countries/singapore.rs:45-72`, `is_chinese_new_year`. -/
def Singapore.is_chinese_new_year (y : ℤ) (m : ℕ) (d : ℕ) : Bool :=
  ((y == 2004 && (decide (22 ≤ d) && decide (d ≤ 23)) && m == 1)
    || (y == 2005 && (decide (9 ≤ d) && decide (d ≤ 10)) && m == 2)
    || (y == 2006 && (decide (29 ≤ d) && decide (d ≤ 30)) && m == 1)
    || (y == 2007 && (decide (18 ≤ d) && decide (d ≤ 19)) && m == 2)
    || (y == 2008 && (decide (7 ≤ d) && decide (d ≤ 8)) && m == 2)
    || (y == 2009 && (decide (26 ≤ d) && decide (d ≤ 27)) && m == 1)
    || (y == 2010 && (decide (14 ≤ d) && decide (d ≤ 15)) && m == 2)
    || (y == 2011 && (decide (3 ≤ d) && decide (d ≤ 4)) && m == 2)
    || (y == 2012 && (decide (23 ≤ d) && decide (d ≤ 24)) && m == 1)
    || (y == 2013 && (decide (10 ≤ d) && decide (d ≤ 12)) && m == 2)
    || (y == 2014 && (d == 31 || d == 1) && m == 1)
    || (y == 2015 && (decide (19 ≤ d) && decide (d ≤ 20)) && m == 2)
    || (y == 2016 && (decide (8 ≤ d) && decide (d ≤ 9)) && m == 2)
    || (y == 2017 && (decide (28 ≤ d) && decide (d ≤ 29)) && m == 1)
    || (y == 2018 && (decide (16 ≤ d) && decide (d ≤ 17)) && m == 2)
    || (y == 2019 && (decide (5 ≤ d) && decide (d ≤ 6)) && m == 2)
    || (y == 2020 && (decide (25 ≤ d) && decide (d ≤ 27)) && m == 1)
    || (y == 2021 && (decide (12 ≤ d) && decide (d ≤ 13)) && m == 2)
    || (y == 2022 && (decide (1 ≤ d) && decide (d ≤ 2)) && m == 2)
    || (y == 2023 && (decide (22 ≤ d) && decide (d ≤ 24)) && m == 1)
    || (y == 2024 && (decide (10 ≤ d) && decide (d ≤ 12)) && m == 2))

/-- `countries/singapore.rs:75-102`, `is_hari_raya_haji`. -/
def Singapore.is_hari_raya_haji (y : ℤ) (m : ℕ) (d : ℕ) : Bool :=
  ((y == 2004 && (decide (1 ≤ d) && decide (d ≤ 2)) && m == 2)
    || (y == 2005 && d == 21 && m == 1)
    || (y == 2006 && d == 10 && m == 1)
    || (y == 2007 && d == 19 && m == 12)
    || (y == 2008 && d == 8 && m == 12)
    || (y == 2009 && d == 27 && m == 11)
    || (y == 2010 && d == 17 && m == 11)
    || (y == 2011 && (decide (6 ≤ d) && decide (d ≤ 7)) && m == 11)
    || (y == 2012 && d == 26 && m == 10)
    || (y == 2013 && d == 15 && m == 10)
    || (y == 2014 && (decide (5 ≤ d) && decide (d ≤ 6)) && m == 10)
    || (y == 2015 && d == 24 && m == 9)
    || (y == 2016 && d == 12 && m == 9)
    || (y == 2017 && d == 1 && m == 9)
    || (y == 2018 && d == 22 && m == 8)
    || (y == 2019 && (decide (11 ≤ d) && decide (d ≤ 12)) && m == 8)
    || (y == 2020 && d == 31 && m == 7)
    || (y == 2021 && d == 20 && m == 7)
    || (y == 2022 && (decide (10 ≤ d) && decide (d ≤ 11)) && m == 7)
    || (y == 2023 && d == 29 && m == 6)
    || (y == 2024 && d == 17 && m == 6))

/-- `countries/singapore.rs:105-132`, `is_hari_raya_puasa`. -/
def Singapore.is_hari_raya_puasa (y : ℤ) (m : ℕ) (d : ℕ) : Bool :=
  ((y == 2004 && (decide (14 ≤ d) && decide (d ≤ 15)) && m == 11)
    || (y == 2005 && d == 3 && m == 11)
    || (y == 2006 && d == 24 && m == 10)
    || (y == 2007 && d == 13 && m == 10)
    || (y == 2008 && d == 1 && m == 10)
    || (y == 2009 && (decide (20 ≤ d) && decide (d ≤ 21)) && m == 9)
    || (y == 2010 && d == 10 && m == 9)
    || (y == 2011 && d == 30 && m == 8)
    || (y == 2012 && (decide (19 ≤ d) && decide (d ≤ 20)) && m == 8)
    || (y == 2013 && d == 8 && m == 8)
    || (y == 2014 && d == 28 && m == 7)
    || (y == 2015 && d == 17 && m == 7)
    || (y == 2016 && d == 6 && m == 7)
    || (y == 2017 && (decide (25 ≤ d) && decide (d ≤ 26)) && m == 6)
    || (y == 2018 && d == 15 && m == 6)
    || (y == 2019 && d == 5 && m == 6)
    || (y == 2020 && (decide (24 ≤ d) && decide (d ≤ 25)) && m == 5)
    || (y == 2021 && d == 13 && m == 5)
    || (y == 2022 && d == 3 && m == 5)
    || (y == 2023 && d == 22 && m == 4)
    || (y == 2024 && d == 10 && m == 4))

/-- `countries/singapore.rs:135-162`, `is_vesak_day`. -/
def Singapore.is_vesak_day (y : ℤ) (m : ℕ) (d : ℕ) : Bool :=
  ((y == 2004 && d == 2 && m == 6)
    || (y == 2005 && (decide (22 ≤ d) && decide (d ≤ 23)) && m == 10)
    || (y == 2006 && d == 12 && m == 5)
    || (y == 2007 && d == 31 && m == 5)
    || (y == 2008 && d == 19 && m == 5)
    || (y == 2009 && d == 9 && m == 5)
    || (y == 2010 && d == 28 && m == 5)
    || (y == 2011 && d == 17 && m == 5)
    || (y == 2012 && d == 5 && m == 5)
    || (y == 2013 && d == 24 && m == 5)
    || (y == 2014 && d == 13 && m == 5)
    || (y == 2015 && d == 1 && m == 6)
    || (y == 2016 && d == 21 && m == 5)
    || (y == 2017 && d == 10 && m == 5)
    || (y == 2018 && d == 29 && m == 5)
    || (y == 2019 && (decide (19 ≤ d) && decide (d ≤ 20)) && m == 5)
    || (y == 2020 && d == 7 && m == 5)
    || (y == 2021 && d == 26 && m == 5)
    || (y == 2022 && (decide (15 ≤ d) && decide (d ≤ 16)) && m == 5)
    || (y == 2023 && d == 2 && m == 6)
    || (y == 2024 && d == 22 && m == 5))

/-- `countries/singapore.rs:165-192`, `is_deepavali`. -/
def Singapore.is_deepavali (y : ℤ) (m : ℕ) (d : ℕ) : Bool :=
  ((y == 2004 && d == 11 && m == 11)
    || (y == 2005 && d == 1 && m == 11)
    || (y == 2006 && d == 21 && m == 10)
    || (y == 2007 && d == 8 && m == 11)
    || (y == 2008 && d == 27 && m == 10)
    || (y == 2009 && (decide (15 ≤ d) && decide (d ≤ 16)) && m == 11)
    || (y == 2010 && d == 5 && m == 11)
    || (y == 2011 && d == 26 && m == 10)
    || (y == 2012 && d == 13 && m == 11)
    || (y == 2013 && d == 2 && m == 11)
    || (y == 2014 && d == 22 && m == 10)
    || (y == 2015 && d == 10 && m == 11)
    || (y == 2016 && d == 29 && m == 10)
    || (y == 2017 && d == 18 && m == 10)
    || (y == 2018 && d == 6 && m == 11)
    || (y == 2019 && (decide (27 ≤ d) && decide (d ≤ 28)) && m == 10)
    || (y == 2020 && d == 14 && m == 11)
    || (y == 2021 && d == 4 && m == 11)
    || (y == 2022 && d == 24 && m == 10)
    || (y == 2023 && (decide (12 ≤ d) && decide (d ≤ 13)) && m == 11)
    || (y == 2024 && d == 31 && m == 10))

/-- `countries/singapore.rs:13-42`, `is_holiday_impl_singapore`. -/
def Singapore.isHoliday (y : ℤ) (m : ℕ) (d : ℕ) (wd : ℕ) (yd : ℕ) (em : ℕ) : Bool :=
  ((((d == 1) || ((d == 2) && (wd == 0))) && (m == 1))
    || (yd == (em - 3))
    || (((d == 1) || ((d == 2) && (wd == 0))) && (m == 5))
    || (((d == 9) || ((d == 10) && (wd == 0))) && (m == 8))
    || ((d == 25) || (((d == 26) && (wd == 0)) && (m == 12)))
    || (Singapore.is_chinese_new_year y m d)
    || (Singapore.is_hari_raya_haji y m d)
    || (Singapore.is_hari_raya_puasa y m d)
    || (Singapore.is_vesak_day y m d)
    || (Singapore.is_deepavali y m d))

/-- `countries/switzerland.rs:22-24`, `is_new_year`. -/
def Switzerland.is_new_year (m : ℕ) (d : ℕ) : Bool :=
  ((m == 1) && (d == 1))

/-- `countries/switzerland.rs:27-29`, `is_berchtholdstag`. -/
def Switzerland.is_berchtholdstag (m : ℕ) (d : ℕ) : Bool :=
  ((m == 1) && (d == 2))

/-- `countries/switzerland.rs:32-34`, `is_good_friday`. -/
def Switzerland.is_good_friday (yd : ℕ) (em : ℕ) : Bool :=
  (yd == (em - 3))

/-- `countries/switzerland.rs:37-39`, `is_easter_monday`. -/
def Switzerland.is_easter_monday (yd : ℕ) (em : ℕ) : Bool :=
  (yd == em)

/-- `countries/switzerland.rs:42-44`, `is_labour_day`. -/
def Switzerland.is_labour_day (m : ℕ) (d : ℕ) : Bool :=
  ((m == 5) && (d == 1))

/-- `countries/switzerland.rs:47-49`, `is_ascension_day`. -/
def Switzerland.is_ascension_day (yd : ℕ) (em : ℕ) : Bool :=
  (yd == (em + 38))

/-- `countries/switzerland.rs:52-54`, `is_whit_monday`. -/
def Switzerland.is_whit_monday (yd : ℕ) (em : ℕ) : Bool :=
  (yd == (em + 49))

/-- `countries/switzerland.rs:57-59`, `is_national_holiday`. -/
def Switzerland.is_national_holiday (m : ℕ) (d : ℕ) : Bool :=
  ((m == 8) && (d == 1))

/-- `countries/switzerland.rs:62-64`, `is_christmas_eve`. -/
def Switzerland.is_christmas_eve (m : ℕ) (d : ℕ) : Bool :=
  ((m == 12) && (d == 24))

/-- `countries/switzerland.rs:67-69`, `is_christmas_day`. -/
def Switzerland.is_christmas_day (m : ℕ) (d : ℕ) : Bool :=
  ((m == 12) && (d == 25))

/-- `countries/switzerland.rs:72-74`, `is_st_stephens_day`. -/
def Switzerland.is_st_stephens_day (m : ℕ) (d : ℕ) : Bool :=
  ((m == 12) && (d == 26))

/-- `countries/switzerland.rs:77-79`, `is_new_year_eve`. -/
def Switzerland.is_new_year_eve (m : ℕ) (d : ℕ) : Bool :=
  ((m == 12) && (d == 31))

/-- `countries/switzerland.rs:4-19`, `is_holiday_impl_switzerland`. -/
def Switzerland.isHoliday (_y : ℤ) (m : ℕ) (d : ℕ) (_wd : ℕ) (yd : ℕ) (em : ℕ) : Bool :=
  ((Switzerland.is_new_year m d)
    || (Switzerland.is_berchtholdstag m d)
    || (Switzerland.is_good_friday yd em)
    || (Switzerland.is_easter_monday yd em)
    || (Switzerland.is_labour_day m d)
    || (Switzerland.is_ascension_day yd em)
    || (Switzerland.is_whit_monday yd em)
    || (Switzerland.is_national_holiday m d)
    || (Switzerland.is_christmas_eve m d)
    || (Switzerland.is_christmas_day m d)
    || (Switzerland.is_st_stephens_day m d)
    || (Switzerland.is_new_year_eve m d))

/-- `countries/united_kingdom.rs:38-58`, `is_bank_holiday`. -/
def UnitedKingdom.is_bank_holiday (d : ℕ) (wd : ℕ) (m : ℕ) (y : ℤ) : Bool :=
  ((decide (d ≤ 7) && (wd == 0) && (m == 5) && (y != 1995) && (y != 2020))
    || ((d == 8) && (m == 5) && ((y == 1995) || (y == 2020)))
    || (decide (d ≥ 25) && (wd == 0) && (m == 5) && (y != 2002) && (y != 2012) && (y != 2022))
    || (((d == 3) || (d == 4)) && (m == 6) && (y == 2002))
    || (((d == 4) || (d == 5)) && (m == 6) && (y == 2012))
    || (((d == 2) || (d == 3)) && (m == 6) && (y == 2022))
    || (decide (d ≥ 25) && (wd == 0) && (m == 8))
    || ((d == 29) && (m == 4) && (y == 2011))
    || ((d == 19) && (m == 9) && (y == 2022))
    || ((d == 8) && (m == 5) && (y == 2023)))

/-- `countries/united_kingdom.rs:13-36`, `is_holiday_impl_united_kingdom`. -/
def UnitedKingdom.isHoliday (y : ℤ) (m : ℕ) (d : ℕ) (wd : ℕ) (yd : ℕ) (em : ℕ) : Bool :=
  ((((d == 1) || (((d == 2) || (d == 3)) && (wd == 0))) && (m == 1))
    || (yd == (em - 3))
    || (yd == em)
    || (UnitedKingdom.is_bank_holiday d wd m y)
    || (((d == 25) || ((d == 27) && ((wd == 0) || (wd == 1)))) && (m == 12))
    || (((d == 26) || ((d == 28) && ((wd == 0) || (wd == 1)))) && (m == 12))
    || ((d == 31) && (m == 12) && (y == 1999)))

/-- `countries/united_states.rs:59-70`, `is_washington_birthday`. -/
def UnitedStates.is_washington_birthday (y : ℤ) (m : ℕ) (d : ℕ) (wd : ℕ) : Bool :=
  (if decide (y ≥ 1971) then ((decide (15 ≤ d) && decide (d ≤ 21)) && (wd == 0) && (m == 2)) else (((d == 22) || ((d == 23) && (wd == 0)) || ((d == 21) && (wd == 4))) && (m == 2)))

/-- `countries/united_states.rs:72-83`, `is_memorial_day`. -/
def UnitedStates.is_memorial_day (y : ℤ) (m : ℕ) (d : ℕ) (wd : ℕ) : Bool :=
  (if decide (y ≥ 1971) then (decide (d ≥ 25) && (wd == 0) && (m == 5)) else (((d == 30) || ((d == 31) && (wd == 0)) || ((d == 29) && (wd == 4))) && (m == 5)))

/-- `countries/united_states.rs:85-90`, `is_labor_day`. -/
def UnitedStates.is_labor_day (_y : ℤ) (m : ℕ) (d : ℕ) (wd : ℕ) : Bool :=
  (decide (d ≤ 7) && (wd == 0) && (m == 9))

/-- `countries/united_states.rs:92-97`, `is_columbus_day`. -/
def UnitedStates.is_columbus_day (y : ℤ) (m : ℕ) (d : ℕ) (wd : ℕ) : Bool :=
  ((decide (8 ≤ d) && decide (d ≤ 14)) && (wd == 0) && (m == 10) && decide (y ≥ 1971))

/-- `countries/united_states.rs:99-110`, `is_veterans_day`. -/
def UnitedStates.is_veterans_day (y : ℤ) (m : ℕ) (d : ℕ) (wd : ℕ) : Bool :=
  (if (decide (y ≤ 1970) || decide (y ≥ 1978)) then (((d == 11) || ((d == 12) && (wd == 0)) || ((d == 10) && (wd == 4))) && (m == 11)) else ((decide (22 ≤ d) && decide (d ≤ 28)) && (wd == 0) && (m == 10)))

/-- `countries/united_states.rs:112-121`, `is_juneteenth`. -/
def UnitedStates.is_juneteenth (y : ℤ) (m : ℕ) (d : ℕ) (wd : ℕ) (move_to_friday : Bool) : Bool :=
  (((d == 19) || ((d == 20) && (wd == 0)) || (((d == 18) && (wd == 4)) && move_to_friday)) && (m == 6) && decide (y ≥ 2022))

/-- `countries/united_states.rs:13-57`, `is_holiday_impl_united_states`. -/
def UnitedStates.isHoliday (y : ℤ) (m : ℕ) (d : ℕ) (wd : ℕ) (_yd : ℕ) (_em : ℕ) : Bool :=
  ((((d == 1) || ((d == 2) && (wd == 0))) && (m == 1))
    || ((d == 31) && (wd == 4) && (m == 12))
    || ((decide (15 ≤ d) && decide (d ≤ 21)) && (wd == 0) && (m == 1) && decide (y ≥ 1983))
    || (UnitedStates.is_washington_birthday y m d wd)
    || (UnitedStates.is_memorial_day y m d wd)
    || (UnitedStates.is_juneteenth y m d wd true)
    || (((d == 4) || ((d == 5) && (wd == 0)) || ((d == 3) && (wd == 4))) && (m == 7))
    || (UnitedStates.is_labor_day y m d wd)
    || (UnitedStates.is_columbus_day y m d wd)
    || (UnitedStates.is_veterans_day y m d wd)
    || ((decide (22 ≤ d) && decide (d ≤ 28)) && (wd == 3) && (m == 11))
    || (((d == 25) || ((d == 26) && (wd == 0)) || ((d == 24) && (wd == 4))) && (m == 12)))

/-- What `icu` answers for an ISO date: (is the Hebrew year a leap year, ordinal of the month, day of the month).  The
`icu` crate is not part of the repository; the model is parametric in it.
Called in crates/RustQuant_time/src/countries/israel.rs 44-47. -/
abbrev Hebrew := ℤ → ℕ → ℕ → Bool × ℕ × ℕ

/-- `countries/israel.rs:18-35`, `JEWISH_HOLIDAYS`. -/
def Israel.JEWISH_HOLIDAYS : List (ℕ × ℕ) :=
  [(12, 29), (1, 1), (1, 2), (1, 9), (1, 10), (1, 14), (1, 15), (1, 22), (1, 23), (6, 14), (7, 14), (7, 15), (7, 20),
   (7, 21), (9, 5), (9, 6)]

/-- `countries/israel.rs:41-75`, `is_holiday_impl_israel`. -/
def Israel.isHoliday (heb : Hebrew) (y : ℤ) (m d wd _yd _em : ℕ) : Bool :=
  let h := heb y m d
  let hm := if h.1 && decide (h.2.1 > 7) then h.2.1 - 1 else h.2.1
  let hd := h.2.2
  let independence := hm == 8 &&
    ((decide (3 ≤ hd) && decide (hd ≤ 4) && wd == 3) || (decide (2 ≤ hd) && decide (hd ≤ 3) && wd == 2)
      || (hd == 5 && wd == 0) || (hd == 6 && wd == 1) || (hd == 5 && wd == 2) || (hd == 4 && wd == 1))
  let tisha := hm == 11 && ((hd == 10 && wd == 6) || (hd == 9 && wd == 5) || hd == 9)
  Israel.JEWISH_HOLIDAYS.contains (hm, hd) || independence || tisha

end Verif.Time.Countries
