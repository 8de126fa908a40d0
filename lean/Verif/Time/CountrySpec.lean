import Verif.Time.EasterProps
import Verif.Time.UtilProps

/-!
# C22: what the country calendars say, as a small language of holiday rules

A market's public holidays are a list of rules.  `Rule.Holds` is the meaning of a rule on a date; it mentions only the
civil date, the weekday, and Easter Sunday as defined in `EasterProps` (not the table in the code).
-/

namespace Verif.Time

/-- Holiday rules.  Weekdays are 0 = Monday … 6 = Sunday. -/
inductive Rule where
  /-- every year on day `d` of month `m` -/
  | on (m d : ℕ)
  /-- `k` days after western Easter Sunday -/
  | easter (k : ℤ)
  /-- the `n`-th weekday `w` of month `m` -/
  | nth (n w m : ℕ)
  /-- the last weekday `w` of month `m` -/
  | last (w m : ℕ)
  /-- the first weekday `w` on or after day `d` of month `m` -/
  | firstFrom (w m d : ℕ)
  /-- if day `d` of month `m` falls on weekday `w`: the day `k` days later -/
  | moved (m d w : ℕ) (k : ℤ)
  /-- a single date -/
  | once (y : ℤ) (m d : ℕ)
  /-- rule `r` in the years that satisfy `p` -/
  | years (p : ℤ → Bool) (r : Rule)

/-- Meaning of a rule. -/
def Rule.Holds (D : Date) : Rule → Prop
  | .on m d => D.month = m ∧ D.day = d
  | .easter k => ∃ E : Date, E.year = D.year ∧ IsEaster paschalMoonWestern E ∧ D.dayNum = E.dayNum + k
  | .nth n w m => D.month = m ∧ D.weekday = w ∧ 7 * (n - 1) < D.day ∧ D.day ≤ 7 * n
  | .last w m => D.month = m ∧ D.weekday = w ∧ monthLength D.year m < D.day + 7
  | .firstFrom w m d => D.weekday = w ∧
      ∃ H : Date, H.year = D.year ∧ H.month = m ∧ H.day = d ∧ H.dayNum ≤ D.dayNum ∧ D.dayNum < H.dayNum + 7
  | .moved m d w k =>
      ∃ H : Date, H.year = D.year ∧ H.month = m ∧ H.day = d ∧ H.weekday = w ∧ D.dayNum = H.dayNum + k
  | .once y m d => D.year = y ∧ D.month = m ∧ D.day = d
  | .years p r => p D.year = true ∧ r.Holds D

def Rule.from (y : ℤ) (r : Rule) : Rule := .years (fun x => decide (y ≤ x)) r
def Rule.until (y : ℤ) (r : Rule) : Rule := .years (fun x => decide (x ≤ y)) r
def Rule.except (ys : List ℤ) (r : Rule) : Rule := .years (fun x => !ys.contains x) r

/-- A date is a holiday of a list of rules. -/
def IsHolidayOf (rules : List Rule) (D : Date) : Prop := ∃ r ∈ rules, r.Holds D

/-- A fixed holiday that moves to Monday when it falls on a weekend. -/
def mondayised (m d : ℕ) : List Rule := [.on m d, .moved m d 5 2, .moved m d 6 1]
/-- A fixed holiday that moves to Monday when it falls on a Sunday. -/
def sundayToMonday (m d : ℕ) : List Rule := [.on m d, .moved m d 6 1]
/-- A fixed holiday that moves to Friday or Monday, whichever is nearest (US rule). -/
def nearestWeekday (m d : ℕ) : List Rule := [.on m d, .moved m d 5 (-1), .moved m d 6 1]
/-- The first of two consecutive fixed holidays (Christmas), whose substitute must leave room for the second: if it is
on a Saturday or a Sunday, the holiday is two days later. -/
def pairFirst (m d : ℕ) : List Rule := [.on m d, .moved m d 5 2, .moved m d 6 2]
/-- The second of two consecutive fixed holidays (Boxing Day): on a Saturday or Sunday, two days later. -/
def pairSecond (m d : ℕ) : List Rule := [.on m d, .moved m d 5 2, .moved m d 6 2]

def goodFriday : Rule := .easter (-2)
def holyThursday : Rule := .easter (-3)
def easterMondayRule : Rule := .easter 1
def ascension : Rule := .easter 39
def whitMonday : Rule := .easter 50
def corpusChristi : Rule := .easter 60

def germany : List Rule :=
  [.on 1 1, goodFriday, easterMondayRule, ascension, whitMonday, corpusChristi, .on 5 1, .on 10 3, .on 12 24, .on 12 25,
   .on 12 26]

def switzerland : List Rule :=
  [.on 1 1, .on 1 2, goodFriday, easterMondayRule, .on 5 1, ascension, whitMonday, .on 8 1, .on 12 24, .on 12 25,
   .on 12 26, .on 12 31]

def italy : List Rule :=
  [.on 1 1, .on 1 6, easterMondayRule, .on 4 25, .on 5 1, .on 6 2, .on 8 15, .on 11 1, .on 12 8, .on 12 25, .on 12 26]

def hungary : List Rule :=
  [.on 1 1, .on 3 15, goodFriday, easterMondayRule, .on 5 1, whitMonday, .on 8 20, .on 10 23, .on 11 1, .on 12 25,
   .on 12 26]

def austria : List Rule :=
  [.on 1 1, .on 1 6, easterMondayRule, ascension, whitMonday, corpusChristi, .on 5 1, .on 8 15,
   .from 1967 (.on 10 26), .from 1919 (.until 1934 (.on 11 12)), .on 11 1, .on 12 8, .on 12 25, .on 12 26]

def brazil : List Rule :=
  [.on 1 1, .on 4 21, .on 5 1, .on 9 7, .on 10 12, .on 11 2, .on 11 15, .from 2024 (.on 11 20), .on 12 25, goodFriday,
   .easter (-48), .easter (-47), corpusChristi]

def czechRepublic : List Rule :=
  [.on 1 1, .from 2016 goodFriday, easterMondayRule, .on 5 1, .on 5 8, .on 7 5, .on 7 6, .on 9 28, .on 10 28, .on 11 17,
   .on 12 24, .on 12 25, .on 12 26, .once 2004 1 2, .once 2004 12 31]

/-- `.easter 26` is General Prayer Day, `.easter 40` the Friday after Ascension. -/
def denmark : List Rule :=
  [holyThursday, goodFriday, easterMondayRule, .until 2023 (.easter 26), ascension, .from 2009 (.easter 40), whitMonday,
   .on 1 1, .on 6 5, .on 12 24, .on 12 25, .on 12 26, .on 12 31]

def finland : List Rule :=
  [.on 1 1, .on 1 6, goodFriday, easterMondayRule, ascension, .on 5 1, .firstFrom 4 6 18, .on 12 6, .on 12 24,
   .on 12 25, .on 12 26]

def iceland : List Rule :=
  [.on 1 1, holyThursday, goodFriday, easterMondayRule, .firstFrom 3 4 19, .on 5 1, ascension, whitMonday, .on 6 17,
   .nth 1 0 8, .on 12 24, .on 12 25, .on 12 26, .on 12 31]

/-- As coded: Ascension and Whit Monday are replaced by the fixed dates 10 and 21 May (see `C22_france_defect`). -/
def france : List Rule :=
  [.on 1 1, easterMondayRule, .on 5 1, .on 5 8, .on 5 10, .on 5 21, .on 7 14, .on 8 15, .on 11 1, .on 11 11, .on 12 25]

/-- King's day is 27 April, or 26 April when that is a Sunday. -/
def netherlands : List Rule :=
  [.on 1 1, goodFriday, .easter 0, easterMondayRule, .moved 4 27 0 0, .moved 4 27 1 0, .moved 4 27 2 0, .moved 4 27 3 0,
   .moved 4 27 4 0, .moved 4 27 5 0, .moved 4 27 6 (-1),
   .years (fun y => decide (2020 ≤ y) && decide (y % 5 = 0)) (.on 5 5), ascension, .easter 49, whitMonday, .on 12 25,
   .on 12 26]

def mexico : List Rule :=
  [.on 1 1, .nth 1 0 2, .nth 3 0 3, .on 5 1, .on 9 16, .nth 3 0 11,
   .years (fun y => decide ((y - 2018) % 6 = 0)) (.on 10 1), .on 12 25]

/-- Columbus day of Argentina: 12 October, brought forward to Monday from Tuesday or Wednesday and pushed back to
Monday from Thursday or Friday. -/
def argentina : List Rule :=
  [.on 12 25, holyThursday, goodFriday, .on 5 1, .on 5 25, .nth 3 0 6, .on 7 9, .nth 3 0 8,
   .moved 10 12 0 0, .moved 10 12 1 (-1), .moved 10 12 2 (-2), .moved 10 12 3 4, .moved 10 12 4 3,
   .on 12 8, .on 12 24, .on 12 31, .moved 12 31 5 (-1)]

def australia : List Rule :=
  mondayised 1 1 ++ mondayised 1 26 ++ [goodFriday, easterMondayRule, .on 4 25, .nth 2 0 6, .nth 1 0 8, .nth 1 0 10] ++
    pairFirst 12 25 ++ pairSecond 12 26 ++ [.once 2022 9 22]

def canada : List Rule :=
  mondayised 1 1 ++ [.from 2008 (.nth 3 0 2), goodFriday, .firstFrom 0 5 18] ++ mondayised 7 1 ++
    [.nth 1 0 8, .nth 1 0 9, .from 2021 (.on 9 30), .from 2021 (.moved 9 30 5 2), .from 2021 (.moved 9 30 6 1),
     .nth 2 0 10] ++ mondayised 11 11 ++ pairFirst 12 25 ++ pairSecond 12 26

def unitedStates : List Rule :=
  sundayToMonday 1 1 ++ [.moved 12 31 4 0, .from 1983 (.nth 3 0 1)] ++
    [.from 1971 (.nth 3 0 2)] ++ (nearestWeekday 2 22).map (.until 1970) ++
    [.from 1971 (.last 0 5)] ++ (nearestWeekday 5 30).map (.until 1970) ++
    (nearestWeekday 6 19).map (.from 2022) ++ nearestWeekday 7 4 ++ [.nth 1 0 9, .from 1971 (.nth 2 0 10)] ++
    (nearestWeekday 11 11).map (.until 1970) ++ (nearestWeekday 11 11).map (.from 1978) ++
    [.from 1971 (.until 1977 (.nth 4 0 10)), .nth 4 3 11] ++ nearestWeekday 12 25

def unitedKingdom : List Rule :=
  mondayised 1 1 ++ [goodFriday, easterMondayRule, .except [1995, 2020] (.nth 1 0 5), .once 1995 5 8, .once 2020 5 8,
    .except [2002, 2012, 2022] (.last 0 5), .once 2002 6 3, .once 2002 6 4, .once 2012 6 4, .once 2012 6 5,
    .once 2022 6 2, .once 2022 6 3, .last 0 8, .once 2011 4 29, .once 2022 9 19, .once 2023 5 8] ++
    pairFirst 12 25 ++ pairSecond 12 26 ++ [.once 1999 12 31]

def newZealandMatariki : List (ℤ × ℕ × ℕ) :=
  [(2022, 6, 24), (2023, 7, 14), (2024, 6, 28), (2025, 6, 20), (2026, 7, 10), (2027, 6, 25), (2028, 7, 14),
   (2029, 7, 6), (2030, 6, 21), (2031, 7, 11), (2032, 7, 2), (2033, 6, 24), (2034, 7, 7), (2035, 6, 29), (2036, 7, 18),
   (2037, 7, 10), (2038, 6, 25), (2039, 7, 15), (2040, 7, 6), (2041, 7, 19), (2042, 7, 11), (2043, 7, 3), (2044, 6, 24),
   (2045, 7, 7), (2046, 6, 29), (2047, 7, 19), (2048, 7, 3), (2049, 6, 25), (2050, 7, 15), (2051, 6, 30), (2052, 6, 21)]

def newZealand : List Rule :=
  pairFirst 1 1 ++ pairSecond 1 2 ++ [.firstFrom 0 1 19, .on 2 6, .from 2014 (.moved 2 6 5 2), .from 2014 (.moved 2 6 6 1),
    goodFriday, easterMondayRule, .on 4 25, .from 2014 (.moved 4 25 5 2), .from 2014 (.moved 4 25 6 1), .nth 1 0 6,
    .nth 4 0 10] ++ pairFirst 12 25 ++ pairSecond 12 26 ++ newZealandMatariki.map (fun t => .once t.1 t.2.1 t.2.2)

/-- New Year and Botswana Day give a Monday and a Tuesday off when they fall on a Sunday. -/
def botswana : List Rule :=
  [.on 1 1, .moved 1 1 6 1, .moved 1 1 6 2, goodFriday, easterMondayRule] ++ sundayToMonday 5 1 ++ [ascension] ++
    sundayToMonday 7 1 ++ [.nth 3 0 7] ++ sundayToMonday 9 30 ++ [.on 10 1, .moved 10 1 6 1, .moved 10 1 6 2, .on 12 25] ++
    sundayToMonday 12 26

/-- A Chilean holiday that moves to Monday: back from Tuesday to Thursday, forward from Friday. -/
def chileMonday (m d : ℕ) : List Rule :=
  [.moved m d 0 0, .moved m d 1 (-1), .moved m d 2 (-2), .moved m d 3 (-3), .moved m d 4 3]

/-- Reformation day (31 October) moves to Friday from Tuesday and Wednesday. -/
def chile : List Rule :=
  [.on 1 1, .from 2017 (.moved 1 1 6 1), goodFriday, .easter (-1), .on 5 1, .on 5 21, .from 2021 (.on 6 21)] ++
    chileMonday 6 29 ++ [.on 7 16, .on 8 15, .from 2007 (.moved 9 17 0 0), .from 2017 (.moved 9 17 4 0), .on 9 18,
    .on 9 19, .from 2007 (.moved 9 20 4 0)] ++ chileMonday 10 12 ++
    ([.moved 10 31 0 0, .moved 10 31 1 (-4), .moved 10 31 2 2, .moved 10 31 3 0, .moved 10 31 4 0, .moved 10 31 5 0,
      .moved 10 31 6 0] : List Rule).map (.from 2008) ++ [.on 11 1, .on 12 8, .on 12 25]

/-- The rules of the markets that also have tables of lunar holidays for some years; the tables are not part of these
lists. -/
def hongKong : List Rule :=
  sundayToMonday 1 1 ++ [goodFriday, easterMondayRule] ++ sundayToMonday 5 1 ++ sundayToMonday 7 1 ++
    sundayToMonday 10 1 ++ [.on 12 25, .on 12 26]

def india : List Rule := [.on 1 26, goodFriday, .on 5 1, .on 8 15, .on 10 2, .on 12 25]

def indonesia : List Rule :=
  [.on 1 1, goodFriday, .on 5 1, ascension, .once 2007 5 18, .once 2008 5 2, .once 2024 5 10, .on 6 1, .on 8 17,
   .on 12 25, .on 12 26]

/-- As it should be: Christmas only in December (see `C22_singapore_defect`). -/
def singapore : List Rule :=
  sundayToMonday 1 1 ++ [goodFriday] ++ sundayToMonday 5 1 ++ sundayToMonday 8 9 ++ sundayToMonday 12 25

/-- The markets whose whole rule is one of the lists above. -/
def rulesOf : Market → Option (List Rule)
  | .germany => some germany
  | .switzerland => some switzerland
  | .italy => some italy
  | .hungary => some hungary
  | .austria => some austria
  | .brazil => some brazil
  | .czechRepublic => some czechRepublic
  | .denmark => some denmark
  | .finland => some finland
  | .iceland => some iceland
  | .france => some france
  | .netherlands => some netherlands
  | .mexico => some mexico
  | .argentina => some argentina
  | .australia => some australia
  | .canada => some canada
  | .unitedStates => some unitedStates
  | .unitedKingdom => some unitedKingdom
  | .newZealand => some newZealand
  | .botswana => some botswana
  | .chile => some chile
  | _ => none

/-- The markets with lunar tables. -/
def fixedRulesOf : Market → Option (List Rule)
  | .hongKong => some hongKong
  | .india => some india
  | .indonesia => some indonesia
  | .singapore => some singapore
  | _ => none

end Verif.Time
