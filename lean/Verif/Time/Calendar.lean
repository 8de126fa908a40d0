import Verif.Time.Civil
import Verif.Time.EasterTable
import Verif.Time.Countries

/-!
# Calendars, business days, rolling

Model of `crates/RustQuant_time/src/calendar.rs`, `date_rolling.rs` and of the parts of `utilities.rs` they use.
`none` is a panic throughout.
-/

namespace Verif.Time

open Countries

/-- `utilities.rs:44-46`, `easter_monday(year as usize, is_orthodox)`.  For a year before 1901 the `usize` subtraction
overflows (or, in release mode, wraps) and the index is out of bounds: a panic either way. -/
def easterMonday (year : ℤ) (orthodox : Bool) : Option ℕ :=
  if year < 1901 then none else (if orthodox then easterOrthodox else easterWestern)[(year - 1901).toNat]?

/-- `calendar.rs:24-102`, `Market`. -/
inductive Market where
  | none | weekends | argentina | australia | austria | botswana | brazil | canada | chile | china | czechRepublic
  | denmark | finland | france | germany | hongKong | hungary | iceland | india | indonesia | israel | italy | mexico
  | netherlands | newZealand | singapore | unitedKingdom | unitedStates | switzerland
deriving DecidableEq

/-- `calendar.rs:105-113`, `Calendar`; the `BTreeSet` of extra holidays is a list, observed only through membership. -/
structure Calendar where
  market : Market
  extra : List Date

/-- `calendar.rs:119-124`, `Calendar::new`. -/
def Calendar.new (m : Market) : Calendar := ⟨m, []⟩

/-- `calendar.rs:132-134`, `add_holiday`. -/
def Calendar.addHoliday (c : Calendar) (d : Date) : Calendar := { c with extra := d :: c.extra }

/-- `calendar.rs:137-141`, `add_holidays`. -/
def Calendar.addHolidays (c : Calendar) (ds : List Date) : Calendar := ds.foldl Calendar.addHoliday c

/-- The dispatch at `calendar.rs:410-441` applied to the fields that `unpack_date` (`utilities.rs:30-41`) extracts. -/
def countryRule (heb : Hebrew) (m : Market) : Option (ℤ → ℕ → ℕ → ℕ → ℕ → ℕ → Bool) :=
  match m with
  | .argentina => some Argentina.isHoliday
  | .australia => some Australia.isHoliday
  | .austria => some Austria.isHoliday
  | .botswana => some Botswana.isHoliday
  | .brazil => some Brazil.isHoliday
  | .canada => some Canada.isHoliday
  | .chile => some Chile.isHoliday
  | .china => some China.isHoliday
  | .czechRepublic => some CzechRepublic.isHoliday
  | .denmark => some Denmark.isHoliday
  | .finland => some Finland.isHoliday
  | .france => some France.isHoliday
  | .germany => some Germany.isHoliday
  | .hongKong => some HongKong.isHoliday
  | .hungary => some Hungary.isHoliday
  | .iceland => some Iceland.isHoliday
  | .india => some India.isHoliday
  | .indonesia => some Indonesia.isHoliday
  | .israel => some (Israel.isHoliday heb)
  | .italy => some Italy.isHoliday
  | .mexico => some Mexico.isHoliday
  | .netherlands => some Netherlands.isHoliday
  | .newZealand => some NewZealand.isHoliday
  | .singapore => some Singapore.isHoliday
  | .unitedKingdom => some UnitedKingdom.isHoliday
  | .unitedStates => some UnitedStates.isHoliday
  | .switzerland => some Switzerland.isHoliday
  | .none => Option.none
  | .weekends => Option.none

/-- The `match` at `calendar.rs:410-441` on a date.  Each country function starts with `unpack_date(date, false)`, which
looks up Easter Monday (and so may panic) whether or not the rule uses it. -/
def marketHoliday (heb : Hebrew) (m : Market) (d : Date) : Option Bool :=
  match countryRule heb m with
  | Option.none => some false
  | some rule =>
    match easterMonday d.year false with
    | Option.none => Option.none
    | some em => some (rule d.year d.month d.day d.weekday d.ordinal em)

/-- `calendar.rs:408-442`, `is_holiday`: `||` short-circuits on the extra holidays. -/
def Calendar.isHoliday (heb : Hebrew) (c : Calendar) (d : Date) : Option Bool :=
  if d ∈ c.extra then some true else marketHoliday heb c.market d

/-- `calendar.rs:154-161`, `is_weekend`. -/
def Calendar.isWeekend (c : Calendar) (d : Date) : Bool :=
  match c.market with
  | .israel => d.weekday == 4 || d.weekday == 5
  | _ => d.weekday == 5 || d.weekday == 6

/-- `calendar.rs:149-151`, `is_business_day`: `&&` short-circuits on weekends. -/
def Calendar.isBusinessDay (heb : Hebrew) (c : Calendar) (d : Date) : Option Bool :=
  if c.isWeekend d then some false else (c.isHoliday heb d).map (!·)

/-- `utilities.rs:158-166`, `next_business_day`: `while !is_business_day(new) { new = new.next_day().unwrap() }`. -/
def nextBusinessDay (heb : Hebrew) (c : Calendar) (d : Date) : Option Date :=
  match c.isBusinessDay heb d with
  | Option.none => Option.none
  | some true => some d
  | some false =>
    match _h : d.nextDay with
    | Option.none => Option.none
    | some d' => nextBusinessDay heb c d'
termination_by (maxDay - d.dayNum).toNat
decreasing_by
  rw [Date.nextDay_eq_some_iff] at _h
  have := d'.dayNum_range
  omega

/-- `utilities.rs:169-177`, `previous_business_day`. -/
def prevBusinessDay (heb : Hebrew) (c : Calendar) (d : Date) : Option Date :=
  match c.isBusinessDay heb d with
  | Option.none => Option.none
  | some true => some d
  | some false =>
    match _h : d.prevDay with
    | Option.none => Option.none
    | some d' => prevBusinessDay heb c d'
termination_by (d.dayNum - minDay).toNat
decreasing_by
  rw [Date.prevDay_eq_some_iff] at _h
  have := d'.dayNum_range
  omega

/-- `date_rolling.rs:27-62`, `DateRollingConvention`. -/
inductive RollConvention where
  | actual | following | modifiedFollowing | modifiedPreceding | modifiedRolling | preceding
deriving DecidableEq

/-- `calendar.rs:164-183` and `date_rolling.rs:68-118`, `roll_date`. -/
def Calendar.rollDate (heb : Hebrew) (c : Calendar) (d : Date) (conv : RollConvention) : Option Date :=
  match conv with
  | .actual => some d
  | .following => nextBusinessDay heb c d
  | .modifiedFollowing =>
    (nextBusinessDay heb c d).bind fun n => if n.month = d.month then some n else prevBusinessDay heb c d
  | .modifiedPreceding =>
    (prevBusinessDay heb c d).bind fun n => if n.month = d.month then some n else nextBusinessDay heb c d
  | .modifiedRolling => nextBusinessDay heb c d
  | .preceding => prevBusinessDay heb c d

/-- `calendar.rs:186-191`, `roll_dates`. -/
def Calendar.rollDates (heb : Hebrew) (c : Calendar) (ds : List Date) (conv : RollConvention) : Option (List Date) :=
  ds.mapM fun d => c.rollDate heb d conv

/-- `calendar.rs:213-215`, `calendar_day_count`: signed. -/
def calendarDayCount (a b : Date) : ℤ := b.dayNum - a.dayNum

/-- `calendar.rs:237-249`, `business_day_count`: `while temp <= date2 { if business { count += 1 }; temp += 1 day }`;
the addition panics past the last representable date. -/
def Calendar.businessDayCount (heb : Hebrew) (c : Calendar) (a b : Date) : Option ℕ :=
  if a ≤ b then
    match c.isBusinessDay heb a with
    | Option.none => Option.none
    | some bd =>
      match h : a.addDays 1 with
      | Option.none => Option.none
      | some a' => (c.businessDayCount heb a' b).map (· + if bd then 1 else 0)
  else some 0
termination_by (maxDay - a.dayNum).toNat
decreasing_by
  rw [Date.addDays_eq_some_iff] at h
  have := a'.dayNum_range
  omega

/-- `slice.windows(2).map(f)`. Called at calendar.rs 310, 341 and 374. -/
def pairs {α β : Type} (f : α → α → β) : List α → List β
  | a :: b :: l => f a b :: pairs f (b :: l)
  | _ => []

/-- `calendar.rs:308-313`, `calendar_day_counts`. -/
def calendarDayCounts (ds : List Date) : List ℤ := pairs calendarDayCount ds

/-- `calendar.rs:339-344`, `business_day_counts`. -/
def Calendar.businessDayCounts (heb : Hebrew) (c : Calendar) (ds : List Date) : Option (List ℕ) :=
  (pairs (c.businessDayCount heb) ds).mapM id

end Verif.Time
