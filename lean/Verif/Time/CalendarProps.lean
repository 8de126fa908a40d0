import Verif.Time.CalendarLemmas

/-!
# C11–C14: business days, rolling and counting

`heb` is the Hebrew calendar of the `icu` crate; every theorem holds for every `heb`.
-/

namespace Verif.Time

open Countries

/-! ## Specification vocabulary -/

/-- A weekend day of a market: Friday and Saturday in Israel, Saturday and Sunday everywhere else. -/
def WeekendDay (m : Market) (d : Date) : Prop :=
  (m = .israel ∧ (d.weekday = 4 ∨ d.weekday = 5)) ∨ (m ≠ .israel ∧ (d.weekday = 5 ∨ d.weekday = 6))

/-- The calendar answers that `d` is a business day. -/
def Business (heb : Hebrew) (c : Calendar) (d : Date) : Prop := c.isBusinessDay heb d = some true

/-- Same civil month of the same year. -/
def SameMonth (a b : Date) : Prop := a.year = b.year ∧ a.month = b.month

/-- The two ways of adding holidays. -/
inductive HolidayOp where
  | one (d : Date)
  | many (ds : List Date)

def HolidayOp.apply (c : Calendar) : HolidayOp → Calendar
  | .one d => c.addHoliday d
  | .many ds => c.addHolidays ds

def HolidayOp.mentions (d : Date) : HolidayOp → Prop
  | .one e => d = e
  | .many ds => d ∈ ds

/-- A placeholder Hebrew calendar for the concrete examples. -/
def heb0 : Hebrew := fun _ _ _ => (false, 3, 1)

/-! ## C11 -/

theorem isWeekend_iff (c : Calendar) (d : Date) : c.isWeekend d = true ↔ WeekendDay c.market d := by
  unfold Calendar.isWeekend WeekendDay
  split
  · rename_i h; simp [h]
  · rename_i h
    have h' : c.market ≠ .israel := fun e => h e
    simp [h']

/-- C11: a date is a business day iff it is neither a weekend day of the market nor a holiday. -/
theorem C11_business_day (heb : Hebrew) (c : Calendar) (d : Date) (b : Bool) (h : c.isBusinessDay heb d = some b) :
    b = true ↔ ¬ WeekendDay c.market d ∧ c.isHoliday heb d = some false := by
  rw [← isWeekend_iff]
  unfold Calendar.isBusinessDay at h
  cases hw : c.isWeekend d
  · simp only [hw, Bool.false_eq_true, if_false, Option.map_eq_some_iff] at h
    obtain ⟨x, hx, rfl⟩ := h
    cases x <;> simp [hx]
  · simp only [hw, if_true, Option.some.injEq] at h
    simp [← h]

theorem easterWestern_length : easterWestern.length = 299 := by decide +kernel
theorem easterOrthodox_length : easterOrthodox.length = 299 := by decide +kernel

theorem easterMonday_none_iff (y : ℤ) (o : Bool) : easterMonday y o = none ↔ y < 1901 ∨ 2199 < y := by
  unfold easterMonday
  cases o <;> simp only [Bool.false_eq_true, if_false, if_true] <;> split
  · simp [*]
  · rw [List.getElem?_eq_none_iff, easterWestern_length]; omega
  · simp [*]
  · rw [List.getElem?_eq_none_iff, easterOrthodox_length]; omega

/-- C11: `is_business_day` panics exactly for a weekday of a country market, not added as a holiday, outside the years
1901 to 2199. -/
theorem C11_panics_iff (heb : Hebrew) (c : Calendar) (d : Date) :
    c.isBusinessDay heb d = none ↔
      ¬ WeekendDay c.market d ∧ d ∉ c.extra ∧ c.market ≠ .none ∧ c.market ≠ .weekends ∧
        (d.year < 1901 ∨ 2199 < d.year) := by
  rw [← isWeekend_iff, ← easterMonday_none_iff d.year false]
  unfold Calendar.isBusinessDay Calendar.isHoliday marketHoliday
  cases hw : c.isWeekend d
  · by_cases hx : d ∈ c.extra
    · simp [hx]
    · cases hm : c.market <;> cases he : easterMonday d.year false <;> simp [hx, countryRule]
  · simp

theorem addHolidays_extra (c : Calendar) (ds : List Date) :
    (c.addHolidays ds).market = c.market ∧ ∀ d, d ∈ (c.addHolidays ds).extra ↔ d ∈ ds ∨ d ∈ c.extra := by
  induction ds generalizing c with
  | nil => simp [Calendar.addHolidays]
  | cons x xs ih =>
    have := ih (c.addHoliday x)
    unfold Calendar.addHolidays at this ⊢
    rw [List.foldl_cons]
    refine ⟨this.1, fun d => ?_⟩
    rw [this.2 d]
    simp only [Calendar.addHoliday, List.mem_cons]
    tauto

theorem history_extra (ops : List HolidayOp) (c : Calendar) :
    (ops.foldl HolidayOp.apply c).market = c.market ∧
      ∀ d, d ∈ (ops.foldl HolidayOp.apply c).extra ↔ (∃ o ∈ ops, o.mentions d) ∨ d ∈ c.extra := by
  induction ops generalizing c with
  | nil => simp
  | cons o os ih =>
    rw [List.foldl_cons]
    obtain ⟨i1, i2⟩ := ih (o.apply c)
    have hs : (o.apply c).market = c.market ∧ ∀ d, d ∈ (o.apply c).extra ↔ o.mentions d ∨ d ∈ c.extra := by
      cases o with
      | one e => simp [HolidayOp.apply, HolidayOp.mentions, Calendar.addHoliday]
      | many ds => exact addHolidays_extra c ds
    refine ⟨i1.trans hs.1, fun d => ?_⟩
    rw [i2, hs.2]
    simp only [List.mem_cons, exists_eq_or_imp]
    constructor
    · rintro (h | h | h)
      · exact Or.inl (Or.inr h)
      · exact Or.inl (Or.inl h)
      · exact Or.inr h
    · rintro ((h | h) | h)
      · exact Or.inr (Or.inl h)
      · exact Or.inl h
      · exact Or.inr (Or.inr h)

/-- C11: after any history of `add_holiday` / `add_holidays`, a date is a holiday iff the history mentions it or it was
one before; order and repetition do not matter. -/
theorem C11_add_holidays (heb : Hebrew) (c : Calendar) (ops : List HolidayOp) (d : Date) :
    ((∃ o ∈ ops, o.mentions d) → (ops.foldl HolidayOp.apply c).isHoliday heb d = some true) ∧
      ((¬ ∃ o ∈ ops, o.mentions d) → (ops.foldl HolidayOp.apply c).isHoliday heb d = c.isHoliday heb d) := by
  obtain ⟨h1, h2⟩ := history_extra ops c
  unfold Calendar.isHoliday
  rw [h1]
  constructor
  · intro h
    rw [if_pos ((h2 d).2 (Or.inl h))]
  · intro h
    by_cases hd : d ∈ c.extra
    · rw [if_pos ((h2 d).2 (Or.inr hd)), if_pos hd]
    · rw [if_neg (fun hc => ((h2 d).1 hc).elim h hd), if_neg hd]

/-- A concrete calendar: 2024-07-04 is a Thursday and a US holiday, 2024-07-05 a business day until it is added. -/
example : ((Date.ofYMD 2024 7 4).bind ((Calendar.new .unitedStates).isBusinessDay heb0)) = some false ∧
    ((Date.ofYMD 2024 7 5).bind ((Calendar.new .unitedStates).isBusinessDay heb0)) = some true ∧
    ((Date.ofYMD 2024 7 5).bind fun e => ((Calendar.new .unitedStates).addHoliday e).isBusinessDay heb0 e)
      = some false := by
  decide +kernel

/-! ## C12 -/

/-- C12: Following gives the earliest business day on or after the date. -/
theorem C12_following (heb : Hebrew) (c : Calendar) (d r : Date) (h : c.rollDate heb d .following = some r) :
    Business heb c r ∧ d ≤ r ∧ ∀ e : Date, d ≤ e → Business heb c e → r ≤ e := by
  obtain ⟨h1, h2, h3⟩ := nextBusinessDay_spec h
  refine ⟨h1, Date.le_iff.2 h2, fun e he hb => Date.le_iff.2 ?_⟩
  by_contra hc
  have := h3 e (Date.le_iff.1 he) (by omega)
  unfold Business at hb
  rw [hb] at this; cases this

/-- C12: Preceding gives the latest business day on or before the date. -/
theorem C12_preceding (heb : Hebrew) (c : Calendar) (d r : Date) (h : c.rollDate heb d .preceding = some r) :
    Business heb c r ∧ r ≤ d ∧ ∀ e : Date, e ≤ d → Business heb c e → e ≤ r := by
  obtain ⟨h1, h2, h3⟩ := prevBusinessDay_spec h
  refine ⟨h1, Date.le_iff.2 h2, fun e he hb => Date.le_iff.2 ?_⟩
  by_contra hc
  have := h3 e (by omega) (Date.le_iff.1 he)
  unfold Business at hb
  rw [hb] at this; cases this

/-- C12: Actual never moves a date, and no convention moves a business day. -/
theorem C12_business_day_fixed (heb : Hebrew) (c : Calendar) (d : Date) :
    c.rollDate heb d .actual = some d ∧
      (Business heb c d → ∀ conv, c.rollDate heb d conv = some d) := by
  refine ⟨rfl, fun h conv => ?_⟩
  have h1 := nextBusinessDay_self h
  have h2 := prevBusinessDay_self h
  cases conv <;> simp [Calendar.rollDate, h1, h2]

/-- C12: every convention other than Actual returns a business day. -/
theorem C12_result_is_business_day (heb : Hebrew) (c : Calendar) (d r : Date) (conv : RollConvention)
    (hc : conv ≠ .actual) (h : c.rollDate heb d conv = some r) : Business heb c r := by
  cases conv with
  | actual => exact absurd rfl hc
  | following => exact (nextBusinessDay_spec h).1
  | modifiedRolling => exact (nextBusinessDay_spec h).1
  | preceding => exact (prevBusinessDay_spec h).1
  | modifiedFollowing =>
    simp only [Calendar.rollDate, Option.bind_eq_some_iff] at h
    obtain ⟨n, hn, hr⟩ := h
    split at hr
    · cases hr; exact (nextBusinessDay_spec hn).1
    · exact (prevBusinessDay_spec hr).1
  | modifiedPreceding =>
    simp only [Calendar.rollDate, Option.bind_eq_some_iff] at h
    obtain ⟨n, hn, hr⟩ := h
    split at hr
    · cases hr; exact (prevBusinessDay_spec hn).1
    · exact (nextBusinessDay_spec hr).1

/-- C12: rolling twice equals rolling once, for every convention. -/
theorem C12_idempotent (heb : Hebrew) (c : Calendar) (d r : Date) (conv : RollConvention)
    (h : c.rollDate heb d conv = some r) : c.rollDate heb r conv = some r := by
  by_cases hc : conv = .actual
  · subst hc; rfl
  · exact (C12_business_day_fixed heb c r).2 (C12_result_is_business_day heb c d r conv hc h) conv

/-- C12: Following panics exactly when no business day can be reached going forward without a panicking query. -/
theorem C12_following_panics_iff (heb : Hebrew) (c : Calendar) (d : Date) :
    c.rollDate heb d .following = none ↔
      ¬ ∃ e : Date, d ≤ e ∧ Business heb c e ∧ ∀ x : Date, d ≤ x → x < e → c.isBusinessDay heb x ≠ none := by
  constructor
  · rintro h ⟨e, he1, he2, he3⟩
    obtain ⟨r, hr⟩ := nextBusinessDay_total (Date.le_iff.1 he1) he2
      (fun x h1 h2 => he3 x (Date.le_iff.2 h1) (Date.lt_iff.2 h2))
    simp only [Calendar.rollDate] at h
    rw [h] at hr; cases hr
  · intro h
    by_contra hc
    obtain ⟨r, hr⟩ := Option.ne_none_iff_exists'.1 hc
    obtain ⟨h1, h2, h3⟩ := nextBusinessDay_spec hr
    refine h ⟨r, Date.le_iff.2 h2, h1, fun x hx1 hx2 => ?_⟩
    rw [h3 x (Date.le_iff.1 hx1) (Date.lt_iff.1 hx2)]
    simp

/-- C12: Preceding panics exactly when no business day can be reached going backward without a panicking query. -/
theorem C12_preceding_panics_iff (heb : Hebrew) (c : Calendar) (d : Date) :
    c.rollDate heb d .preceding = none ↔
      ¬ ∃ e : Date, e ≤ d ∧ Business heb c e ∧ ∀ x : Date, e < x → x ≤ d → c.isBusinessDay heb x ≠ none := by
  constructor
  · rintro h ⟨e, he1, he2, he3⟩
    obtain ⟨r, hr⟩ := prevBusinessDay_total (Date.le_iff.1 he1) he2
      (fun x h1 h2 => he3 x (Date.lt_iff.2 h1) (Date.le_iff.2 h2))
    simp only [Calendar.rollDate] at h
    rw [h] at hr; cases hr
  · intro h
    by_contra hc
    obtain ⟨r, hr⟩ := Option.ne_none_iff_exists'.1 hc
    obtain ⟨h1, h2, h3⟩ := prevBusinessDay_spec hr
    refine h ⟨r, Date.le_iff.2 h2, h1, fun x hx1 hx2 => ?_⟩
    rw [h3 x (Date.lt_iff.1 hx1) (Date.le_iff.1 hx2)]
    simp

/-! ## C13 -/

theorem month_mono {a b : Date} (hy : a.year = b.year) (h : a.dayNum ≤ b.dayNum) : a.month ≤ b.month := by
  obtain ⟨_, _, ha1, ha2, ha3, ha4⟩ := a.valid
  obtain ⟨_, _, hb1, hb2, hb3, hb4⟩ := b.valid
  unfold Date.dayNum Date.ordinal at h
  by_contra hc
  rw [hy] at h
  have := daysBeforeMonth_mono (y := b.year) hb1 (by omega : b.month < a.month) ha2
  omega

theorem year_mono {a b : Date} (h : a.dayNum ≤ b.dayNum) : a.year ≤ b.year := by
  rcases Date.le_iff.2 h with (h' | ⟨h', _⟩) | h'
  · omega
  · omega
  · rw [h']

/-- C13, Modified Following.  If the month still has a business day on or after `d`, the result is the earliest such
day.  If it has none but has one before `d`, the result is the latest such day, provided some business day falls
between the end of the month and the same month of the next year (see `C13_year_wrap` for why this is needed). -/
theorem C13_modified_following (heb : Hebrew) (c : Calendar) (d r : Date)
    (h : c.rollDate heb d .modifiedFollowing = some r) :
    ((∃ e, SameMonth d e ∧ d ≤ e ∧ Business heb c e) →
      SameMonth d r ∧ d ≤ r ∧ Business heb c r ∧ ∀ e, d ≤ e → Business heb c e → r ≤ e) ∧
    ((¬ ∃ e, SameMonth d e ∧ d ≤ e ∧ Business heb c e) → (∃ e, SameMonth d e ∧ e ≤ d ∧ Business heb c e) →
      (∃ e, d ≤ e ∧ Business heb c e ∧ (e.year = d.year ∨ e.year = d.year + 1 ∧ e.month < d.month)) →
      SameMonth d r ∧ r ≤ d ∧ Business heb c r ∧ ∀ e, e ≤ d → Business heb c e → e ≤ r) := by
  have h' := h
  simp only [Calendar.rollDate, Option.bind_eq_some_iff] at h
  obtain ⟨n, hn, hr⟩ := h
  obtain ⟨n1, n2, n3⟩ := C12_following heb c d n hn
  constructor
  · rintro ⟨e, ⟨he1, he1'⟩, he2, he3⟩
    have hs := same_month_between (a := d) (b := e) (x := n) he1 he1' (Date.le_iff.1 n2) (Date.le_iff.1 (n3 e he2 he3))
    rw [if_pos hs.2] at hr
    cases hr
    exact ⟨⟨hs.1.symm, hs.2.symm⟩, n2, n1, n3⟩
  · rintro hno ⟨e, ⟨he1, he1'⟩, he2, he3⟩ ⟨f, hf1, hf2, hf3⟩
    have hnf := n3 f hf1 hf2
    rw [Date.le_iff] at hnf
    have hyn := year_mono (Date.le_iff.1 n2)
    have hyf := year_mono hnf
    have hne : n.month ≠ d.month := by
      intro hm
      have hy : n.year ≠ d.year := fun hy => hno ⟨n, ⟨hy.symm, hm.symm⟩, n2, n1⟩
      rcases hf3 with hf3 | ⟨hf3, hf4⟩
      · omega
      · have := month_mono (by omega : n.year = f.year) hnf
        omega
    rw [if_neg hne] at hr
    obtain ⟨p1, p2, p3⟩ := C12_preceding heb c d r hr
    have hs := same_month_between (a := e) (b := d) (x := r) he1.symm he1'.symm
      (Date.le_iff.1 (p3 e he2 he3)) (Date.le_iff.1 p2)
    exact ⟨⟨he1.trans hs.1.symm, he1'.trans hs.2.symm⟩, p2, p1, p3⟩

/-- C13, Modified Preceding: the mirror image. -/
theorem C13_modified_preceding (heb : Hebrew) (c : Calendar) (d r : Date)
    (h : c.rollDate heb d .modifiedPreceding = some r) :
    ((∃ e, SameMonth d e ∧ e ≤ d ∧ Business heb c e) →
      SameMonth d r ∧ r ≤ d ∧ Business heb c r ∧ ∀ e, e ≤ d → Business heb c e → e ≤ r) ∧
    ((¬ ∃ e, SameMonth d e ∧ e ≤ d ∧ Business heb c e) → (∃ e, SameMonth d e ∧ d ≤ e ∧ Business heb c e) →
      (∃ e, e ≤ d ∧ Business heb c e ∧ (e.year = d.year ∨ e.year + 1 = d.year ∧ d.month < e.month)) →
      SameMonth d r ∧ d ≤ r ∧ Business heb c r ∧ ∀ e, d ≤ e → Business heb c e → r ≤ e) := by
  simp only [Calendar.rollDate, Option.bind_eq_some_iff] at h
  obtain ⟨n, hn, hr⟩ := h
  obtain ⟨n1, n2, n3⟩ := C12_preceding heb c d n hn
  constructor
  · rintro ⟨e, ⟨he1, he1'⟩, he2, he3⟩
    have hs := same_month_between (a := e) (b := d) (x := n) he1.symm he1'.symm
      (Date.le_iff.1 (n3 e he2 he3)) (Date.le_iff.1 n2)
    rw [if_pos (hs.2.trans he1'.symm)] at hr
    cases hr
    exact ⟨⟨he1.trans hs.1.symm, he1'.trans hs.2.symm⟩, n2, n1, n3⟩
  · rintro hno ⟨e, ⟨he1, he1'⟩, he2, he3⟩ ⟨f, hf1, hf2, hf3⟩
    have hnf := n3 f hf1 hf2
    rw [Date.le_iff] at hnf
    have hyn := year_mono (Date.le_iff.1 n2)
    have hyf := year_mono hnf
    have hne : n.month ≠ d.month := by
      intro hm
      have hy : n.year ≠ d.year := fun hy => hno ⟨n, ⟨hy.symm, hm.symm⟩, n2, n1⟩
      rcases hf3 with hf3 | ⟨hf3, hf4⟩
      · omega
      · have := month_mono (by omega : f.year = n.year) hnf
        omega
    rw [if_neg hne] at hr
    obtain ⟨p1, p2, p3⟩ := C12_following heb c d r hr
    have hs := same_month_between (a := d) (b := e) (x := r) he1 he1'
      (Date.le_iff.1 p2) (Date.le_iff.1 (p3 e he2 he3))
    exact ⟨⟨hs.1.symm, hs.2.symm⟩, p2, p1, p3⟩

/-- 2024-06-29 is a Saturday; no business day of June follows it, so Modified Following goes back to Friday the 28th
while Following leaves the month. -/
example (d e f : Date) (hd : d = ⟨2024, 6, 29, by decide⟩) (he : e = ⟨2024, 6, 28, by decide⟩)
    (hf : f = ⟨2024, 7, 1, by decide⟩) :
    (Calendar.new .weekends).rollDate heb0 d .modifiedFollowing = some e ∧
    (Calendar.new .weekends).rollDate heb0 d .following = some f ∧
    SameMonth d e ∧ Business heb0 (Calendar.new .weekends) e := by
  have hn : nextBusinessDay heb0 (Calendar.new .weekends) d = some f := by
    rw [nextBusinessDay_step (d' := ⟨2024, 6, 30, by decide⟩) (by subst hd; decide) (by subst hd; decide),
      nextBusinessDay_step (d' := f) (by decide) (by subst hf; decide), nextBusinessDay_self (by subst hf; decide)]
  have hp : prevBusinessDay heb0 (Calendar.new .weekends) d = some e := by
    rw [prevBusinessDay_step (d' := e) (by subst hd; decide) (by subst hd he; decide),
      prevBusinessDay_self (by subst he; decide)]
  refine ⟨?_, hn, by subst hd he; exact ⟨rfl, rfl⟩, by subst he; unfold Business; decide⟩
  simp only [Calendar.rollDate, hn, hp, Option.bind_some]
  rw [if_neg (by subst hd hf; decide)]

/-- The holidays used in `C13_year_wrap`: the 335 days from 2023-01-31 to 2023-12-31. -/
def yearOff : List Date := (List.range 335).filterMap fun (i : ℕ) => Date.ofDay (738551 + i)

/-- C13, the missing case: the code compares months without years, so on a calendar whose next business day is in the
same month of the next year, Modified Following leaves the month although it has a business day before `d`. -/
theorem C13_year_wrap (heb : Hebrew) (d e r : Date) (hd : Date.ofYMD 2023 1 31 = some d)
    (he : Date.ofYMD 2023 1 30 = some e) (hr : Date.ofYMD 2024 1 1 = some r) :
    Business heb (⟨.none, yearOff⟩) e ∧ SameMonth d e ∧
      (Calendar.mk .none yearOff).rollDate heb d .modifiedFollowing = some r := by
  have hdn : d.dayNum = 738551 := by cases hd; decide
  have hen : e.dayNum = 738550 := by cases he; decide
  have hrn : r.dayNum = 738886 := by cases hr; decide
  have hmem : ∀ x : Date, x ∈ yearOff ↔ 738551 ≤ x.dayNum ∧ x.dayNum < 738886 := by
    intro x
    simp only [yearOff, List.mem_filterMap, List.mem_range, Date.ofDay_eq_some_iff]
    constructor
    · rintro ⟨i, hi, h⟩; omega
    · intro h; exact ⟨(x.dayNum - 738551).toNat, by omega, by omega⟩
  have hbe : ∀ x : Date, x ∉ yearOff → x.weekday = 0 → Business heb (⟨.none, yearOff⟩) x := by
    intro x hx hw
    simp [Business, Calendar.isBusinessDay, Calendar.isWeekend, hw, Calendar.isHoliday, hx, marketHoliday, countryRule]
  have hbr : Business heb (⟨.none, yearOff⟩) r := by
    refine hbe r ?_ (by cases hr; decide)
    rw [hmem]; omega
  have hoff : ∀ x : Date, 738551 ≤ x.dayNum → x.dayNum < 738886 →
      (Calendar.mk .none yearOff).isBusinessDay heb x = some false := by
    intro x h1 h2
    have : x ∈ yearOff := (hmem x).2 ⟨h1, h2⟩
    unfold Calendar.isBusinessDay Calendar.isHoliday
    split
    · rfl
    · simp
  refine ⟨hbe e (by rw [hmem]; omega) (by cases he; decide), ?_, ?_⟩
  · cases hd; cases he; exact ⟨rfl, rfl⟩
  · obtain ⟨n, hn⟩ := nextBusinessDay_total (heb := heb) (c := ⟨.none, yearOff⟩) (d := d) (e := r) (by omega) hbr
      (fun x h1 h2 => by rw [hoff x (by omega) (by omega)]; simp)
    obtain ⟨n1, n2, n3⟩ := nextBusinessDay_spec hn
    have hnr : n = r := by
      apply Date.dayNum_inj
      rcases lt_trichotomy n.dayNum r.dayNum with h | h | h
      · rw [hoff n (by omega) (by omega)] at n1; cases n1
      · exact h
      · have := n3 r (by omega) h
        rw [hbr] at this; cases this
    subst hnr
    simp only [Calendar.rollDate, hn, Option.bind_some]
    rw [if_pos (by cases hd; cases hr; rfl)]

/-! ## C14 -/

/-- The business days of a calendar between two dates, both included, as a set of day numbers. -/
def businessDays (heb : Hebrew) (c : Calendar) (a b : Date) : Finset ℤ :=
  (Finset.Icc a.dayNum b.dayNum).filter fun n => (Date.ofDay n).bind (c.isBusinessDay heb) = some true

/-- `businessDays` is what its name says. -/
theorem mem_businessDays (heb : Hebrew) (c : Calendar) (a b x : Date) :
    x.dayNum ∈ businessDays heb c a b ↔ a ≤ x ∧ x ≤ b ∧ Business heb c x := by
  simp [businessDays, Date.le_iff, Date.ofDay_dayNum, Business, and_assoc]

/-- C14: `business_day_count(a, b)` is the number of business days in the closed interval. -/
theorem C14_counts (heb : Hebrew) (c : Calendar) (a b : Date) (k : ℕ) (h : c.businessDayCount heb a b = some k) :
    k = (businessDays heb c a b).card := businessDayCount_spec h

/-- C14: it panics exactly when `a ≤ b` and either `b` is the last representable date or a query in between panics. -/
theorem C14_panics_iff (heb : Hebrew) (c : Calendar) (a b : Date) :
    c.businessDayCount heb a b = none ↔
      a ≤ b ∧ (b.dayNum = maxDay ∨ ∃ x, a ≤ x ∧ x ≤ b ∧ c.isBusinessDay heb x = none) := by
  simp only [Date.le_iff]; exact businessDayCount_none_iff

/-- C14: a reversed interval counts zero. -/
theorem C14_reversed (heb : Hebrew) (c : Calendar) (a b : Date) (h : b < a) : c.businessDayCount heb a b = some 0 := by
  rw [Date.lt_iff] at h
  rw [Calendar.businessDayCount.eq_def, if_neg]
  rw [Date.le_iff]; omega

/-- C14: counts over adjacent intervals add up. -/
theorem C14_additive (heb : Hebrew) (c : Calendar) (a b b' e : Date) (k : ℕ) (hab : a ≤ b) (hn : b.nextDay = some b')
    (hbe : b ≤ e) (h : c.businessDayCount heb a e = some k) :
    ∃ k1 k2, c.businessDayCount heb a b = some k1 ∧ c.businessDayCount heb b' e = some k2 ∧ k = k1 + k2 := by
  rw [Date.le_iff] at hab hbe
  rw [Date.nextDay_eq_some_iff] at hn
  have hk : c.businessDayCount heb a e ≠ none := by rw [h]; simp
  rw [Ne, businessDayCount_none_iff] at hk
  push Not at hk
  obtain ⟨hk1, hk2⟩ := hk (by omega)
  have h1 : c.businessDayCount heb a b ≠ none := by
    rw [Ne, businessDayCount_none_iff]
    rintro ⟨_, hm | ⟨x, hx1, hx2, hx3⟩⟩
    · have := b'.dayNum_range; omega
    · exact hk2 x hx1 (by omega) hx3
  have h2 : c.businessDayCount heb b' e ≠ none := by
    rw [Ne, businessDayCount_none_iff]
    rintro ⟨_, hm | ⟨x, hx1, hx2, hx3⟩⟩
    · exact hk1 hm
    · exact hk2 x (by omega) hx2 hx3
  obtain ⟨k1, e1⟩ := Option.ne_none_iff_exists'.1 h1
  obtain ⟨k2, e2⟩ := Option.ne_none_iff_exists'.1 h2
  refine ⟨k1, k2, e1, e2, ?_⟩
  rw [businessDayCount_spec h, businessDayCount_spec e1, businessDayCount_spec e2, hn, ← Finset.card_union_of_disjoint]
  · congr 1
    rw [← Finset.filter_union]
    congr 1
    ext x; simp only [Finset.mem_Icc, Finset.mem_union]; omega
  · apply Finset.disjoint_filter_filter
    rw [Finset.disjoint_left]
    intro x; simp only [Finset.mem_Icc]; omega

/-- C14: there are at most as many business days as days. -/
theorem C14_bounded (heb : Hebrew) (c : Calendar) (a b : Date) (k : ℕ) (hab : a ≤ b)
    (h : c.businessDayCount heb a b = some k) : (k : ℤ) ≤ calendarDayCount a b + 1 := by
  rw [Date.le_iff] at hab
  rw [businessDayCount_spec h]
  have := Finset.card_filter_le (Finset.Icc a.dayNum b.dayNum)
    (fun n => (Date.ofDay n).bind (c.isBusinessDay heb) = some true)
  rw [Int.card_Icc] at this
  unfold calendarDayCount
  omega

theorem pairs_getElem? {α β : Type} (f : α → α → β) (l : List α) (i : ℕ) :
    (pairs f l)[i]? = match l[i]?, l[i + 1]? with
      | some a, some b => some (f a b)
      | _, _ => none := by
  induction l using pairs.induct generalizing i with
  | case1 a b l ih =>
    rw [pairs]
    cases i with
    | zero => simp
    | succ i => simp [ih]
  | case2 l h =>
    rw [pairs]
    · rcases l with _ | ⟨a, _ | ⟨b, l⟩⟩
      · simp
      · cases i <;> simp
      · exact absurd rfl (h a b l)
    · exact h

theorem pairs_length {α β : Type} (f : α → α → β) (l : List α) : (pairs f l).length = l.length - 1 := by
  induction l using pairs.induct with
  | case1 a b l ih => rw [pairs, List.length_cons, ih]; simp
  | case2 l h =>
    rw [pairs]
    · rcases l with _ | ⟨a, _ | ⟨b, l⟩⟩
      · simp
      · simp
      · exact absurd rfl (h a b l)
    · exact h

/-- C14: `calendar_day_counts` returns the signed day differences of consecutive dates. -/
theorem C14_calendar_day_counts (ds : List Date) :
    (calendarDayCounts ds).length = ds.length - 1 ∧
      ∀ (i : ℕ) (a b : Date), ds[i]? = some a → ds[i + 1]? = some b →
        (calendarDayCounts ds)[i]? = some (b.dayNum - a.dayNum) := by
  refine ⟨pairs_length _ _, fun i a b ha hb => ?_⟩
  unfold calendarDayCounts
  rw [pairs_getElem?, ha, hb]; rfl

theorem mapM_option_getElem? {α β : Type} (f : α → Option β) {l : List α} {r : List β} (h : l.mapM f = some r) :
    r.length = l.length ∧ ∀ (i : ℕ) (a : α), l[i]? = some a → ∃ b, f a = some b ∧ r[i]? = some b := by
  induction l generalizing r with
  | nil => simp at h; subst h; simp
  | cons x xs ih =>
    rw [List.mapM_cons] at h
    cases hx : f x with
    | none => simp [hx] at h
    | some y =>
      cases hxs : xs.mapM f with
      | none => simp [hx, hxs] at h
      | some ys =>
        simp [hx, hxs] at h
        subst h
        obtain ⟨i1, i2⟩ := ih hxs
        refine ⟨by simp [i1], fun i a ha => ?_⟩
        cases i with
        | zero => simp at ha; subst ha; exact ⟨y, hx, by simp⟩
        | succ i => simp at ha; simpa using i2 i a ha

/-- C14: `business_day_counts` returns the business-day counts of consecutive dates. -/
theorem C14_business_day_counts (heb : Hebrew) (c : Calendar) (ds : List Date) (r : List ℕ)
    (h : c.businessDayCounts heb ds = some r) :
    r.length = ds.length - 1 ∧ ∀ (i : ℕ) (a b : Date), ds[i]? = some a → ds[i + 1]? = some b →
      r[i]? = some (businessDays heb c a b).card := by
  obtain ⟨h1, h2⟩ := mapM_option_getElem? _ h
  refine ⟨by rw [h1, pairs_length], fun i a b ha hb => ?_⟩
  obtain ⟨k, hk, hr⟩ := h2 i (c.businessDayCount heb a b) (by rw [pairs_getElem?, ha, hb])
  rw [hr, C14_counts heb c a b k hk]

/-- The week of 2024-07-01 (Monday) to 2024-07-07 (Sunday) has four US business days: the count does not panic, and
four days of the interval are business days. -/
example (a b : Date) (ha : a = ⟨2024, 7, 1, by decide⟩) (hb : b = ⟨2024, 7, 7, by decide⟩) :
    (Calendar.new .unitedStates).businessDayCount heb0 a b = some 4 := by
  have hcard : (businessDays heb0 (Calendar.new .unitedStates) a b).card = 4 := by subst ha hb; decide +kernel
  have hne : (Calendar.new .unitedStates).businessDayCount heb0 a b ≠ none := by
    rw [Ne, C14_panics_iff]
    rintro ⟨_, h | ⟨x, h1, h2, h3⟩⟩
    · subst hb; revert h; decide
    · rw [C11_panics_iff] at h3
      rw [Date.le_iff] at h1 h2
      have := year_mono h1
      have := year_mono h2
      subst ha hb
      simp only at *
      omega
  obtain ⟨k, hk⟩ := Option.ne_none_iff_exists'.1 hne
  rw [hk, C14_counts heb0 _ a b k hk, hcard]

/-! ### Cases meeting the hypotheses above -/

example := C11_business_day heb0 (Calendar.new .unitedStates) ⟨2024, 7, 4, by decide⟩ false (by decide +kernel)

example := C12_following heb0 (Calendar.new .unitedStates) ⟨2024, 7, 4, by decide⟩ ⟨2024, 7, 5, by decide⟩
  (by decide +kernel)

example := C12_preceding heb0 (Calendar.new .unitedStates) ⟨2024, 7, 7, by decide⟩ ⟨2024, 7, 5, by decide⟩
  (by decide +kernel)

example := C12_idempotent heb0 (Calendar.new .unitedStates) ⟨2024, 7, 7, by decide⟩ ⟨2024, 7, 5, by decide⟩ .preceding
  (by decide +kernel)

example := C13_modified_following heb0 (Calendar.new .weekends) ⟨2024, 6, 29, by decide⟩ ⟨2024, 6, 28, by decide⟩
  (by decide +kernel)

example := C13_year_wrap heb0 ⟨2023, 1, 31, by decide⟩ ⟨2023, 1, 30, by decide⟩ ⟨2024, 1, 1, by decide⟩
  (by decide +kernel) (by decide +kernel) (by decide +kernel)

example := C14_reversed heb0 (Calendar.new .unitedStates) ⟨2024, 7, 7, by decide⟩ ⟨2024, 7, 1, by decide⟩ (by decide)

end Verif.Time
