import Verif.Time.DayCountProps
import Verif.Time.CalendarProps

/-!
# C19, C20, C23–C25: month helpers, sequences, schedules, frequencies
-/

namespace Verif.Time

open Countries

/-! ## C19 -/

theorem weekday_of_add {d e : Date} {k : ℤ} (h : e.dayNum = d.dayNum + k) :
    (e.weekday : ℤ) = (d.weekday + k) % 7 := by
  unfold Date.weekday; omega

theorem dayNum_same_month {d e : Date} (hy : d.year = e.year) (hm : d.month = e.month) :
    d.dayNum - e.dayNum = (d.day : ℤ) - e.day := by
  unfold Date.dayNum Date.ordinal; rw [hy, hm]; push_cast; ring

/-- The date with day `k` of a month lies `k - 1` days after the first. -/
theorem exists_day {y : ℤ} {m k : ℕ} (hy : -9999 ≤ y ∧ y ≤ 9999) (hm : 1 ≤ m ∧ m ≤ 12) (hk : 1 ≤ k)
    (hk' : k ≤ monthLength y m) : ∃ D : Date, D.year = y ∧ D.month = m ∧ D.day = k :=
  ⟨⟨y, m, k, hy.1, hy.2, hm.1, hm.2, hk, hk'⟩, rfl, rfl, rfl⟩

/-- C19: `get_first_<weekday>_of_month(year, month)` is the unique date of that month with that weekday and day at most
7, for every representable year and every month. -/
theorem C19_first (w : ℕ) (hw : w < 7) (y : ℤ) (hy : -9999 ≤ y ∧ y ≤ 9999) (m : ℕ) (hm : 1 ≤ m ∧ m ≤ 12) :
    (∃ D, getFirstOfMonth w y m = some D) ∧
      ∀ D : Date, getFirstOfMonth w y m = some D ↔ D.year = y ∧ D.month = m ∧ D.weekday = w ∧ D.day ≤ 7 := by
  have hl := (monthLength_le y m).1
  obtain ⟨f, f1, f2, f3⟩ := exists_day hy hm (le_refl 1) (by omega)
  have hf : Date.ofYMD y m 1 = some f := Date.ofYMD_eq_some.2 ⟨f1, f2, f3⟩
  have hwf := f.weekday_lt
  obtain ⟨D, d1, d2, d3⟩ := exists_day (k := 1 + (w + 7 - f.weekday) % 7) hy hm (by omega) (by omega)
  have hD := dayNum_same_month (d1.trans f1.symm) (d2.trans f2.symm)
  rw [d3, f3] at hD
  have hDw := weekday_of_add (d := f) (e := D) (k := ((w + 7 - f.weekday) % 7 : ℕ)) (by push_cast at hD ⊢; omega)
  have hval : getFirstOfMonth w y m = some D := by
    unfold getFirstOfMonth
    rw [hf, Option.bind_some]
    split
    · rename_i h
      have : f = D := Date.dayNum_inj (by omega)
      rw [this]
    · rename_i h
      unfold Date.nextOccurrence
      rw [if_neg (by omega), Date.addDays_eq_some_iff]
      push_cast at hD ⊢; omega
  refine ⟨⟨D, hval⟩, fun E => ?_⟩
  rw [hval, Option.some.injEq]
  constructor
  · rintro rfl; exact ⟨d1, d2, by omega, by omega⟩
  · rintro ⟨e1, e2, e3, e4⟩
    have hE := dayNum_same_month (e1.trans f1.symm) (e2.trans f2.symm)
    have hEw := weekday_of_add (d := f) (e := E) (k := (E.day : ℤ) - 1) (by rw [f3] at hE; omega)
    have := E.day_bounds
    apply Date.dayNum_inj
    rw [f3] at hE
    omega

/-- C19: `get_last_<weekday>_of_month(year, month)` is the unique date of that month with that weekday among its last
seven days. -/
theorem C19_last (w : ℕ) (hw : w < 7) (y : ℤ) (hy : -9999 ≤ y ∧ y ≤ 9999) (m : ℕ) (hm : 1 ≤ m ∧ m ≤ 12) :
    (∃ D, getLastOfMonth w y m = some D) ∧
      ∀ D : Date, getLastOfMonth w y m = some D ↔
        D.year = y ∧ D.month = m ∧ D.weekday = w ∧ monthLength y m < D.day + 7 := by
  have hl := (monthLength_le y m).1
  obtain ⟨f, f1, f2, f3⟩ := exists_day hy hm (k := monthLength y m) (by omega) (le_refl _)
  have hf : Date.ofYMD y m (monthLength y m) = some f := Date.ofYMD_eq_some.2 ⟨f1, f2, f3⟩
  have hwf := f.weekday_lt
  obtain ⟨D, d1, d2, d3⟩ := exists_day (k := monthLength y m - (f.weekday + 7 - w) % 7) hy hm (by omega) (by omega)
  have hD := dayNum_same_month (d1.trans f1.symm) (d2.trans f2.symm)
  rw [d3, f3] at hD
  have hDw := weekday_of_add (d := f) (e := D) (k := -((f.weekday + 7 - w) % 7 : ℕ)) (by omega)
  have hval : getLastOfMonth w y m = some D := by
    unfold getLastOfMonth
    rw [hf, Option.bind_some]
    split
    · rename_i h
      have : f = D := Date.dayNum_inj (by omega)
      rw [this]
    · rename_i h
      unfold Date.prevOccurrence
      rw [if_neg (by omega), Date.addDays_eq_some_iff]
      omega
  refine ⟨⟨D, hval⟩, fun E => ?_⟩
  rw [hval, Option.some.injEq]
  constructor
  · rintro rfl; exact ⟨d1, d2, by omega, by omega⟩
  · rintro ⟨e1, e2, e3, e4⟩
    have hE := dayNum_same_month (e1.trans f1.symm) (e2.trans f2.symm)
    have hEw := weekday_of_add (d := f) (e := E) (k := (E.day : ℤ) - monthLength y m) (by rw [f3] at hE; omega)
    have hb := E.day_bounds
    rw [e1, e2] at hb
    apply Date.dayNum_inj
    rw [f3] at hE
    omega

/-- C19: the first- and last-day tests agree with the civil calendar: the previous (next) day is in another month. -/
theorem C19_day_tests (d : Date) :
    (isFirstDayOfMonth d = true ↔ ∀ p, d.prevDay = some p → p.month ≠ d.month ∨ p.year ≠ d.year) ∧
    (isLastDayOfMonth d = true ↔ ∀ n, d.nextDay = some n → n.month ≠ d.month ∨ n.year ≠ d.year) ∧
    (isLastDayOfFebruary d = true ↔ d.month = 2 ∧ ∀ n, d.nextDay = some n → n.month = 3 ∧ n.day = 1) := by
  have hb := d.day_bounds
  obtain ⟨v1, v2, v3, v4, v5, v6⟩ := d.valid
  refine ⟨?_, ?_, ?_⟩
  · unfold isFirstDayOfMonth
    rw [beq_iff_eq]
    constructor
    · intro h p hp
      rw [Date.prevDay_eq_some_iff] at hp
      by_contra hc
      push Not at hc
      have := dayNum_same_month hc.2 hc.1
      have := p.day_bounds
      omega
    · intro h
      by_contra hne
      obtain ⟨p, p1, p2, p3⟩ := exists_day (k := d.day - 1) ⟨v1, v2⟩ ⟨v3, v4⟩ (by omega) (by omega)
      have hp := dayNum_same_month p1 p2
      rw [p3] at hp
      have := h p (by rw [Date.prevDay_eq_some_iff]; omega)
      omega
  · unfold isLastDayOfMonth
    rw [beq_iff_eq]
    constructor
    · intro h n hn
      rw [Date.nextDay_eq_some_iff] at hn
      by_contra hc
      push Not at hc
      have := dayNum_same_month hc.2 hc.1
      have hn' := n.day_bounds
      rw [hc.1, hc.2] at hn'
      omega
    · intro h
      by_contra hne
      obtain ⟨p, p1, p2, p3⟩ := exists_day (k := d.day + 1) ⟨v1, v2⟩ ⟨v3, v4⟩ (by omega) (by omega)
      have hp := dayNum_same_month p1 p2
      rw [p3] at hp
      have := h p (by rw [Date.nextDay_eq_some_iff]; push_cast at hp; omega)
      omega
  · rw [isLastDayOfFebruary_iff, and_congr_right_iff]
    intro hm
    rw [Date.nextDay_triple, hm]
    constructor
    · intro h n hn
      rw [if_neg (by omega), if_pos (by omega), Date.ofYMD_eq_some] at hn
      exact hn.2
    · intro h
      by_contra hne
      rw [hm] at hb
      rw [if_pos (by omega)] at h
      obtain ⟨p, p1, p2, p3⟩ := exists_day (y := d.year) (m := 2) (k := d.day + 1) ⟨v1, v2⟩ (by omega) (by omega) (by omega)
      have := h p (Date.ofYMD_eq_some.2 ⟨p1, p2, p3⟩)
      omega

/-- The first Monday of September 2024 is the 2nd, the last Friday of February 2024 the 23rd. -/
example : (getFirstOfMonth 0 2024 9).map Date.day = some 2 ∧ (getLastOfMonth 4 2024 2).map Date.day = some 23 := by
  decide +kernel

/-! ## C20 -/

/-- C20: `get_last_day_of_month` answers the weekday after that of the last day, for every month except December 9999
(where it panics): the documented behaviour never holds. -/
theorem C20_wrong_weekday (y : ℤ) (hy : -9999 ≤ y ∧ y ≤ 9999) (m : ℕ) (hm : 1 ≤ m ∧ m ≤ 12) (last : Date)
    (hlast : last.year = y ∧ last.month = m ∧ last.day = monthLength y m) :
    (¬ (y = 9999 ∧ m = 12) → getLastDayOfMonth y m = some ((last.weekday + 1) % 7) ∧
      getLastDayOfMonth y m ≠ some last.weekday) ∧
    (y = 9999 ∧ m = 12 → getLastDayOfMonth y m = none) := by
  have hl := (monthLength_le y m).1
  obtain ⟨f, f1, f2, f3⟩ := exists_day hy hm (le_refl 1) (by omega)
  have hf : Date.ofYMD y m 1 = some f := Date.ofYMD_eq_some.2 ⟨f1, f2, f3⟩
  have hn := dayNum_same_month (hlast.1.trans f1.symm) (hlast.2.1.trans f2.symm)
  rw [hlast.2.2, f3] at hn
  unfold getLastDayOfMonth
  rw [hf, Option.bind_some]
  have hmx : last.dayNum = maxDay ↔ (y = 9999 ∧ m = 12) := by
    constructor
    · intro h
      have : last = ⟨9999, 12, 31, by decide⟩ := Date.dayNum_inj (by rw [h]; decide)
      rw [← hlast.1, ← hlast.2.1, this]; exact ⟨rfl, rfl⟩
    · rintro ⟨h1, h2⟩
      have : last = ⟨9999, 12, 31, by decide⟩ :=
        Date.ext' (hlast.1.trans h1) (hlast.2.1.trans h2) (by rw [hlast.2.2, h2]; rfl)
      rw [this]; decide
  have hr := last.dayNum_range
  have hrf := f.dayNum_range
  constructor
  · intro hne
    have hlt : last.dayNum < maxDay := by
      rcases Int.lt_or_eq_of_le hr.2 with h | h
      · exact h
      · exact absurd (hmx.1 h) hne
    obtain ⟨e, he, hen⟩ := Date.ofDay_some (n := f.dayNum + (monthLength y m : ℤ)) (by omega) (by omega)
    have hadd : f.addDays (monthLength y m) = some e := he
    rw [hadd, Option.map_some]
    have hw := weekday_of_add (d := last) (e := e) (k := 1) (by omega)
    have := last.weekday_lt
    refine ⟨by congr 1; omega, ?_⟩
    rw [Ne, Option.some.injEq]; omega
  · intro hne
    have := hmx.2 hne
    have : f.addDays (monthLength y m) = none := by
      unfold Date.addDays; rw [Date.ofDay_none_iff]; omega
    rw [this]; rfl

/-- January 2024 ended on a Wednesday; the function says Thursday.  `get_first_day_of_month` is right: Monday. -/
example : getLastDayOfMonth 2024 1 = some 3 ∧ (Date.ofYMD 2024 1 31).map Date.weekday = some 2 ∧
    getFirstDayOfMonth 2024 1 = some 0 := by decide +kernel

/-! ## C23 -/

theorem dateSequenceLoop_spec {s e : Date} {l : List Date} (h : dateSequenceLoop s e = some l) :
    (l.length : ℤ) = max 0 (e.dayNum - s.dayNum + 1) ∧
      ∀ (i : ℕ) (d : Date), l[i]? = some d → d.dayNum = s.dayNum + i := by
  induction s using dateSequenceLoop.induct (e := e) generalizing l with
  | case1 s hle hn =>
    rw [dateSequenceLoop.eq_def, if_pos hle] at h
    split at h
    · simp at h
    · rename_i h'; rw [hn] at h'; cases h'
  | case2 s hle n hn ih =>
    rw [dateSequenceLoop.eq_def, if_pos hle] at h
    split at h
    · simp at h
    · rename_i n' h'
      rw [hn] at h'; cases h'
      rw [Option.map_eq_some_iff] at h
      obtain ⟨l', hl', rfl⟩ := h
      obtain ⟨i1, i2⟩ := ih hl'
      have hn' := Date.addDays_eq_some_iff.1 hn
      rw [Date.le_iff] at hle
      refine ⟨by rw [List.length_cons]; push_cast; omega, fun i d hd => ?_⟩
      cases i with
      | zero => simp at hd; subst hd; simp
      | succ i => simp at hd; have := i2 i d hd; push_cast; omega
  | case3 s hle =>
    rw [dateSequenceLoop.eq_def, if_neg hle] at h
    rw [Date.le_iff] at hle
    cases h
    refine ⟨by simp; omega, by simp⟩

theorem dateSequenceLoop_none_iff {s e : Date} :
    dateSequenceLoop s e = none ↔ s.dayNum ≤ e.dayNum ∧ e.dayNum = maxDay := by
  induction s using dateSequenceLoop.induct (e := e) with
  | case1 s hle hn =>
    rw [dateSequenceLoop.eq_def, if_pos hle]
    have hn' : _ := Date.ofDay_none_iff.1 hn
    rw [Date.le_iff] at hle
    have := s.dayNum_range
    have := e.dayNum_range
    split
    · simp; omega
    · rename_i h'; rw [hn] at h'; cases h'
  | case2 s hle n hn ih =>
    rw [dateSequenceLoop.eq_def, if_pos hle]
    have hn' := Date.addDays_eq_some_iff.1 hn
    have := n.dayNum_range
    rw [Date.le_iff] at hle
    split
    · rename_i h'; rw [hn] at h'; cases h'
    · rename_i n' h'
      rw [hn] at h'; cases h'
      rw [Option.map_eq_none_iff, ih]
      omega
  | case3 s hle =>
    rw [dateSequenceLoop.eq_def, if_neg hle]
    rw [Date.le_iff] at hle
    simp; omega

/-- C23: `date_sequence(a, b)` lists the dates from `a` to `b`, one per day: its `i`-th element is `a` plus `i` days,
and there are `b - a + 1` of them. -/
theorem C23_date_sequence (a b : Date) (l : List Date) (h : dateSequence a b = some l) :
    (l.length : ℤ) = b.dayNum - a.dayNum + 1 ∧
      (∀ (i : ℕ) (d : Date), l[i]? = some d ↔ (i < l.length ∧ d.dayNum = a.dayNum + i)) ∧
      (∀ d : Date, d ∈ l ↔ a ≤ d ∧ d ≤ b) ∧ l.Nodup := by
  unfold dateSequence at h
  split at h
  · cases h
  rename_i hab
  obtain ⟨h1, h2⟩ := dateSequenceLoop_spec h
  have hlen : (l.length : ℤ) = b.dayNum - a.dayNum + 1 := by omega
  have hidx : ∀ (i : ℕ) (d : Date), l[i]? = some d ↔ (i < l.length ∧ d.dayNum = a.dayNum + i) := by
    intro i d
    constructor
    · intro hd
      exact ⟨(List.getElem?_eq_some_iff.1 hd).1, h2 i d hd⟩
    · rintro ⟨hi, hd⟩
      have := h2 i l[i] (List.getElem?_eq_getElem hi)
      rw [List.getElem?_eq_getElem hi, Date.dayNum_inj (this.trans hd.symm)]
  refine ⟨hlen, hidx, fun d => ?_, ?_⟩
  · rw [List.mem_iff_getElem?, Date.le_iff, Date.le_iff]
    constructor
    · rintro ⟨i, hi⟩; have := (hidx i d).1 hi; omega
    · intro hd
      exact ⟨(d.dayNum - a.dayNum).toNat, (hidx _ d).2 (by omega)⟩
  · rw [List.nodup_iff_getElem?_ne_getElem?]
    intro i j hij hj heq
    have hi : i < l.length := by omega
    have e1 := h2 i l[i] (List.getElem?_eq_getElem hi)
    have e2 := h2 j l[j] (List.getElem?_eq_getElem hj)
    rw [List.getElem?_eq_getElem hi, List.getElem?_eq_getElem hj, Option.some.injEq] at heq
    rw [heq] at e1; omega

/-- C23: it panics exactly for a reversed interval or when the end is the last representable date. -/
theorem C23_date_sequence_panics_iff (a b : Date) :
    dateSequence a b = none ↔ b < a ∨ b.dayNum = maxDay := by
  unfold dateSequence
  rw [Date.lt_iff]
  split
  · simp [*]
  · rw [dateSequenceLoop_none_iff]; omega

/-- C23: a generated schedule has one rolled date per input date and one factor per date: the first from `today`, the
others between consecutive rolled dates. -/
theorem C23_schedule (heb : Hebrew) (c : Calendar) (today : Date) (ds : List Date) (rc : RollConvention) (dc : DayCount)
    (s : Schedule) (h : c.generateSchedule heb today ds rc dc = some s) :
    ds ≠ [] ∧ s.dates.length = ds.length ∧ s.factors.length = ds.length ∧ s.dayCount = dc ∧ s.rolling = rc ∧
      (∀ (i : ℕ) (d : Date), ds[i]? = some d → ∃ r, c.rollDate heb d rc = some r ∧ s.dates[i]? = some r) ∧
      (∀ r0, s.dates[0]? = some r0 → ∃ f, dc.factor today r0 = some f ∧ s.factors[0]? = some f) ∧
      (∀ (i : ℕ) (r r' : Date), s.dates[i]? = some r → s.dates[i + 1]? = some r' →
        ∃ f, dc.factor r r' = some f ∧ s.factors[i + 1]? = some f) := by
  unfold Calendar.generateSchedule at h
  rw [Option.bind_eq_some_iff] at h
  obtain ⟨rolled, hr, h⟩ := h
  rw [Option.bind_eq_some_iff] at h
  obtain ⟨fs, hf, h⟩ := h
  obtain ⟨hr1, hr2⟩ := mapM_option_getElem? _ hr
  obtain ⟨hf1, hf2⟩ := mapM_option_getElem? _ hf
  rw [pairs_length] at hf1
  cases rolled with
  | nil => simp at h
  | cons r0 rs =>
    simp only [Option.map_eq_some_iff] at h
    obtain ⟨f0, hf0, rfl⟩ := h
    simp only
    rw [List.length_cons] at hr1 hf1
    refine ⟨?_, by rw [List.length_cons, hr1], by rw [List.length_cons, hf1]; omega, trivial, trivial, ?_, ?_, ?_⟩
    · rintro rfl; simp at hr1
    · intro i d hd
      obtain ⟨r, e1, e2⟩ := hr2 i d hd
      exact ⟨r, e1, e2⟩
    · intro r hr0
      simp at hr0
      subst hr0
      exact ⟨f0, hf0, by simp⟩
    · intro i r r' e1 e2
      obtain ⟨f, g1, g2⟩ := hf2 i (dc.factor r r') (by rw [pairs_getElem?, e1, e2])
      exact ⟨f, g1, by simpa using g2⟩

/-- Rolling 2024-06-29 (a Saturday) and 2024-07-31 under Following with Actual/360, seen from 2024-06-01. -/
example (t a b r : Date) (ht : t = ⟨2024, 6, 1, by decide⟩) (ha : a = ⟨2024, 6, 29, by decide⟩)
    (hb : b = ⟨2024, 7, 31, by decide⟩) (hr : r = ⟨2024, 7, 1, by decide⟩) :
    ((Calendar.new .weekends).generateSchedule heb0 t [a, b] .following .act360).map (fun s => (s.dates, s.factors))
      = some ([r, b], [30 / 360, 30 / 360]) := by
  have h1 : (Calendar.new .weekends).rollDate heb0 a .following = some r := by
    show nextBusinessDay _ _ _ = _
    rw [nextBusinessDay_step (d' := ⟨2024, 6, 30, by decide⟩) (by subst ha; decide) (by subst ha; decide),
      nextBusinessDay_step (d' := r) (by decide) (by subst hr; decide), nextBusinessDay_self (by subst hr; decide)]
  have h2 : (Calendar.new .weekends).rollDate heb0 b .following = some b := nextBusinessDay_self (by subst hb; decide)
  have h3 : (Calendar.new .weekends).rollDates heb0 [a, b] .following = some [r, b] := by
    simp [Calendar.rollDates, h1, h2]
  unfold Calendar.generateSchedule
  rw [h3]
  subst ht ha hb hr
  decide +kernel

/-! ## C24 -/

instance : Fintype Frequency :=
  ⟨{.daily, .weekly, .biWeekly, .semiMonthly, .monthly, .semiQuarterly, .quarterly, .triAnnually, .semiAnnually,
    .annually, .zero}, fun f => by cases f <;> decide⟩

/-- The gaps in days that stand for each frequency. -/
def gaps : Frequency → Finset ℤ
  | .daily => {1} | .weekly => {7} | .biWeekly => {14} | .semiMonthly => {15} | .monthly => Finset.Icc 28 31
  | .semiQuarterly => Finset.Icc 45 46 | .quarterly => Finset.Icc 91 92 | .triAnnually => Finset.Icc 121 122
  | .semiAnnually => Finset.Icc 182 183 | .annually => Finset.Icc 365 366 | .zero => ∅

/-- C24: the exact set of recognised gaps; every other gap panics. -/
theorem C24_table (a b : Date) :
    (∀ f, inferFrequency a b = some f ↔ b.dayNum - a.dayNum ∈ gaps f) ∧
    (inferFrequency a b = none ↔ ∀ f, b.dayNum - a.dayNum ∉ gaps f) := by
  have h1 : ∀ f, inferFrequency a b = some f ↔ b.dayNum - a.dayNum ∈ gaps f := by
    intro f
    unfold inferFrequency
    generalize b.dayNum - a.dayNum = x
    constructor
    · intro h
      simp only at h
      split_ifs at h <;> cases h <;> simp only [gaps, Finset.mem_Icc, Finset.mem_singleton] <;> omega
    · intro h
      cases f <;> simp only [gaps, Finset.mem_Icc, Finset.mem_singleton, Finset.notMem_empty] at h
      · rw [if_pos h]
      · rw [if_neg (by omega), if_pos h]
      · rw [if_neg (by omega), if_neg (by omega), if_pos h]
      · rw [if_neg (by omega), if_neg (by omega), if_neg (by omega), if_pos (by omega)]
      · rw [if_neg (by omega), if_neg (by omega), if_neg (by omega), if_neg (by omega), if_pos (by omega)]
      · rw [if_neg (by omega), if_neg (by omega), if_neg (by omega), if_neg (by omega), if_neg (by omega),
          if_pos (by omega)]
      · rw [if_neg (by omega), if_neg (by omega), if_neg (by omega), if_neg (by omega), if_neg (by omega),
          if_neg (by omega), if_pos (by omega)]
      · rw [if_neg (by omega), if_neg (by omega), if_neg (by omega), if_neg (by omega), if_neg (by omega),
          if_neg (by omega), if_neg (by omega), if_pos (by omega)]
      · rw [if_neg (by omega), if_neg (by omega), if_neg (by omega), if_neg (by omega), if_neg (by omega),
          if_neg (by omega), if_neg (by omega), if_neg (by omega), if_pos (by omega)]
      · rw [if_neg (by omega), if_neg (by omega), if_neg (by omega), if_neg (by omega), if_neg (by omega),
          if_neg (by omega), if_neg (by omega), if_neg (by omega), if_neg (by omega), if_pos (by omega)]
  refine ⟨h1, ?_⟩
  constructor
  · intro h f hf
    rw [(h1 f).2 hf] at h; cases h
  · intro h
    by_contra hc
    obtain ⟨f, hf⟩ := Option.ne_none_iff_exists'.1 hc
    exact h f ((h1 f).1 hf)

/-- C24: a date and the same day of the next month infer Monthly, for every such pair. -/
theorem C24_monthly (a b : Date) (hd : b.day = a.day)
    (hm : (b.year = a.year ∧ b.month = a.month + 1) ∨ (b.year = a.year + 1 ∧ a.month = 12 ∧ b.month = 1)) :
    inferFrequency a b = some .monthly := by
  rw [(C24_table a b).1]
  have hl := monthLength_le a.year a.month
  have va := a.valid
  have vb := b.valid
  unfold ValidYMD at va vb
  have key : b.dayNum - a.dayNum = monthLength a.year a.month := by
    unfold Date.dayNum Date.ordinal
    rcases hm with ⟨h1, h2⟩ | ⟨h1, h2, h3⟩
    · rw [h1, h2, hd, daysBeforeMonth_succ va.2.2.1 (by omega)]; push_cast; ring
    · rw [h1, h2, h3, hd, daysBeforeYear_succ, ← daysBeforeMonth_dec]
      simp [daysBeforeMonth]; ring
  simp only [gaps, Finset.mem_Icc]
  omega

/-- C24: a date and the same day of the next year infer Annually, for every such pair. -/
theorem C24_annually (a b : Date) (hd : b.day = a.day) (hm : b.month = a.month) (hy : b.year = a.year + 1) :
    inferFrequency a b = some .annually := by
  rw [(C24_table a b).1]
  have key : b.dayNum - a.dayNum = 365 ∨ b.dayNum - a.dayNum = 366 := by
    unfold Date.dayNum Date.ordinal
    rw [hd, hm, hy, daysBeforeYear_succ]
    have hl : ¬ (isLeap a.year = true ∧ isLeap (a.year + 1) = true) := by
      simp only [isLeap_iff]; omega
    have hdb : ∀ y, (daysBeforeMonth y a.month = daysBeforeMonth 1 a.month + (if isLeap y ∧ 2 < a.month then 1 else 0)) := by
      intro y
      have va := a.valid
      unfold ValidYMD at va
      obtain ⟨_, _, h1, h2, _⟩ := va
      generalize a.month = m at h1 h2
      have e1 : isLeap 1 = false := by decide
      interval_cases m <;> cases h : isLeap y <;> simp [daysBeforeMonth, h, e1]
    rw [hdb (a.year + 1), hdb a.year]
    unfold daysInYear
    cases h1 : isLeap a.year <;> cases h2 : isLeap (a.year + 1) <;> by_cases h3 : 2 < a.month <;>
      simp only [h1, h2, h3, and_self, and_true, and_false, if_true, if_false, Bool.false_eq_true,
        not_true_eq_false] at hl ⊢ <;> omega
  simp only [gaps, Finset.mem_Icc]
  omega

/-- C24: quarters and half years are not always recognised.  From 1 January to 1 April the inference panics exactly in
common years; from 1 January to 1 July exactly in common years; from 1 July to 1 January always. -/
theorem C24_defects (y : ℤ) (jan apr jul jan' : Date) (h1 : Date.ofYMD y 1 1 = some jan)
    (h2 : Date.ofYMD y 4 1 = some apr) (h3 : Date.ofYMD y 7 1 = some jul) (h4 : Date.ofYMD (y + 1) 1 1 = some jan') :
    (inferFrequency jan apr = none ↔ isLeap y = false) ∧ (inferFrequency jan jul = none ↔ isLeap y = false) ∧
      inferFrequency jul jan' = none := by
  rw [Date.ofYMD_eq_some] at h1 h2 h3 h4
  have e1 : apr.dayNum - jan.dayNum = if isLeap y then 91 else 90 := by
    unfold Date.dayNum Date.ordinal
    rw [h1.1, h1.2.1, h1.2.2, h2.1, h2.2.1, h2.2.2]
    cases h : isLeap y <;> simp [daysBeforeMonth, h]
  have e2 : jul.dayNum - jan.dayNum = if isLeap y then 182 else 181 := by
    unfold Date.dayNum Date.ordinal
    rw [h1.1, h1.2.1, h1.2.2, h3.1, h3.2.1, h3.2.2]
    cases h : isLeap y <;> simp [daysBeforeMonth, h]
  have e3 : jan'.dayNum - jul.dayNum = 184 := by
    unfold Date.dayNum Date.ordinal
    rw [h4.1, h4.2.1, h4.2.2, h3.1, h3.2.1, h3.2.2, daysBeforeYear_succ]
    cases h : isLeap y <;> simp [daysBeforeMonth, daysInYear, h] <;> ring
  refine ⟨?_, ?_, ?_⟩
  · rw [(C24_table jan apr).2, e1]; cases h : isLeap y <;> decide
  · rw [(C24_table jan jul).2, e2]; cases h : isLeap y <;> decide
  · rw [(C24_table jul jan').2, e3]; decide

/-- C24: the numeric value of `SemiQuarterly` is 6, not the 8 per year its documentation says; the other values are the
documented numbers per year. -/
theorem C24_values : Frequency.semiQuarterly.value = 6 ∧ Frequency.daily.value = 252 ∧ Frequency.weekly.value = 52 ∧
    Frequency.biWeekly.value = 26 ∧ Frequency.semiMonthly.value = 24 ∧ Frequency.monthly.value = 12 ∧
    Frequency.quarterly.value = 4 ∧ Frequency.triAnnually.value = 3 ∧ Frequency.semiAnnually.value = 2 ∧
    Frequency.annually.value = 1 := by decide

example (a b : Date) (ha : a = ⟨2024, 1, 31, by decide⟩) (hb : b = ⟨2024, 3, 31, by decide⟩) :
    inferFrequency a b = none ∧ b.day = a.day := by subst ha hb; decide +kernel

/-! ## C25 -/

/-- C25: `days_between` is a metric. -/
theorem C25_metric (a b c : Date) :
    0 ≤ daysBetween a b ∧ daysBetween a b = daysBetween b a ∧ (daysBetween a b = 0 ↔ a = b) ∧
      daysBetween a c ≤ daysBetween a b + daysBetween b c := by
  unfold daysBetween
  refine ⟨abs_nonneg _, abs_sub_comm _ _, ?_, ?_⟩
  · rw [abs_eq_zero, sub_eq_zero]
    exact ⟨fun h => (Date.dayNum_inj h).symm, fun h => by rw [h]⟩
  · have := abs_add_le (c.dayNum - b.dayNum) (b.dayNum - a.dayNum)
    rw [sub_add_sub_cancel] at this
    linarith

/-- C25: `days_between` of ordered dates is the number of `next_day` steps from one to the other. -/
theorem C25_next_day (a b b' : Date) (h : b.nextDay = some b') (hab : a ≤ b) : daysBetween a b' = daysBetween a b + 1 := by
  rw [Date.nextDay_eq_some_iff] at h
  rw [Date.le_iff] at hab
  unfold daysBetween
  rw [abs_of_nonneg (by omega), abs_of_nonneg (by omega)]
  omega

/-- C25: the year range is the list of years from start to end in order; the leap-year helpers agree with the Gregorian
rule on it. -/
theorem C25_years (a b : Date) :
    (∀ y, y ∈ yearsInRange a b ↔ a.year ≤ y ∧ y ≤ b.year) ∧ (yearsInRange a b).Pairwise (· < ·) ∧
      leapYearCount a b = ((Finset.Icc a.year b.year).filter
        fun y => y % 4 = 0 ∧ (y % 100 ≠ 0 ∨ y % 400 = 0)).card ∧
      (containsLeapYear a b = true ↔ ∃ y, a.year ≤ y ∧ y ≤ b.year ∧ y % 4 = 0 ∧ (y % 100 ≠ 0 ∨ y % 400 = 0)) ∧
      (0 < leapYearCount a b ↔ containsLeapYear a b = true) := by
  have hmem : ∀ y, y ∈ yearsInRange a b ↔ a.year ≤ y ∧ y ≤ b.year := by
    intro y
    simp only [yearsInRange, List.mem_map, List.mem_range]
    constructor
    · rintro ⟨i, hi, rfl⟩; omega
    · rintro ⟨h1, h2⟩; exact ⟨(y - a.year).toNat, by omega, by omega⟩
  refine ⟨hmem, ?_, ?_, ?_, ?_⟩
  · unfold yearsInRange
    rw [List.pairwise_map]
    exact List.pairwise_lt_range.imp (fun h => by omega)
  · rw [yearsInRange_filter]
    unfold leapYearsTouched
    congr 1
    ext y
    simp only [Finset.mem_filter, isLeap_iff]
  · unfold containsLeapYear
    rw [List.any_eq_true]
    simp only [hmem, isLeap_iff, and_assoc]
  · rw [containsLeapYear_iff, yearsInRange_filter]

/-- C25: `year_fraction` is symmetric and ignores the order of the dates (it is never negative). -/
theorem C25_year_fraction (a b : Date) :
    yearFraction a b = yearFraction b a ∧ 0 ≤ yearFraction a b ∧ yearFraction a b = daysBetween a b * 4 / 1461 := by
  have h := C25_metric a b a
  unfold yearFraction
  refine ⟨by rw [h.2.1], ?_, by norm_num; ring⟩
  have : (0 : ℚ) ≤ daysBetween a b := by exact_mod_cast h.1
  positivity

/-- 2023-07-01 to 2025-01-01: three years touched, one of them a leap year, 550 days. -/
example (a b : Date) (ha : a = ⟨2023, 7, 1, by decide⟩) (hb : b = ⟨2025, 1, 1, by decide⟩) :
    yearsInRange a b = [2023, 2024, 2025] ∧ daysInYearsInRange a b = [365, 366, 365] ∧ leapYearCount a b = 1 ∧
      daysBetween b a = 550 := by
  subst ha hb; decide +kernel

example := C19_first 0 (by norm_num) 2024 (by norm_num) 9 (by norm_num)
example := C19_last 4 (by norm_num) 2024 (by norm_num) 2 (by norm_num)
example := C24_monthly ⟨2024, 12, 15, by decide⟩ ⟨2025, 1, 15, by decide⟩ rfl (by decide)
example := C24_annually ⟨2024, 3, 15, by decide⟩ ⟨2025, 3, 15, by decide⟩ rfl rfl (by decide)
example := C24_defects 2023 ⟨2023, 1, 1, by decide⟩ ⟨2023, 4, 1, by decide⟩ ⟨2023, 7, 1, by decide⟩
  ⟨2024, 1, 1, by decide⟩ (by decide +kernel) (by decide +kernel) (by decide +kernel) (by decide +kernel)
example := C25_next_day ⟨2023, 7, 1, by decide⟩ ⟨2024, 2, 28, by decide⟩ ⟨2024, 2, 29, by decide⟩ (by decide +kernel)
  (by decide)

end Verif.Time
