import Verif.Time.Calendar
import Mathlib.Data.Finset.Card
import Mathlib.Order.Interval.Finset.Basic
import Mathlib.Data.Int.Interval

/-! Helper lemmas about the rolling and counting loops. -/

namespace Verif.Time

open Countries

variable {heb : Hebrew} {c : Calendar}

theorem nextBusinessDay_spec {d r : Date} (h : nextBusinessDay heb c d = some r) :
    c.isBusinessDay heb r = some true ∧ d.dayNum ≤ r.dayNum ∧
      ∀ e : Date, d.dayNum ≤ e.dayNum → e.dayNum < r.dayNum → c.isBusinessDay heb e = some false := by
  induction d using nextBusinessDay.induct (heb := heb) (c := c) with
  | case1 d hb => rw [nextBusinessDay.eq_def] at h; simp [hb] at h
  | case2 d hb =>
    rw [nextBusinessDay.eq_def] at h
    simp only [hb, Option.some.injEq] at h
    subst h
    exact ⟨hb, le_refl _, fun e h1 h2 => absurd h1 (by omega)⟩
  | case3 d hb hn =>
    rw [nextBusinessDay.eq_def] at h
    simp only [hb] at h
    split at h
    · simp at h
    · rename_i d' h'; rw [hn] at h'; simp at h'
  | case4 d hb d' hn ih =>
    rw [nextBusinessDay.eq_def] at h
    simp only [hb] at h
    split at h
    · simp at h
    · rename_i d'' h'
      rw [hn] at h'
      cases h'
      obtain ⟨h1, h2, h3⟩ := ih h
      rw [Date.nextDay_eq_some_iff] at hn
      refine ⟨h1, by omega, fun e he1 he2 => ?_⟩
      rcases Int.lt_or_eq_of_le he1 with he | he
      · exact h3 e (by omega) he2
      · rw [← Date.dayNum_inj he]; exact hb

theorem prevBusinessDay_spec {d r : Date} (h : prevBusinessDay heb c d = some r) :
    c.isBusinessDay heb r = some true ∧ r.dayNum ≤ d.dayNum ∧
      ∀ e : Date, r.dayNum < e.dayNum → e.dayNum ≤ d.dayNum → c.isBusinessDay heb e = some false := by
  induction d using prevBusinessDay.induct (heb := heb) (c := c) with
  | case1 d hb => rw [prevBusinessDay.eq_def] at h; simp [hb] at h
  | case2 d hb =>
    rw [prevBusinessDay.eq_def] at h
    simp only [hb, Option.some.injEq] at h
    subst h
    exact ⟨hb, le_refl _, fun e h1 h2 => absurd h1 (by omega)⟩
  | case3 d hb hn =>
    rw [prevBusinessDay.eq_def] at h
    simp only [hb] at h
    split at h
    · simp at h
    · rename_i d' h'; rw [hn] at h'; simp at h'
  | case4 d hb d' hn ih =>
    rw [prevBusinessDay.eq_def] at h
    simp only [hb] at h
    split at h
    · simp at h
    · rename_i d'' h'
      rw [hn] at h'
      cases h'
      obtain ⟨h1, h2, h3⟩ := ih h
      rw [Date.prevDay_eq_some_iff] at hn
      refine ⟨h1, by omega, fun e he1 he2 => ?_⟩
      rcases Int.lt_or_eq_of_le he2 with he | he
      · exact h3 e he1 (by omega)
      · rw [Date.dayNum_inj he]; exact hb

/-- If a business day is ahead and nothing panics on the way, the loop finds one. -/
theorem nextBusinessDay_total {d e : Date} (h1 : d.dayNum ≤ e.dayNum) (he : c.isBusinessDay heb e = some true)
    (hp : ∀ x : Date, d.dayNum ≤ x.dayNum → x.dayNum < e.dayNum → c.isBusinessDay heb x ≠ none) :
    ∃ r, nextBusinessDay heb c d = some r := by
  induction d using nextBusinessDay.induct (heb := heb) (c := c) with
  | case1 d hb =>
    rcases Int.lt_or_eq_of_le h1 with h | h
    · exact absurd hb (hp d (le_refl _) h)
    · rw [Date.dayNum_inj h, he] at hb; cases hb
  | case2 d hb => exact ⟨d, by rw [nextBusinessDay.eq_def]; simp [hb]⟩
  | case3 d hb hn =>
    rcases Int.lt_or_eq_of_le h1 with h | h
    · unfold Date.nextDay Date.addDays at hn
      rw [Date.ofDay_none_iff] at hn
      have := e.dayNum_range; have := d.dayNum_range
      omega
    · rw [Date.dayNum_inj h, he] at hb; cases hb
  | case4 d hb d' hn ih =>
    have hn' := Date.nextDay_eq_some_iff.1 hn
    have hlt : d.dayNum < e.dayNum := by
      rcases Int.lt_or_eq_of_le h1 with h | h
      · exact h
      · rw [Date.dayNum_inj h, he] at hb; cases hb
    obtain ⟨r, hr⟩ := ih (by omega) (fun x hx1 hx2 => hp x (by omega) hx2)
    refine ⟨r, ?_⟩
    rw [nextBusinessDay.eq_def]
    simp only [hb]
    split
    · rename_i h'; rw [hn] at h'; cases h'
    · rename_i d'' h'; rw [hn] at h'; cases h'; exact hr

theorem prevBusinessDay_total {d e : Date} (h1 : e.dayNum ≤ d.dayNum) (he : c.isBusinessDay heb e = some true)
    (hp : ∀ x : Date, e.dayNum < x.dayNum → x.dayNum ≤ d.dayNum → c.isBusinessDay heb x ≠ none) :
    ∃ r, prevBusinessDay heb c d = some r := by
  induction d using prevBusinessDay.induct (heb := heb) (c := c) with
  | case1 d hb =>
    rcases Int.lt_or_eq_of_le h1 with h | h
    · exact absurd hb (hp d h (le_refl _))
    · rw [← Date.dayNum_inj h, he] at hb; cases hb
  | case2 d hb => exact ⟨d, by rw [prevBusinessDay.eq_def]; simp [hb]⟩
  | case3 d hb hn =>
    rcases Int.lt_or_eq_of_le h1 with h | h
    · unfold Date.prevDay Date.addDays at hn
      rw [Date.ofDay_none_iff] at hn
      have := e.dayNum_range; have := d.dayNum_range
      omega
    · rw [← Date.dayNum_inj h, he] at hb; cases hb
  | case4 d hb d' hn ih =>
    have hn' := Date.prevDay_eq_some_iff.1 hn
    have hlt : e.dayNum < d.dayNum := by
      rcases Int.lt_or_eq_of_le h1 with h | h
      · exact h
      · rw [← Date.dayNum_inj h, he] at hb; cases hb
    obtain ⟨r, hr⟩ := ih (by omega) (fun x hx1 hx2 => hp x hx1 (by omega))
    refine ⟨r, ?_⟩
    rw [prevBusinessDay.eq_def]
    simp only [hb]
    split
    · rename_i h'; rw [hn] at h'; cases h'
    · rename_i d'' h'; rw [hn] at h'; cases h'; exact hr

theorem nextBusinessDay_self {d : Date} (h : c.isBusinessDay heb d = some true) :
    nextBusinessDay heb c d = some d := by
  rw [nextBusinessDay.eq_def]; simp [h]

theorem prevBusinessDay_self {d : Date} (h : c.isBusinessDay heb d = some true) :
    prevBusinessDay heb c d = some d := by
  rw [prevBusinessDay.eq_def]; simp [h]

theorem nextBusinessDay_step {d d' : Date} (h : c.isBusinessDay heb d = some false) (hn : d.nextDay = some d') :
    nextBusinessDay heb c d = nextBusinessDay heb c d' := by
  rw [nextBusinessDay.eq_def]
  simp only [h]
  split
  · rename_i h'; rw [hn] at h'; cases h'
  · rename_i h'; rw [hn] at h'; cases h'; rfl

theorem prevBusinessDay_step {d d' : Date} (h : c.isBusinessDay heb d = some false) (hn : d.prevDay = some d') :
    prevBusinessDay heb c d = prevBusinessDay heb c d' := by
  rw [prevBusinessDay.eq_def]
  simp only [h]
  split
  · rename_i h'; rw [hn] at h'; cases h'
  · rename_i h'; rw [hn] at h'; cases h'; rfl

/-- Two days of one civil month, and everything between them, are in that month. -/
theorem same_month_between {a b x : Date} (hy : a.year = b.year) (hm : a.month = b.month)
    (h1 : a.dayNum ≤ x.dayNum) (h2 : x.dayNum ≤ b.dayNum) : x.year = a.year ∧ x.month = a.month := by
  have hax := Date.le_iff.2 h1
  have hxb := Date.le_iff.2 h2
  have yx : x.year = a.year := by
    rcases hax with (h | ⟨h, _⟩) | h
    · rcases hxb with (h' | ⟨h', _⟩) | h'
      · omega
      · omega
      · rw [h', hy]
    · exact h.symm
    · rw [h]
  refine ⟨yx, ?_⟩
  obtain ⟨_, _, ha1, ha2, ha3, ha4⟩ := a.valid
  obtain ⟨_, _, hb1, hb2, hb3, hb4⟩ := b.valid
  obtain ⟨_, _, hx1, hx2, hx3, hx4⟩ := x.valid
  unfold Date.dayNum Date.ordinal at h1 h2
  rw [yx] at h1 h2 hx4
  rw [← hy] at h2 hb4
  rw [← hm] at h2 hb4
  rcases Nat.lt_trichotomy x.month a.month with h | h | h
  · have := daysBeforeMonth_mono (y := a.year) hx1 h ha2; omega
  · exact h
  · have := daysBeforeMonth_mono (y := a.year) ha1 h hx2; omega

theorem businessDayCount_spec {a b : Date} {k : ℕ} (h : c.businessDayCount heb a b = some k) :
    k = ((Finset.Icc a.dayNum b.dayNum).filter
      (fun n => ((Date.ofDay n).bind (c.isBusinessDay heb)) = some true)).card := by
  induction a using Calendar.businessDayCount.induct (heb := heb) (c := c) (b := b) generalizing k with
  | case1 a hle hb => rw [Calendar.businessDayCount.eq_def] at h; simp [hle, hb] at h
  | case2 a hle bd hb hn =>
    rw [Calendar.businessDayCount.eq_def] at h
    simp only [hle, hb, if_true] at h
    split at h
    · simp at h
    · rename_i d' h'; rw [hn] at h'; simp at h'
  | case3 a hle bd hb a' hn ih =>
    rw [Calendar.businessDayCount.eq_def] at h
    simp only [hle, hb, if_true] at h
    split at h
    · simp at h
    · rename_i d' h'
      rw [hn] at h'
      cases h'
      rw [Option.map_eq_some_iff] at h
      obtain ⟨k', hk', rfl⟩ := h
      have hn' := Date.addDays_eq_some_iff.1 hn
      rw [Date.le_iff] at hle
      rw [ih hk']
      have e : Finset.Icc a.dayNum b.dayNum = insert a.dayNum (Finset.Icc a'.dayNum b.dayNum) := by
        ext x; simp only [Finset.mem_Icc, Finset.mem_insert]; omega
      rw [e, Finset.filter_insert, Date.ofDay_dayNum]
      simp only [Option.bind_some, hb, Option.some.injEq]
      cases bd
      · simp
      · rw [if_pos rfl, if_pos rfl, Finset.card_insert_of_notMem]
        simp only [Finset.mem_filter, Finset.mem_Icc]; omega
  | case4 a hle =>
    rw [Calendar.businessDayCount.eq_def] at h
    simp only [hle, if_false, Option.some.injEq] at h
    subst h
    rw [Date.le_iff] at hle
    rw [Finset.Icc_eq_empty (by omega)]
    simp

theorem businessDayCount_none_iff {a b : Date} :
    c.businessDayCount heb a b = none ↔ a.dayNum ≤ b.dayNum ∧
      (b.dayNum = maxDay ∨ ∃ x : Date, a.dayNum ≤ x.dayNum ∧ x.dayNum ≤ b.dayNum ∧ c.isBusinessDay heb x = none) := by
  induction a using Calendar.businessDayCount.induct (heb := heb) (c := c) (b := b) with
  | case1 a hle hb =>
    rw [Calendar.businessDayCount.eq_def]
    simp only [hle, hb, if_true, true_iff]
    rw [Date.le_iff] at hle
    exact ⟨hle, Or.inr ⟨a, le_refl _, hle, hb⟩⟩
  | case2 a hle bd hb hn =>
    rw [Calendar.businessDayCount.eq_def]
    simp only [hle, hb, if_true]
    have hnone : a.dayNum + 1 < minDay ∨ maxDay < a.dayNum + 1 := Date.ofDay_none_iff.1 hn
    rw [Date.le_iff] at hle
    have hb' := b.dayNum_range
    have ha' := a.dayNum_range
    split
    · simp only [true_iff]
      exact ⟨hle, Or.inl (by omega)⟩
    · rename_i d' h'; rw [hn] at h'; simp at h'
  | case3 a hle bd hb a' hn ih =>
    rw [Calendar.businessDayCount.eq_def]
    simp only [hle, hb, if_true]
    have hn' := Date.addDays_eq_some_iff.1 hn
    rw [Date.le_iff] at hle
    have ha' := a'.dayNum_range
    split
    · rename_i h'; rw [hn] at h'; simp at h'
    · rename_i d' h'
      rw [hn] at h'
      cases h'
      rw [Option.map_eq_none_iff, ih]
      constructor
      · rintro ⟨h1, h2 | ⟨x, hx1, hx2, hx3⟩⟩
        · exact ⟨hle, Or.inl h2⟩
        · exact ⟨hle, Or.inr ⟨x, by omega, hx2, hx3⟩⟩
      · rintro ⟨_, h2 | ⟨x, hx1, hx2, hx3⟩⟩
        · exact ⟨by omega, Or.inl h2⟩
        · have : a.dayNum ≠ x.dayNum := by
            intro he
            rw [← Date.dayNum_inj he, hb] at hx3; cases hx3
          exact ⟨by omega, Or.inr ⟨x, by omega, hx2, hx3⟩⟩
  | case4 a hle =>
    rw [Calendar.businessDayCount.eq_def]
    simp only [hle, if_false, reduceCtorEq, false_iff]
    rw [Date.le_iff] at hle
    rintro ⟨h, _⟩; exact hle h

end Verif.Time
