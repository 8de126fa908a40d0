import Verif.Time.CountrySpec

/-! # Helper lemmas for C22: rules in terms of the fields that the code looks at -/

namespace Verif.Time

open Countries

/-- Length of a month, 28 for February. -/
def minLen (m : ℕ) : ℕ := match m with
  | 2 => 28
  | 4 | 6 | 9 | 11 => 30
  | _ => 31

theorem monthLength_of_ne_two (y : ℤ) {m : ℕ} (h : m ≠ 2) : monthLength y m = minLen m := by
  unfold minLen monthLength; split <;> simp_all

theorem minLen_le (y : ℤ) (m : ℕ) : minLen m ≤ monthLength y m := by
  by_cases h : m = 2
  · subst h; simp only [minLen, monthLength]; split <;> omega
  · rw [monthLength_of_ne_two y h]

/-- The rule in terms of year, month, day, weekday, day of the year and the day of the year of Easter Monday. -/
def Rule.eval (y : ℤ) (m d wd yd em : ℕ) : Rule → Prop
  | .on m' d' => m = m' ∧ d = d'
  | .easter k => if 1 ≤ k then yd = em + (k - 1).toNat else yd = em - (1 - k).toNat
  | .nth n w m' => m = m' ∧ wd = w ∧ 7 * (n - 1) < d ∧ d ≤ 7 * n
  | .last w m' => m = m' ∧ wd = w ∧ minLen m' < d + 7
  | .firstFrom w m' d' => wd = w ∧ m = m' ∧ d' ≤ d ∧ d < d' + 7
  | .moved m' d' w k => wd = ((w + k) % 7).toNat ∧
      if (d' : ℤ) + k ≤ minLen m' then m = m' ∧ d = (d' + k).toNat else m = m' + 1 ∧ d = (d' + k - minLen m').toNat
  | .once y' m' d' => y = y' ∧ m = m' ∧ d = d'
  | .years p r => p y = true ∧ r.eval y m d wd yd em

/-- Side conditions under which `eval` is right. -/
def Rule.wf : Rule → Bool
  | .last _ m => m != 2
  | .firstFrom _ m d => decide (1 ≤ m ∧ m ≤ 12 ∧ 1 ≤ d ∧ d + 6 ≤ minLen m)
  | .moved m d w k => decide (1 ≤ m ∧ m ≤ 12 ∧ 1 ≤ d ∧ d ≤ minLen m ∧ w < 7 ∧ 1 ≤ d + k ∧
      (d + k ≤ minLen m ∨ (m ≠ 2 ∧ m < 12 ∧ d + k - minLen m ≤ 28)))
  | .years _ r => r.wf
  | .easter k => decide (-81 ≤ k)
  | _ => true

theorem Date.dayNum_ymd (D : Date) : D.dayNum = daysBeforeYear D.year + daysBeforeMonth D.year D.month + D.day := by
  unfold Date.dayNum Date.ordinal; push_cast; ring

theorem minLen_ge (m : ℕ) : 28 ≤ minLen m := by unfold minLen; split <;> omega

theorem Rule.holds_iff {D : Date} {em : ℕ} (hem : easterMonday D.year false = some em) {r : Rule} (hr : r.wf = true) :
    r.Holds D ↔ r.eval D.year D.month D.day D.weekday D.ordinal em := by
  have hv := D.valid
  unfold ValidYMD at hv
  induction r with
  | on m d => rfl
  | nth n w m => rfl
  | once y m d => rfl
  | last w m =>
    simp only [Rule.wf, bne_iff_ne] at hr
    simp only [Rule.Holds, Rule.eval, monthLength_of_ne_two _ hr]
  | years p r ih => simp only [Rule.Holds, Rule.eval, ih hr]
  | easter k =>
    obtain ⟨E, M, hE1, hE2, hE3, hM, hM1, hM2, hM3, _⟩ := C21_easter_table false D.year (easterMonday_range hem).1
      (easterMonday_range hem).2.1
    rw [hem] at hM3
    simp only [Option.some.injEq] at hM3
    rw [Date.nextDay_eq_some_iff] at hM
    simp only [Rule.wf, decide_eq_true_eq] at hr
    have h82 := (easterMonday_range hem).2.2.1
    have hev : Rule.eval D.year D.month D.day D.weekday D.ordinal em (.easter k) ↔ (D.ordinal : ℤ) = em + (k - 1) := by
      simp only [Rule.eval]; split <;> omega
    rw [hev]
    simp only [Rule.Holds]
    have hMd : M.dayNum = daysBeforeYear D.year + em := by unfold Date.dayNum; rw [hM1, ← hM3]
    have hDd : D.dayNum = daysBeforeYear D.year + D.ordinal := rfl
    constructor
    · rintro ⟨E', h1, h2, h3⟩
      have := hE3 E' h1 h2
      subst this
      omega
    · intro h
      exact ⟨E, hE1, hE2, by omega⟩
  | firstFrom w m d =>
    simp only [Rule.wf, decide_eq_true_eq] at hr
    simp only [Rule.Holds, Rule.eval]
    have hl := minLen_le D.year m
    constructor
    · rintro ⟨hw, H, h1, h2, h3, h4, h5⟩
      refine ⟨hw, ?_⟩
      obtain ⟨K, k1, k2, k3⟩ := exists_day (y := D.year) (m := m) (k := d + (D.dayNum - H.dayNum).toNat)
        ⟨hv.1, hv.2.1⟩ ⟨hr.1, hr.2.1⟩ (by omega) (by omega)
      have e1 := K.dayNum_ymd
      have e2 := H.dayNum_ymd
      rw [k1, k2, k3] at e1
      rw [h1, h2, h3] at e2
      have : K = D := Date.dayNum_inj (by push_cast at e1; omega)
      subst this
      refine ⟨k2, ?_, ?_⟩ <;> omega
    · rintro ⟨hw, hm, h1, h2⟩
      refine ⟨hw, ?_⟩
      obtain ⟨K, k1, k2, k3⟩ := exists_day (y := D.year) (m := m) (k := d) ⟨hv.1, hv.2.1⟩ ⟨hr.1, hr.2.1⟩ (by omega)
        (by omega)
      refine ⟨K, k1, k2, k3, ?_⟩
      have e1 := K.dayNum_ymd
      have e2 := D.dayNum_ymd
      rw [k1, k2, k3] at e1
      rw [hm] at e2
      omega
  | moved m d w k =>
    simp only [Rule.wf, decide_eq_true_eq] at hr
    obtain ⟨r1, r2, r3, r4, r5, r6, r7⟩ := hr
    simp only [Rule.Holds, Rule.eval]
    have hl := minLen_le D.year m
    obtain ⟨H, h1, h2, h3⟩ := exists_day (y := D.year) (m := m) (k := d) ⟨hv.1, hv.2.1⟩ ⟨r1, r2⟩ r3 (by omega)
    have e1 := H.dayNum_ymd
    rw [h1, h2, h3] at e1
    have key : (∃ H : Date, H.year = D.year ∧ H.month = m ∧ H.day = d ∧ H.weekday = w ∧ D.dayNum = H.dayNum + k) ↔
        D.weekday = ((w + k) % 7).toNat ∧ D.dayNum = H.dayNum + k := by
      constructor
      · rintro ⟨H', a1, a2, a3, a4, a5⟩
        have : H' = H := Date.ext' (a1.trans h1.symm) (a2.trans h2.symm) (a3.trans h3.symm)
        subst this
        refine ⟨?_, a5⟩
        unfold Date.weekday at a4 ⊢
        omega
      · rintro ⟨a1, a2⟩
        refine ⟨H, h1, h2, h3, ?_, a2⟩
        unfold Date.weekday at a1 ⊢
        omega
    rw [key]
    refine and_congr_right fun _ => ?_
    have e3 := D.dayNum_ymd
    split
    · rename_i hc
      constructor
      · intro h
        obtain ⟨K, k1, k2, k3⟩ := exists_day (y := D.year) (m := m) (k := (d + k).toNat) ⟨hv.1, hv.2.1⟩ ⟨r1, r2⟩
          (by omega) (by omega)
        have e2 := K.dayNum_ymd
        rw [k1, k2, k3] at e2
        have : K = D := Date.dayNum_inj (by omega)
        subst this
        exact ⟨k2, k3⟩
      · rintro ⟨a, b⟩
        rw [a, b] at e3
        omega
    · rename_i hc
      obtain ⟨r7, r8, r9⟩ := r7.resolve_left (by omega)
      have hs := daysBeforeMonth_succ (y := D.year) r1 (by omega)
      rw [monthLength_of_ne_two _ r7] at hs
      have hg := minLen_ge (m + 1)
      have hg' := minLen_le D.year (m + 1)
      constructor
      · intro h
        obtain ⟨K, k1, k2, k3⟩ := exists_day (y := D.year) (m := m + 1) (k := (d + k - minLen m).toNat) ⟨hv.1, hv.2.1⟩
          ⟨by omega, by omega⟩ (by omega) (by omega)
        have e2 := K.dayNum_ymd
        rw [k1, k2, k3] at e2
        have : K = D := Date.dayNum_inj (by omega)
        subst this
        exact ⟨k2, k3⟩
      · rintro ⟨a, b⟩
        rw [a, b] at e3
        omega

theorem isHolidayOf_iff {D : Date} {em : ℕ} (hem : easterMonday D.year false = some em) {l : List Rule}
    (hl : l.all Rule.wf = true) :
    IsHolidayOf l D ↔ ∃ r ∈ l, r.eval D.year D.month D.day D.weekday D.ordinal em := by
  unfold IsHolidayOf
  rw [List.all_eq_true] at hl
  exact exists_congr fun r => and_congr_right fun h => Rule.holds_iff hem (hl r h)

end Verif.Time
