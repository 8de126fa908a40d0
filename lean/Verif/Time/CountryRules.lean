import Verif.Time.CountryLemmas

/-! # Helper lemmas for C22: each country function is its rule list -/

namespace Verif.Time

open Countries

/-- Reduces a country rule and its specification to arithmetic facts on both sides, month by month. -/
syntax "country" : tactic
macro_rules
  | `(tactic| country) => `(tactic|
      (simp only [Bool.or_eq_true, Bool.and_eq_true, beq_iff_eq, bne_iff_ne, decide_eq_true_eq, Rule.eval, List.mem_cons,
        List.not_mem_nil, or_false, Bool.false_eq_true, exists_eq_or_imp, exists_eq_left, List.map_cons, List.map_nil, List.cons_append,
        List.nil_append, goodFriday, holyThursday, easterMondayRule, ascension, whitMonday, corpusChristi, Rule.from,
        Rule.until, Rule.except, minLen, mondayised, sundayToMonday, nearestWeekday, pairFirst, pairSecond, chileMonday]
       interval_cases $(Lean.mkIdent `m):ident <;> simp <;>
         first | done | grind | (interval_cases $(Lean.mkIdent `d):ident <;> simp <;> first | done | omega | grind)))

theorem argentina_iff (y : ℤ) (m d wd yd em : ℕ) (hm : 1 ≤ m) (hm' : m ≤ 12) (_hd : 1 ≤ d) (_hd' : d ≤ 31)
    (_hw : wd < 7) : Argentina.isHoliday y m d wd yd em = true ↔ ∃ r ∈ argentina, r.eval y m d wd yd em := by
  unfold Argentina.isHoliday argentina is_christmas_day is_christmas_eve is_new_years_eve
  country

theorem australia_iff (y : ℤ) (m d wd yd em : ℕ) (hm : 1 ≤ m) (hm' : m ≤ 12) (_hd : 1 ≤ d) (_hd' : d ≤ 31)
    (_hw : wd < 7) : Australia.isHoliday y m d wd yd em = true ↔ ∃ r ∈ australia, r.eval y m d wd yd em := by
  unfold Australia.isHoliday australia
  country

theorem austria_iff (y : ℤ) (m d wd yd em : ℕ) (hm : 1 ≤ m) (hm' : m ≤ 12) (_hd : 1 ≤ d) (_hd' : d ≤ 31)
    (_hw : wd < 7) : Austria.isHoliday y m d wd yd em = true ↔ ∃ r ∈ austria, r.eval y m d wd yd em := by
  unfold Austria.isHoliday austria
  country

theorem botswana_iff (y : ℤ) (m d wd yd em : ℕ) (hm : 1 ≤ m) (hm' : m ≤ 12) (_hd : 1 ≤ d) (_hd' : d ≤ 31)
    (_hw : wd < 7) : Botswana.isHoliday y m d wd yd em = true ↔ ∃ r ∈ botswana, r.eval y m d wd yd em := by
  unfold Botswana.isHoliday botswana
  country

theorem brazil_iff (y : ℤ) (m d wd yd em : ℕ) (hm : 1 ≤ m) (hm' : m ≤ 12) (_hd : 1 ≤ d) (_hd' : d ≤ 31)
    (_hw : wd < 7) : Brazil.isHoliday y m d wd yd em = true ↔ ∃ r ∈ brazil, r.eval y m d wd yd em := by
  unfold Brazil.isHoliday brazil
  country

theorem canada_iff (y : ℤ) (m d wd yd em : ℕ) (hm : 1 ≤ m) (hm' : m ≤ 12) (_hd : 1 ≤ d) (_hd' : d ≤ 31)
    (_hw : wd < 7) : Canada.isHoliday y m d wd yd em = true ↔ ∃ r ∈ canada, r.eval y m d wd yd em := by
  unfold Canada.isHoliday canada
  country

theorem chile_iff (y : ℤ) (m d wd yd em : ℕ) (hm : 1 ≤ m) (hm' : m ≤ 12) (_hd : 1 ≤ d) (_hd' : d ≤ 31)
    (_hw : wd < 7) : Chile.isHoliday y m d wd yd em = true ↔ ∃ r ∈ chile, r.eval y m d wd yd em := by
  unfold Chile.isHoliday chile
  country

theorem czechRepublic_iff (y : ℤ) (m d wd yd em : ℕ) (hm : 1 ≤ m) (hm' : m ≤ 12) (_hd : 1 ≤ d) (_hd' : d ≤ 31)
    (_hw : wd < 7) : CzechRepublic.isHoliday y m d wd yd em = true ↔ ∃ r ∈ czechRepublic, r.eval y m d wd yd em := by
  unfold CzechRepublic.isHoliday czechRepublic
  country

theorem denmark_iff (y : ℤ) (m d wd yd em : ℕ) (hm : 1 ≤ m) (hm' : m ≤ 12) (_hd : 1 ≤ d) (_hd' : d ≤ 31)
    (_hw : wd < 7) : Denmark.isHoliday y m d wd yd em = true ↔ ∃ r ∈ denmark, r.eval y m d wd yd em := by
  unfold Denmark.isHoliday denmark
  country

theorem finland_iff (y : ℤ) (m d wd yd em : ℕ) (hm : 1 ≤ m) (hm' : m ≤ 12) (_hd : 1 ≤ d) (_hd' : d ≤ 31)
    (_hw : wd < 7) : Finland.isHoliday y m d wd yd em = true ↔ ∃ r ∈ finland, r.eval y m d wd yd em := by
  unfold Finland.isHoliday finland
  country

theorem france_iff (y : ℤ) (m d wd yd em : ℕ) (hm : 1 ≤ m) (hm' : m ≤ 12) (_hd : 1 ≤ d) (_hd' : d ≤ 31)
    (_hw : wd < 7) : France.isHoliday y m d wd yd em = true ↔ ∃ r ∈ france, r.eval y m d wd yd em := by
  unfold France.isHoliday france
  country

theorem germany_iff (y : ℤ) (m d wd yd em : ℕ) (hm : 1 ≤ m) (hm' : m ≤ 12) (_hd : 1 ≤ d) (_hd' : d ≤ 31)
    (_hw : wd < 7) : Germany.isHoliday y m d wd yd em = true ↔ ∃ r ∈ germany, r.eval y m d wd yd em := by
  unfold Germany.isHoliday germany
  country

theorem hungary_iff (y : ℤ) (m d wd yd em : ℕ) (hm : 1 ≤ m) (hm' : m ≤ 12) (_hd : 1 ≤ d) (_hd' : d ≤ 31)
    (_hw : wd < 7) : Hungary.isHoliday y m d wd yd em = true ↔ ∃ r ∈ hungary, r.eval y m d wd yd em := by
  unfold Hungary.isHoliday hungary
  country

theorem iceland_iff (y : ℤ) (m d wd yd em : ℕ) (hm : 1 ≤ m) (hm' : m ≤ 12) (_hd : 1 ≤ d) (_hd' : d ≤ 31)
    (_hw : wd < 7) : Iceland.isHoliday y m d wd yd em = true ↔ ∃ r ∈ iceland, r.eval y m d wd yd em := by
  unfold Iceland.isHoliday iceland
  country

theorem italy_iff (y : ℤ) (m d wd yd em : ℕ) (hm : 1 ≤ m) (hm' : m ≤ 12) (_hd : 1 ≤ d) (_hd' : d ≤ 31)
    (_hw : wd < 7) : Italy.isHoliday y m d wd yd em = true ↔ ∃ r ∈ italy, r.eval y m d wd yd em := by
  unfold Italy.isHoliday italy
  country

theorem mexico_iff (y : ℤ) (m d wd yd em : ℕ) (hm : 1 ≤ m) (hm' : m ≤ 12) (_hd : 1 ≤ d) (_hd' : d ≤ 31)
    (_hw : wd < 7) : Mexico.isHoliday y m d wd yd em = true ↔ ∃ r ∈ mexico, r.eval y m d wd yd em := by
  unfold Mexico.isHoliday mexico
  country

theorem netherlands_iff (y : ℤ) (m d wd yd em : ℕ) (hm : 1 ≤ m) (hm' : m ≤ 12) (_hd : 1 ≤ d) (_hd' : d ≤ 31)
    (_hw : wd < 7) : Netherlands.isHoliday y m d wd yd em = true ↔ ∃ r ∈ netherlands, r.eval y m d wd yd em := by
  unfold Netherlands.isHoliday netherlands Netherlands.is_kings_day
  country

theorem newZealandMatariki_iff (y : ℤ) (m d wd yd em : ℕ) :
    (∃ r ∈ newZealandMatariki.map (fun t => Rule.once t.1 t.2.1 t.2.2), r.eval y m d wd yd em) ↔
      (y, m, d) ∈ newZealandMatariki := by
  simp only [List.mem_map, exists_exists_and_eq_and, Rule.eval]
  constructor
  · rintro ⟨⟨a, b, c⟩, h, rfl, rfl, rfl⟩; exact h
  · intro h; exact ⟨_, h, rfl, rfl, rfl⟩

def newZealandRegular : List Rule :=
  pairFirst 1 1 ++ pairSecond 1 2 ++ [.firstFrom 0 1 19, .on 2 6, .from 2014 (.moved 2 6 5 2), .from 2014 (.moved 2 6 6 1),
    goodFriday, easterMondayRule, .on 4 25, .from 2014 (.moved 4 25 5 2), .from 2014 (.moved 4 25 6 1), .nth 1 0 6,
    .nth 4 0 10] ++ pairFirst 12 25 ++ pairSecond 12 26

set_option maxHeartbeats 1000000 in
theorem newZealand_iff (y : ℤ) (m d wd yd em : ℕ) (hm : 1 ≤ m) (hm' : m ≤ 12) (_hd : 1 ≤ d) (_hd' : d ≤ 31)
    (_hw : wd < 7) : NewZealand.isHoliday y m d wd yd em = true ↔ ∃ r ∈ newZealand, r.eval y m d wd yd em := by
  have hsplit : (∃ r ∈ newZealand, r.eval y m d wd yd em) ↔
      (∃ r ∈ newZealandRegular, r.eval y m d wd yd em) ∨ (y, m, d) ∈ newZealandMatariki := by
    rw [← newZealandMatariki_iff y m d wd yd em]
    change (∃ r ∈ newZealandRegular ++ _, _) ↔ _
    simp only [List.mem_append, or_and_right, exists_or]
  rw [hsplit]
  unfold NewZealand.isHoliday newZealandRegular newZealandMatariki
  simp only [Bool.or_eq_true, Bool.and_eq_true, beq_iff_eq, decide_eq_true_eq, Rule.eval, List.mem_cons,
    List.not_mem_nil, or_false, exists_eq_or_imp, exists_eq_left, List.cons_append, List.nil_append, goodFriday,
    easterMondayRule, Rule.from, minLen, pairFirst, pairSecond, Prod.mk.injEq]
  interval_cases m <;> simp <;>
    first | done | grind | (interval_cases d <;> simp <;> try omega)

theorem unitedKingdom_iff (y : ℤ) (m d wd yd em : ℕ) (hm : 1 ≤ m) (hm' : m ≤ 12) (_hd : 1 ≤ d) (_hd' : d ≤ 31)
    (_hw : wd < 7) : UnitedKingdom.isHoliday y m d wd yd em = true ↔ ∃ r ∈ unitedKingdom, r.eval y m d wd yd em := by
  unfold UnitedKingdom.isHoliday unitedKingdom UnitedKingdom.is_bank_holiday
  country

theorem unitedStates_iff (y : ℤ) (m d wd yd em : ℕ) (hm : 1 ≤ m) (hm' : m ≤ 12) (_hd : 1 ≤ d) (_hd' : d ≤ 31)
    (_hw : wd < 7) : UnitedStates.isHoliday y m d wd yd em = true ↔ ∃ r ∈ unitedStates, r.eval y m d wd yd em := by
  unfold UnitedStates.isHoliday unitedStates UnitedStates.is_washington_birthday UnitedStates.is_memorial_day UnitedStates.is_labor_day
    UnitedStates.is_columbus_day UnitedStates.is_veterans_day UnitedStates.is_juneteenth
  country

theorem switzerland_iff (y : ℤ) (m d wd yd em : ℕ) (hm : 1 ≤ m) (hm' : m ≤ 12) (_hd : 1 ≤ d) (_hd' : d ≤ 31)
    (_hw : wd < 7) : Switzerland.isHoliday y m d wd yd em = true ↔ ∃ r ∈ switzerland, r.eval y m d wd yd em := by
  unfold Switzerland.isHoliday switzerland Switzerland.is_new_year Switzerland.is_berchtholdstag Switzerland.is_good_friday
    Switzerland.is_easter_monday Switzerland.is_labour_day Switzerland.is_ascension_day Switzerland.is_whit_monday
    Switzerland.is_national_holiday Switzerland.is_christmas_eve Switzerland.is_christmas_day
    Switzerland.is_st_stephens_day Switzerland.is_new_year_eve
  country

theorem HongKong.is_lunar_new_year_outside (y : ℤ) (m d : ℕ) (hy : y < 2000 ∨ 2030 < y) : HongKong.is_lunar_new_year y m d = false := by
  unfold HongKong.is_lunar_new_year
  have : ∀ k : ℤ, 2000 ≤ k → k ≤ 2030 → (y == k) = false := by intro k h1 h2; rw [beq_eq_false_iff_ne]; omega
  simp [this]

theorem HongKong.is_buddhas_birthday_outside (y : ℤ) (m d : ℕ) (hy : y < 2000 ∨ 2030 < y) : HongKong.is_buddhas_birthday y m d = false := by
  unfold HongKong.is_buddhas_birthday
  have : ∀ k : ℤ, 2000 ≤ k → k ≤ 2030 → (y == k) = false := by intro k h1 h2; rw [beq_eq_false_iff_ne]; omega
  simp [this]

theorem HongKong.is_ching_ming_festival_outside (y : ℤ) (m d : ℕ) (hy : y < 2000 ∨ 2030 < y) : HongKong.is_ching_ming_festival y m d = false := by
  unfold HongKong.is_ching_ming_festival
  have : ∀ k : ℤ, 2000 ≤ k → k ≤ 2030 → (y == k) = false := by intro k h1 h2; rw [beq_eq_false_iff_ne]; omega
  simp [this]

theorem HongKong.is_tuen_ng_festival_outside (y : ℤ) (m d : ℕ) (hy : y < 2000 ∨ 2030 < y) : HongKong.is_tuen_ng_festival y m d = false := by
  unfold HongKong.is_tuen_ng_festival
  have : ∀ k : ℤ, 2000 ≤ k → k ≤ 2030 → (y == k) = false := by intro k h1 h2; rw [beq_eq_false_iff_ne]; omega
  simp [this]

theorem HongKong.is_mid_autumn_festival_outside (y : ℤ) (m d : ℕ) (hy : y < 2000 ∨ 2030 < y) : HongKong.is_mid_autumn_festival y m d = false := by
  unfold HongKong.is_mid_autumn_festival
  have : ∀ k : ℤ, 2000 ≤ k → k ≤ 2030 → (y == k) = false := by intro k h1 h2; rw [beq_eq_false_iff_ne]; omega
  simp [this]

theorem HongKong.is_chung_yeung_festival_outside (y : ℤ) (m d : ℕ) (hy : y < 2000 ∨ 2030 < y) : HongKong.is_chung_yeung_festival y m d = false := by
  unfold HongKong.is_chung_yeung_festival
  have : ∀ k : ℤ, 2000 ≤ k → k ≤ 2030 → (y == k) = false := by intro k h1 h2; rw [beq_eq_false_iff_ne]; omega
  simp [this]

theorem HongKong.is_second_day_after_christmas_outside (y : ℤ) (m d : ℕ) (hy : y < 2000 ∨ 2030 < y) : HongKong.is_second_day_after_christmas y m d = false := by
  unfold HongKong.is_second_day_after_christmas
  have : ∀ k : ℤ, 2000 ≤ k → k ≤ 2030 → (y == k) = false := by intro k h1 h2; rw [beq_eq_false_iff_ne]; omega
  simp [this]

theorem hongKong_sub (y : ℤ) (m d wd yd em : ℕ) (hm : 1 ≤ m) (hm' : m ≤ 12) (_hd : 1 ≤ d) (_hd' : d ≤ 31)
    (_hw : wd < 7) : (∃ r ∈ hongKong, r.eval y m d wd yd em) → HongKong.isHoliday y m d wd yd em = true := by
  unfold HongKong.isHoliday hongKong
  generalize HongKong.is_lunar_new_year y m d = t0
  generalize HongKong.is_buddhas_birthday y m d = t1
  generalize HongKong.is_ching_ming_festival y m d = t2
  generalize HongKong.is_tuen_ng_festival y m d = t3
  generalize HongKong.is_mid_autumn_festival y m d = t4
  generalize HongKong.is_chung_yeung_festival y m d = t5
  generalize HongKong.is_second_day_after_christmas y m d = t6
  country

theorem hongKong_iff_outside (y : ℤ) (m d wd yd em : ℕ) (hm : 1 ≤ m) (hm' : m ≤ 12) (_hd : 1 ≤ d) (_hd' : d ≤ 31)
    (_hw : wd < 7) (hy : y < 2000 ∨ 2030 < y) :
    HongKong.isHoliday y m d wd yd em = true ↔ ∃ r ∈ hongKong, r.eval y m d wd yd em := by
  unfold HongKong.isHoliday hongKong
  rw [HongKong.is_lunar_new_year_outside y m d hy, HongKong.is_buddhas_birthday_outside y m d hy, HongKong.is_ching_ming_festival_outside y m d hy, HongKong.is_tuen_ng_festival_outside y m d hy, HongKong.is_mid_autumn_festival_outside y m d hy, HongKong.is_chung_yeung_festival_outside y m d hy, HongKong.is_second_day_after_christmas_outside y m d hy]
  country

theorem India.is_mahashivratri_outside (y : ℤ) (m d : ℕ) (hy : y < 2000 ∨ 2030 < y) : India.is_mahashivratri y d m = false := by
  unfold India.is_mahashivratri
  have : ∀ k : ℤ, 2000 ≤ k → k ≤ 2030 → (y == k) = false := by intro k h1 h2; rw [beq_eq_false_iff_ne]; omega
  simp [this]

theorem India.is_holi_outside (y : ℤ) (m d : ℕ) (hy : y < 2000 ∨ 2030 < y) : India.is_holi y d m = false := by
  unfold India.is_holi
  have : ∀ k : ℤ, 2000 ≤ k → k ≤ 2030 → (y == k) = false := by intro k h1 h2; rw [beq_eq_false_iff_ne]; omega
  simp [this]

theorem India.is_eid_ul_fitar_outside (y : ℤ) (m d : ℕ) (hy : y < 2000 ∨ 2030 < y) : India.is_eid_ul_fitar y d m = false := by
  unfold India.is_eid_ul_fitar
  have : ∀ k : ℤ, 2000 ≤ k → k ≤ 2030 → (y == k) = false := by intro k h1 h2; rw [beq_eq_false_iff_ne]; omega
  simp [this]

theorem India.is_rama_navami_outside (y : ℤ) (m d : ℕ) (hy : y < 2000 ∨ 2030 < y) : India.is_rama_navami y d m = false := by
  unfold India.is_rama_navami
  have : ∀ k : ℤ, 2000 ≤ k → k ≤ 2030 → (y == k) = false := by intro k h1 h2; rw [beq_eq_false_iff_ne]; omega
  simp [this]

theorem India.is_mahavir_jayanti_outside (y : ℤ) (m d : ℕ) (hy : y < 2000 ∨ 2030 < y) : India.is_mahavir_jayanti y d m = false := by
  unfold India.is_mahavir_jayanti
  have : ∀ k : ℤ, 2000 ≤ k → k ≤ 2030 → (y == k) = false := by intro k h1 h2; rw [beq_eq_false_iff_ne]; omega
  simp [this]

theorem India.is_bakri_id_outside (y : ℤ) (m d : ℕ) (hy : y < 2000 ∨ 2030 < y) : India.is_bakri_id y d m = false := by
  unfold India.is_bakri_id
  have : ∀ k : ℤ, 2000 ≤ k → k ≤ 2030 → (y == k) = false := by intro k h1 h2; rw [beq_eq_false_iff_ne]; omega
  simp [this]

theorem India.is_muharram_outside (y : ℤ) (m d : ℕ) (hy : y < 2000 ∨ 2030 < y) : India.is_muharram y d m = false := by
  unfold India.is_muharram
  have : ∀ k : ℤ, 2000 ≤ k → k ≤ 2030 → (y == k) = false := by intro k h1 h2; rw [beq_eq_false_iff_ne]; omega
  simp [this]

theorem India.is_dussehra_outside (y : ℤ) (m d : ℕ) (hy : y < 2000 ∨ 2030 < y) : India.is_dussehra y d m = false := by
  unfold India.is_dussehra
  have : ∀ k : ℤ, 2000 ≤ k → k ≤ 2030 → (y == k) = false := by intro k h1 h2; rw [beq_eq_false_iff_ne]; omega
  simp [this]

theorem India.is_diwali_outside (y : ℤ) (m d : ℕ) (hy : y < 2000 ∨ 2030 < y) : India.is_diwali y d m = false := by
  unfold India.is_diwali
  have : ∀ k : ℤ, 2000 ≤ k → k ≤ 2030 → (y == k) = false := by intro k h1 h2; rw [beq_eq_false_iff_ne]; omega
  simp [this]

theorem India.is_gurunanak_jayanti_outside (y : ℤ) (m d : ℕ) (hy : y < 2000 ∨ 2030 < y) : India.is_gurunanak_jayanti y d m = false := by
  unfold India.is_gurunanak_jayanti
  have : ∀ k : ℤ, 2000 ≤ k → k ≤ 2030 → (y == k) = false := by intro k h1 h2; rw [beq_eq_false_iff_ne]; omega
  simp [this]

theorem india_sub (y : ℤ) (m d wd yd em : ℕ) (hm : 1 ≤ m) (hm' : m ≤ 12) (_hd : 1 ≤ d) (_hd' : d ≤ 31)
    (_hw : wd < 7) : (∃ r ∈ india, r.eval y m d wd yd em) → India.isHoliday y m d wd yd em = true := by
  unfold India.isHoliday india
  generalize India.is_mahashivratri y d m = t0
  generalize India.is_holi y d m = t1
  generalize India.is_eid_ul_fitar y d m = t2
  generalize India.is_rama_navami y d m = t3
  generalize India.is_mahavir_jayanti y d m = t4
  generalize India.is_bakri_id y d m = t5
  generalize India.is_muharram y d m = t6
  generalize India.is_dussehra y d m = t7
  generalize India.is_diwali y d m = t8
  generalize India.is_gurunanak_jayanti y d m = t9
  country

theorem india_iff_outside (y : ℤ) (m d wd yd em : ℕ) (hm : 1 ≤ m) (hm' : m ≤ 12) (_hd : 1 ≤ d) (_hd' : d ≤ 31)
    (_hw : wd < 7) (hy : y < 2000 ∨ 2030 < y) :
    India.isHoliday y m d wd yd em = true ↔ ∃ r ∈ india, r.eval y m d wd yd em := by
  unfold India.isHoliday india
  rw [India.is_mahashivratri_outside y m d hy, India.is_holi_outside y m d hy, India.is_eid_ul_fitar_outside y m d hy, India.is_rama_navami_outside y m d hy, India.is_mahavir_jayanti_outside y m d hy, India.is_bakri_id_outside y m d hy, India.is_muharram_outside y m d hy, India.is_dussehra_outside y m d hy, India.is_diwali_outside y m d hy, India.is_gurunanak_jayanti_outside y m d hy]
  country

theorem Indonesia.is_ascension_day_of_prophet_muhammad_outside (y : ℤ) (m d : ℕ) (hy : y < 2000 ∨ 2030 < y) : Indonesia.is_ascension_day_of_prophet_muhammad y d m = false := by
  unfold Indonesia.is_ascension_day_of_prophet_muhammad
  have : ∀ k : ℤ, 2000 ≤ k → k ≤ 2030 → (y == k) = false := by intro k h1 h2; rw [beq_eq_false_iff_ne]; omega
  simp [this]

theorem Indonesia.is_lunar_new_year_outside (y : ℤ) (m d : ℕ) (hy : y < 2000 ∨ 2030 < y) : Indonesia.is_lunar_new_year y d m = false := by
  unfold Indonesia.is_lunar_new_year
  have : ∀ k : ℤ, 2000 ≤ k → k ≤ 2030 → (y == k) = false := by intro k h1 h2; rw [beq_eq_false_iff_ne]; omega
  simp [this]

theorem Indonesia.is_hindu_new_year_outside (y : ℤ) (m d : ℕ) (hy : y < 2000 ∨ 2030 < y) : Indonesia.is_hindu_new_year y d m = false := by
  unfold Indonesia.is_hindu_new_year
  have : ∀ k : ℤ, 2000 ≤ k → k ≤ 2030 → (y == k) = false := by intro k h1 h2; rw [beq_eq_false_iff_ne]; omega
  simp [this]

theorem Indonesia.is_eid_ul_fitar_outside (y : ℤ) (m d : ℕ) (hy : y < 2000 ∨ 2030 < y) : Indonesia.is_eid_ul_fitar y d m = false := by
  unfold Indonesia.is_eid_ul_fitar
  have : ∀ k : ℤ, 2000 ≤ k → k ≤ 2030 → (y == k) = false := by intro k h1 h2; rw [beq_eq_false_iff_ne]; omega
  simp [this]

theorem Indonesia.is_vesak_day_outside (y : ℤ) (m d : ℕ) (hy : y < 2000 ∨ 2030 < y) : Indonesia.is_vesak_day y d m = false := by
  unfold Indonesia.is_vesak_day
  have : ∀ k : ℤ, 2000 ≤ k → k ≤ 2030 → (y == k) = false := by intro k h1 h2; rw [beq_eq_false_iff_ne]; omega
  simp [this]

theorem Indonesia.is_eid_ul_adha_outside (y : ℤ) (m d : ℕ) (hy : y < 2000 ∨ 2030 < y) : Indonesia.is_eid_ul_adha y d m = false := by
  unfold Indonesia.is_eid_ul_adha
  have : ∀ k : ℤ, 2000 ≤ k → k ≤ 2030 → (y == k) = false := by intro k h1 h2; rw [beq_eq_false_iff_ne]; omega
  simp [this]

theorem Indonesia.is_muharram_outside (y : ℤ) (m d : ℕ) (hy : y < 2000 ∨ 2030 < y) : Indonesia.is_muharram y d m = false := by
  unfold Indonesia.is_muharram
  have : ∀ k : ℤ, 2000 ≤ k → k ≤ 2030 → (y == k) = false := by intro k h1 h2; rw [beq_eq_false_iff_ne]; omega
  simp [this]

theorem Indonesia.is_birth_of_prophet_muhammad_outside (y : ℤ) (m d : ℕ) (hy : y < 2000 ∨ 2030 < y) : Indonesia.is_birth_of_prophet_muhammad y d m = false := by
  unfold Indonesia.is_birth_of_prophet_muhammad
  have : ∀ k : ℤ, 2000 ≤ k → k ≤ 2030 → (y == k) = false := by intro k h1 h2; rw [beq_eq_false_iff_ne]; omega
  simp [this]

theorem indonesia_sub (y : ℤ) (m d wd yd em : ℕ) (hm : 1 ≤ m) (hm' : m ≤ 12) (_hd : 1 ≤ d) (_hd' : d ≤ 31)
    (_hw : wd < 7) : (∃ r ∈ indonesia, r.eval y m d wd yd em) → Indonesia.isHoliday y m d wd yd em = true := by
  unfold Indonesia.isHoliday indonesia
  generalize Indonesia.is_ascension_day_of_prophet_muhammad y d m = t0
  generalize Indonesia.is_lunar_new_year y d m = t1
  generalize Indonesia.is_hindu_new_year y d m = t2
  generalize Indonesia.is_eid_ul_fitar y d m = t3
  generalize Indonesia.is_vesak_day y d m = t4
  generalize Indonesia.is_eid_ul_adha y d m = t5
  generalize Indonesia.is_muharram y d m = t6
  generalize Indonesia.is_birth_of_prophet_muhammad y d m = t7
  country

theorem indonesia_iff_outside (y : ℤ) (m d wd yd em : ℕ) (hm : 1 ≤ m) (hm' : m ≤ 12) (_hd : 1 ≤ d) (_hd' : d ≤ 31)
    (_hw : wd < 7) (hy : y < 2000 ∨ 2030 < y) :
    Indonesia.isHoliday y m d wd yd em = true ↔ ∃ r ∈ indonesia, r.eval y m d wd yd em := by
  unfold Indonesia.isHoliday indonesia
  rw [Indonesia.is_ascension_day_of_prophet_muhammad_outside y m d hy, Indonesia.is_lunar_new_year_outside y m d hy, Indonesia.is_hindu_new_year_outside y m d hy, Indonesia.is_eid_ul_fitar_outside y m d hy, Indonesia.is_vesak_day_outside y m d hy, Indonesia.is_eid_ul_adha_outside y m d hy, Indonesia.is_muharram_outside y m d hy, Indonesia.is_birth_of_prophet_muhammad_outside y m d hy]
  country

theorem Singapore.is_chinese_new_year_outside (y : ℤ) (m d : ℕ) (hy : y < 2000 ∨ 2030 < y) : Singapore.is_chinese_new_year y m d = false := by
  unfold Singapore.is_chinese_new_year
  have : ∀ k : ℤ, 2000 ≤ k → k ≤ 2030 → (y == k) = false := by intro k h1 h2; rw [beq_eq_false_iff_ne]; omega
  simp [this]

theorem Singapore.is_hari_raya_haji_outside (y : ℤ) (m d : ℕ) (hy : y < 2000 ∨ 2030 < y) : Singapore.is_hari_raya_haji y m d = false := by
  unfold Singapore.is_hari_raya_haji
  have : ∀ k : ℤ, 2000 ≤ k → k ≤ 2030 → (y == k) = false := by intro k h1 h2; rw [beq_eq_false_iff_ne]; omega
  simp [this]

theorem Singapore.is_hari_raya_puasa_outside (y : ℤ) (m d : ℕ) (hy : y < 2000 ∨ 2030 < y) : Singapore.is_hari_raya_puasa y m d = false := by
  unfold Singapore.is_hari_raya_puasa
  have : ∀ k : ℤ, 2000 ≤ k → k ≤ 2030 → (y == k) = false := by intro k h1 h2; rw [beq_eq_false_iff_ne]; omega
  simp [this]

theorem Singapore.is_vesak_day_outside (y : ℤ) (m d : ℕ) (hy : y < 2000 ∨ 2030 < y) : Singapore.is_vesak_day y m d = false := by
  unfold Singapore.is_vesak_day
  have : ∀ k : ℤ, 2000 ≤ k → k ≤ 2030 → (y == k) = false := by intro k h1 h2; rw [beq_eq_false_iff_ne]; omega
  simp [this]

theorem Singapore.is_deepavali_outside (y : ℤ) (m d : ℕ) (hy : y < 2000 ∨ 2030 < y) : Singapore.is_deepavali y m d = false := by
  unfold Singapore.is_deepavali
  have : ∀ k : ℤ, 2000 ≤ k → k ≤ 2030 → (y == k) = false := by intro k h1 h2; rw [beq_eq_false_iff_ne]; omega
  simp [this]

theorem singapore_sub (y : ℤ) (m d wd yd em : ℕ) (hm : 1 ≤ m) (hm' : m ≤ 12) (_hd : 1 ≤ d) (_hd' : d ≤ 31)
    (_hw : wd < 7) : (∃ r ∈ singapore, r.eval y m d wd yd em) → Singapore.isHoliday y m d wd yd em = true := by
  unfold Singapore.isHoliday singapore
  generalize Singapore.is_chinese_new_year y m d = t0
  generalize Singapore.is_hari_raya_haji y m d = t1
  generalize Singapore.is_hari_raya_puasa y m d = t2
  generalize Singapore.is_vesak_day y m d = t3
  generalize Singapore.is_deepavali y m d = t4
  country

end Verif.Time
