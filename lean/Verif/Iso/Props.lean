import Verif.Iso.Lookup
import Verif.Iso.MicIndex
import Mathlib.Data.List.Nodup

/-!
# Properties of the ISO country and market identifier codes (C79)
-/

namespace Verif.Iso

open OperatingOrSegment MicStatus

/-! ## Table checks, on the spelt-out tables -/

theorem country_checks : (countryChars.all fun e =>
    decide (e.2.alpha2.length = 2) && e.2.alpha2.all (fun c => decide ('A'.val ≤ c.val) && decide (c.val ≤ 'Z'.val)) &&
    decide (e.2.alpha3.length = 3) && e.2.alpha3.all (fun c => decide ('A'.val ≤ c.val) && decide (c.val ≤ 'Z'.val)) &&
    decide (e.2.numeric.length = 3) &&
      e.2.numeric.all (fun c => decide ('0'.val ≤ c.val) && decide (c.val ≤ '9'.val))) = true := by
  decide +kernel

theorem alpha2_nodup : (countryChars.map fun e => e.2.alpha2).Nodup := by decide +kernel
theorem alpha3_nodup : (countryChars.map fun e => e.2.alpha3).Nodup := by decide +kernel
theorem numeric_nodup : (countryChars.map fun e => e.2.numeric).Nodup := by decide +kernel

/-- `fromAlpha2` on spelt-out strings. -/
def lookupChars (s : List Char) : Option CountryChars :=
  (alpha2ArmChars.find? fun a => decide (a.1 = s)).bind fun a =>
    (countryChars.find? fun e => decide (e.1 = a.2)).map (·.2)

theorem roundtrip_check : (countryChars.all fun e => decide (lookupChars e.2.alpha2 = some e.2)) = true := by
  decide +kernel

theorem arms_check : (alpha2ArmChars.all fun a =>
    (lookupChars a.1).any fun c => decide (c.alpha2 = a.1)) = true := by
  decide +kernel

theorem ofList_inj {a b : List Char} : String.ofList a = String.ofList b ↔ a = b :=
  ⟨fun h => by simpa only [String.toList_ofList] using congrArg String.toList h, fun h => by rw [h]⟩

theorem fromAlpha2_ofList (s : List Char) :
    fromAlpha2 (String.ofList s) = (lookupChars s).map fun c => (CountryChars.entry ([], c)).2 := by
  simp only [fromAlpha2, constant, lookupChars, alpha2Arms_eq, countryTable_eq, List.find?_map, Function.comp_def,
    CountryChars.entry, ofList_inj]
  cases alpha2ArmChars.find? fun a => decide (a.1 = s) with
  | none => rfl
  | some a =>
    simp only [Option.map_some, Option.bind_some, ofList_inj, Option.map_map, Function.comp_def]
    rfl

theorem lookupChars_mem {s : List Char} {c : CountryChars} (h : lookupChars s = some c) :
    (∃ i, (i, c) ∈ countryChars) ∧ c.alpha2 = s := by
  have h0 := h
  unfold lookupChars at h
  cases hf : alpha2ArmChars.find? fun a => decide (a.1 = s) with
  | none => simp [hf] at h
  | some a =>
    have h1 := List.mem_of_find?_eq_some hf
    have h2 : a.1 = s := by simpa using List.find?_some hf
    have h3 := List.all_eq_true.1 arms_check a h1
    rw [h2, h0] at h3
    refine ⟨?_, by simpa using h3⟩
    rw [hf, Option.bind_some, Option.map_eq_some_iff] at h
    obtain ⟨e, he, rfl⟩ := h
    exact ⟨e.1, List.mem_of_find?_eq_some he⟩

/-! ## C79 -/

/-- C79: for every string, `from_alpha_2` returns a country exactly when that country is one of the library's constants
and the string is its two-letter code. No code is missing from the lookup, none leads to another country, and no other
string (a lower-case code, a three-letter code, the empty string) leads anywhere. -/
theorem C79_from_alpha_2 (s : String) (c : Country) :
    fromAlpha2 s = some c ↔ (∃ ident, (ident, c) ∈ countryTable) ∧ c.alpha2 = s := by
  obtain ⟨l, rfl⟩ : ∃ l, s = String.ofList l := ⟨s.toList, String.ofList_toList.symm⟩
  rw [fromAlpha2_ofList, countryTable_eq]
  constructor
  · intro h
    rw [Option.map_eq_some_iff] at h
    obtain ⟨d, hd, rfl⟩ := h
    obtain ⟨⟨i, hi⟩, rfl⟩ := lookupChars_mem hd
    exact ⟨⟨String.ofList i, List.mem_map.2 ⟨_, hi, rfl⟩⟩, rfl⟩
  · rintro ⟨⟨ident, h⟩, hs⟩
    obtain ⟨⟨i, d⟩, hd, he⟩ := List.mem_map.1 h
    simp only [CountryChars.entry, Prod.mk.injEq] at he
    obtain ⟨rfl, rfl⟩ := he
    have := List.all_eq_true.1 roundtrip_check _ hd
    simp only [decide_eq_true_eq] at this
    rw [← ofList_inj.1 hs, this]
    rfl

example : fromAlpha2 "FR" = some ⟨"FR", "FRA", "250"⟩ ∧ fromAlpha2 "fr" = none ∧ fromAlpha2 "FRA" = none := by
  simp only [show "FR" = String.ofList ['F', 'R'] from rfl, show "fr" = String.ofList ['f', 'r'] from rfl,
    show "FRA" = String.ofList ['F', 'R', 'A'] from rfl, fromAlpha2_ofList]
  decide +kernel

/-- C79: the lookup answers `None` exactly for the strings that are no country's two-letter code. -/
theorem C79_from_alpha_2_none (s : String) :
    fromAlpha2 s = none ↔ ∀ ident c, (ident, c) ∈ countryTable → c.alpha2 ≠ s := by
  rw [Option.eq_none_iff_forall_not_mem]
  constructor
  · intro h ident c hc hs
    exact h c ((C79_from_alpha_2 s c).2 ⟨⟨ident, hc⟩, hs⟩)
  · intro h c hc
    obtain ⟨⟨ident, hi⟩, hs⟩ := (C79_from_alpha_2 s c).1 hc
    exact h ident c hi hs

example : fromAlpha2 "ZZ" = none ∧ fromAlpha2 "" = none := by
  simp only [show "ZZ" = String.ofList ['Z', 'Z'] from rfl, show "" = String.ofList [] from rfl, fromAlpha2_ofList]
  decide +kernel

/-- C79: the codes of a country have the ISO 3166 shape: two capital letters, three capital letters, three digits. -/
theorem C79_country_shape (ident : String) (c : Country) (h : (ident, c) ∈ countryTable) :
    (c.alpha2.toList.length = 2 ∧ ∀ x ∈ c.alpha2.toList, 'A'.val ≤ x.val ∧ x.val ≤ 'Z'.val) ∧
    (c.alpha3.toList.length = 3 ∧ ∀ x ∈ c.alpha3.toList, 'A'.val ≤ x.val ∧ x.val ≤ 'Z'.val) ∧
    (c.numeric.toList.length = 3 ∧ ∀ x ∈ c.numeric.toList, '0'.val ≤ x.val ∧ x.val ≤ '9'.val) := by
  rw [countryTable_eq] at h
  obtain ⟨⟨i, d⟩, hd, he⟩ := List.mem_map.1 h
  simp only [CountryChars.entry, Prod.mk.injEq] at he
  obtain ⟨rfl, rfl⟩ := he
  have := List.all_eq_true.1 country_checks _ hd
  simpa only [String.toList_ofList, Bool.and_eq_true, decide_eq_true_eq, List.all_eq_true, and_assoc] using this

/-- C79: each of the three codes identifies a country: two constants that share any one of them are the same entry. -/
theorem C79_country_distinct (e f : String × Country) (he : e ∈ countryTable) (hf : f ∈ countryTable) :
    (e.2.alpha2 = f.2.alpha2 → e = f) ∧ (e.2.alpha3 = f.2.alpha3 → e = f) ∧ (e.2.numeric = f.2.numeric → e = f) := by
  rw [countryTable_eq] at he hf
  obtain ⟨d, hd, rfl⟩ := List.mem_map.1 he
  obtain ⟨g, hg, rfl⟩ := List.mem_map.1 hf
  simp only [CountryChars.entry, ofList_inj]
  refine ⟨fun h => ?_, fun h => ?_, fun h => ?_⟩
  · rw [List.inj_on_of_nodup_map alpha2_nodup hd hg h]
  · rw [List.inj_on_of_nodup_map alpha3_nodup hd hg h]
  · rw [List.inj_on_of_nodup_map numeric_nodup hd hg h]

example : ("FRANCE", (⟨"FR", "FRA", "250"⟩ : Country)) ∈ countryTable := by
  rw [countryTable_eq]
  exact List.mem_map.2 ⟨(['F', 'R', 'A', 'N', 'C', 'E'], ⟨['F', 'R'], ['F', 'R', 'A'], ['2', '5', '0']⟩),
    by decide +kernel, rfl⟩

/-! ### Market identifier codes -/

theorem self_check : (micChars.all fun e => decide (e.1.length = 4) &&
    (decide (e.2.oprtSgmt = Operating) == decide (e.2.operatingMic = e.1))) = true := by
  decide +kernel

/-- The arms of `from_alpha_2`, filed by their literals. -/
def armIndex : Tree (List Char × List Char) := Tree.build (fun a => path a.1) Tree.nil alpha2ArmChars

theorem country_code_check : (micChars.all fun e => decide (e.2.countryCode = ['Z', 'Z']) ||
    ((Tree.lookup (path e.2.countryCode) armIndex).any fun a => decide (a.1 = e.2.countryCode))) = true := by
  decide +kernel

/-- An entry of the market table, spelt out. -/
theorem mem_micTable {mic : String} {m : Mic} (h : (mic, m) ∈ micTable) :
    ∃ i d, (i, d) ∈ micChars ∧ mic = String.ofList i ∧ m = (MicChars.entry ([], d)).2 := by
  rw [micTable_eq] at h
  obtain ⟨⟨i, d⟩, hd, he⟩ := List.mem_map.1 h
  simp only [MicChars.entry, Prod.mk.injEq] at he
  exact ⟨i, d, hd, he.1.symm, he.2.symm⟩

theorem micTable_mem {i : List Char} {d : MicChars} (h : (i, d) ∈ micChars) :
    (String.ofList i, (MicChars.entry ([], d)).2) ∈ micTable := by
  rw [micTable_eq]
  exact List.mem_map.2 ⟨_, h, rfl⟩

/-- C79: a market identifier has four characters, and an entry is flagged as operating exactly when its operating code
is its own identifier. -/
theorem C79_operating_flag (mic : String) (m : Mic) (h : (mic, m) ∈ micTable) :
    mic.toList.length = 4 ∧ (m.oprtSgmt = Operating ↔ m.operatingMic = mic) := by
  obtain ⟨i, d, hd, rfl, rfl⟩ := mem_micTable h
  have h1 := List.all_eq_true.1 self_check _ hd
  simp only [Bool.and_eq_true, decide_eq_true_eq, beq_iff_eq] at h1
  simp only [MicChars.entry, String.toList_ofList, ofList_inj]
  exact ⟨h1.1, by simpa using h1.2⟩

example := C79_operating_flag "PURE" ⟨"XCNQ", "CA", Segment, Active⟩
  (micTable_mem (i := ['P', 'U', 'R', 'E']) (d := ⟨['X', 'C', 'N', 'Q'], ['C', 'A'], Segment, Active⟩) (by decide +kernel))

/-- C79: an identifier names one entry. -/
theorem C79_mic_distinct (mic : String) (m n : Mic) (hm : (mic, m) ∈ micTable) (hn : (mic, n) ∈ micTable) : m = n := by
  obtain ⟨i, d, hd, rfl, rfl⟩ := mem_micTable hm
  obtain ⟨j, g, hg, hij, rfl⟩ := mem_micTable hn
  obtain rfl := ofList_inj.1 hij
  have h1 := List.all_eq_true.1 index_check _ hd
  rw [Bool.and_eq_true, List.all_eq_true] at h1
  have := h1.1 (i, g) (mem_micIndex_self (i, g) hg)
  simp only [decide_true, Bool.not_true, Bool.false_or, decide_eq_true_eq] at this
  rw [this]

/-- C79: the operating code of every entry is the identifier of an entry of the library; for an entry that has not
expired, that of an operating market that has not expired either. -/
theorem C79_operating_exists (mic : String) (m : Mic) (h : (mic, m) ∈ micTable) :
    ∃ o, (m.operatingMic, o) ∈ micTable ∧ (m.status ≠ Expired → o.oprtSgmt = Operating ∧ o.status ≠ Expired) := by
  obtain ⟨i, d, hd, rfl, rfl⟩ := mem_micTable h
  have h1 := List.all_eq_true.1 index_check _ hd
  rw [Bool.and_eq_true, List.any_eq_true] at h1
  obtain ⟨⟨rn, rm⟩, hr, hp⟩ := h1.2
  have hr' := mem_micIndex _ _ hr
  simp only [Bool.and_eq_true, Bool.or_eq_true, decide_eq_true_eq, Bool.not_eq_true', decide_eq_false_iff_not] at hp
  obtain ⟨rfl, hp⟩ := hp
  exact ⟨_, micTable_mem hr', fun hs => hp.resolve_left hs⟩

example := C79_operating_exists "PURE" ⟨"XCNQ", "CA", Segment, Active⟩
  (micTable_mem (i := ['P', 'U', 'R', 'E']) (d := ⟨['X', 'C', 'N', 'Q'], ['C', 'A'], Segment, Active⟩) (by decide +kernel))

/-- C79: the exception for expired entries is needed: a segment that has expired can point at another segment. -/
theorem C79_expired_segment :
    ∃ mic m o, (mic, m) ∈ micTable ∧ m.status = Expired ∧ (m.operatingMic, o) ∈ micTable ∧ o.oprtSgmt = Segment := by
  refine ⟨"XEAS", ⟨"XEQT", "BE", Segment, Expired⟩, ⟨"XBER", "DE", Segment, Active⟩, ?_, rfl, ?_, rfl⟩
  · exact micTable_mem (i := ['X', 'E', 'A', 'S']) (d := ⟨['X', 'E', 'Q', 'T'], ['B', 'E'], Segment, Expired⟩)
      (by decide +kernel)
  · exact micTable_mem (i := ['X', 'E', 'Q', 'T']) (d := ⟨['X', 'B', 'E', 'R'], ['D', 'E'], Segment, Active⟩)
      (by decide +kernel)

/-- C79: the country of every market is one `from_alpha_2` knows, except for the three markets filed under ISO's
user-assigned code ZZ, which it does not know. -/
theorem C79_market_country (mic : String) (m : Mic) (h : (mic, m) ∈ micTable) :
    (∃ c, fromAlpha2 m.countryCode = some c ∧ c.alpha2 = m.countryCode) ∨
      (m.countryCode = "ZZ" ∧ fromAlpha2 m.countryCode = none) := by
  obtain ⟨i, d, hd, rfl, rfl⟩ := mem_micTable h
  have h1 := List.all_eq_true.1 country_code_check _ hd
  simp only [Bool.or_eq_true, decide_eq_true_eq, List.any_eq_true] at h1
  rcases h1 with h1 | ⟨a, ha, ha2⟩
  · right
    refine ⟨by simp only [MicChars.entry, h1], ?_⟩
    simp only [MicChars.entry, h1]
    rw [fromAlpha2_ofList]
    decide +kernel
  · left
    have ha : a ∈ alpha2ArmChars := by
      rcases (Tree.mem_lookup_build _ _ _ _ _).1 ha with h | h
      · exact h.1
      · simp [Tree.lookup] at h
    have h3 := List.all_eq_true.1 arms_check a ha
    simp only [MicChars.entry, ← ha2, fromAlpha2_ofList]
    cases hl : lookupChars a.1 with
    | none => simp [hl] at h3
    | some c =>
      refine ⟨_, rfl, ?_⟩
      simp only [hl, Option.any_some, decide_eq_true_eq] at h3
      rw [← h3]
      rfl

example : ("PURE", (⟨"XCNQ", "CA", Segment, Active⟩ : Mic)) ∈ micTable ∧
    ("XCNQ", (⟨"XCNQ", "CA", Operating, Active⟩ : Mic)) ∈ micTable :=
  ⟨micTable_mem (i := ['P', 'U', 'R', 'E']) (d := ⟨['X', 'C', 'N', 'Q'], ['C', 'A'], Segment, Active⟩)
      (by decide +kernel),
    micTable_mem (i := ['X', 'C', 'N', 'Q']) (d := ⟨['X', 'C', 'N', 'Q'], ['C', 'A'], Operating, Active⟩)
      (by decide +kernel)⟩

end Verif.Iso
