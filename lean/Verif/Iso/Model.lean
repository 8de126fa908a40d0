/-!
# ISO country and market identifier codes (crates/RustQuant_iso/src/iso_3166.rs and iso_10383.rs)

The types of the two modules. The tables are in CountryTable.lean and MicTable.lean, generated from the source.
-/

namespace Verif.Iso

/-- `struct ISO_3166` (iso_3166.rs 18-27) and its accessors (31-46), which return the fields. -/
structure Country where
  alpha2 : String
  alpha3 : String
  numeric : String
deriving DecidableEq, Repr

/-- `enum OperatingOrSegment` (iso_10383.rs 40-46). -/
inductive OperatingOrSegment
  | Operating
  | Segment
deriving DecidableEq, Repr

/-- `enum MICStatus` (iso_10383.rs 51-60). -/
inductive MicStatus
  | Active
  | Updated
  | Expired
deriving DecidableEq, Repr

/-- `struct ISO_10383` (iso_10383.rs 18-36). Simplification: the free-text fields `city` and `description` are left
out. -/
structure Mic where
  operatingMic : String
  countryCode : String
  oprtSgmt : OperatingOrSegment
  status : MicStatus
deriving DecidableEq, Repr

/-! Entries with their strings spelt out as lists of characters: a proof device, since the kernel compares such lists
quickly. The tables' theorems `countryTable_eq`, `alpha2Arms_eq` and `micTable_eq` say that they are the same entries. -/

/-- A country with its codes spelt out. Not in the .rs files: used to check the tables. -/
structure CountryChars where
  alpha2 : List Char
  alpha3 : List Char
  numeric : List Char
deriving DecidableEq

/-- The entry spelt out by an identifier and a country. Not in the .rs files: used to check the tables. -/
def CountryChars.entry (e : List Char × CountryChars) : String × Country :=
  (String.ofList e.1, ⟨String.ofList e.2.alpha2, String.ofList e.2.alpha3, String.ofList e.2.numeric⟩)

/-- A market with its codes spelt out. Not in the .rs files: used to check the tables. -/
structure MicChars where
  operatingMic : List Char
  countryCode : List Char
  oprtSgmt : OperatingOrSegment
  status : MicStatus
deriving DecidableEq

/-- The entry spelt out by an identifier and a market. Not in the .rs files: used to check the tables. -/
def MicChars.entry (e : List Char × MicChars) : String × Mic :=
  (String.ofList e.1, ⟨String.ofList e.2.operatingMic, String.ofList e.2.countryCode, e.2.oprtSgmt, e.2.status⟩)

end Verif.Iso
