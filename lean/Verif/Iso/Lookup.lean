import Verif.Iso.CountryTable

namespace Verif.Iso

/-- The constant an identifier of the `iso_3166!` invocation stands for: the macro (iso_3166.rs 308-319) makes one
`pub const` per entry. -/
def constant (ident : String) : Option Country :=
  (countryTable.find? fun e => decide (e.1 = ident)).map (·.2)

/-- `ISO_3166::from_alpha_2` (iso_3166.rs 51-304): the first arm whose literal is the argument, and `None` when no arm
matches (line 302). -/
def fromAlpha2 (s : String) : Option Country :=
  (alpha2Arms.find? fun a => decide (a.1 = s)).bind fun a => constant a.2

end Verif.Iso
