import Verif.Iso.Model

/-!
# The market identifier constants of crates/RustQuant_iso/src/iso_10383.rs lines 96-2710

Generated by tools/gen_iso.py: one entry per line of the Rust table, in order, cut into lists of a hundred.
-/

namespace Verif.Iso

open OperatingOrSegment MicStatus

/-- iso_10383.rs 96-195. -/
def mics0 : List (String × Mic) := [
  ("DRSP", ⟨"DRSP", "GB", Operating, Active⟩),
  ("XCNQ", ⟨"XCNQ", "CA", Operating, Active⟩),
  ("PURE", ⟨"XCNQ", "CA", Segment, Active⟩),
  ("ZODM", ⟨"ZODM", "GB", Operating, Active⟩),
  ("FNFX", ⟨"BGCF", "US", Segment, Active⟩),
  ("NORX", ⟨"NORX", "NO", Operating, Active⟩),
  ("POSE", ⟨"POSE", "ES", Operating, Active⟩),
  ("PUND", ⟨"PUND", "US", Operating, Active⟩),
  ("UCBG", ⟨"UCBG", "BG", Operating, Active⟩),
  ("NZFX", ⟨"XASX", "AU", Segment, Active⟩),
  ("XOCH", ⟨"XOCH", "US", Operating, Expired⟩),
  ("BBLX", ⟨"BBLX", "SG", Operating, Active⟩),
  ("BACR", ⟨"BAIP", "HK", Segment, Active⟩),
  ("SPBE", ⟨"SPBE", "RU", Operating, Active⟩),
  ("OTCM", ⟨"OTCM", "US", Operating, Active⟩),
  ("STUF", ⟨"XSTU", "DE", Segment, Active⟩),
  ("XSTP", ⟨"XSTU", "DE", Segment, Active⟩),
  ("STUE", ⟨"XSTU", "DE", Segment, Active⟩),
  ("FREX", ⟨"FREX", "US", Operating, Active⟩),
  ("HCER", ⟨"HMTF", "IT", Segment, Active⟩),
  ("IDXM", ⟨"IDXM", "US", Operating, Active⟩),
  ("MBCP", ⟨"MBCP", "PT", Operating, Active⟩),
  ("GMBG", ⟨"MBUL", "BG", Segment, Active⟩),
  ("OCEA", ⟨"OCEA", "US", Operating, Active⟩),
  ("OSDS", ⟨"OSDS", "HK", Operating, Active⟩),
  ("OSSG", ⟨"OSSG", "SG", Operating, Active⟩),
  ("RR4G", ⟨"RR4G", "NL", Operating, Active⟩),
  ("TRUK", ⟨"TRUK", "GB", Operating, Active⟩),
  ("UGEN", ⟨"UGEN", "GB", Operating, Active⟩),
  ("XGLO", ⟨"XWAR", "PL", Segment, Active⟩),
  ("WIND", ⟨"XWAR", "PL", Segment, Active⟩),
  ("CNOD", ⟨"CNOD", "SG", Operating, Active⟩),
  ("BGLU", ⟨"BGLU", "LU", Operating, Active⟩),
  ("FNIX", ⟨"GFAM", "US", Segment, Active⟩),
  ("LATG", ⟨"GFAM", "US", Segment, Active⟩),
  ("GFAM", ⟨"GFAM", "US", Operating, Active⟩),
  ("TMCY", ⟨"TMCY", "CY", Operating, Active⟩),
  ("UBEC", ⟨"UBEC", "US", Operating, Active⟩),
  ("ENSL", ⟨"ESLO", "FR", Segment, Active⟩),
  ("ESLO", ⟨"ESLO", "FR", Operating, Active⟩),
  ("IOTF", ⟨"IOTF", "GB", Operating, Active⟩),
  ("SEBA", ⟨"SEBA", "DE", Operating, Active⟩),
  ("UBIM", ⟨"UBIM", "IT", Operating, Expired⟩),
  ("XUBS", ⟨"XUBS", "GB", Operating, Expired⟩),
  ("XUMP", ⟨"XUBS", "GB", Segment, Expired⟩),
  ("AMLG", ⟨"AMLG", "US", Operating, Expired⟩),
  ("BRED", ⟨"BRED", "FR", Operating, Active⟩),
  ("DBMO", ⟨"DBAG", "DE", Segment, Active⟩),
  ("DBLN", ⟨"DBAG", "DE", Segment, Active⟩),
  ("DBIX", ⟨"DBIX", "GB", Operating, Expired⟩),
  ("RUSX", ⟨"RUSX", "RU", Operating, Active⟩),
  ("UNGB", ⟨"UNGB", "GB", Operating, Active⟩),
  ("XLQC", ⟨"XLQC", "AU", Operating, Active⟩),
  ("XMOS", ⟨"XMOS", "RU", Operating, Active⟩),
  ("ABXX", ⟨"VMEX", "AE", Segment, Active⟩),
  ("CFIC", ⟨"CFIC", "GB", Operating, Active⟩),
  ("HBFR", ⟨"HBFR", "FR", Operating, Active⟩),
  ("KLSH", ⟨"KLSH", "US", Operating, Active⟩),
  ("MUDX", ⟨"MUDX", "JP", Operating, Active⟩),
  ("TRAX", ⟨"TRAX", "GB", Operating, Active⟩),
  ("TRNL", ⟨"TRNL", "NL", Operating, Active⟩),
  ("XPET", ⟨"XPET", "RU", Operating, Active⟩),
  ("LEVL", ⟨"LEVL", "US", Operating, Active⟩),
  ("EBXV", ⟨"LEVL", "US", Segment, Active⟩),
  ("FXRS", ⟨"RMTF", "IE", Segment, Active⟩),
  ("FXPS", ⟨"THRE", "US", Segment, Active⟩),
  ("XBIS", ⟨"XBAB", "BB", Segment, Active⟩),
  ("STRM", ⟨"STRM", "US", Operating, Active⟩),
  ("ABNC", ⟨"ABNC", "NL", Operating, Active⟩),
  ("BNPC", ⟨"BNPC", "US", Operating, Active⟩),
  ("PBGR", ⟨"PBGR", "GR", Operating, Active⟩),
  ("SIDX", ⟨"SIDX", "IE", Operating, Active⟩),
  ("SIFX", ⟨"SIFX", "GB", Operating, Active⟩),
  ("TEUR", ⟨"TEUR", "ES", Operating, Active⟩),
  ("TPEE", ⟨"TPIC", "FR", Segment, Active⟩),
  ("AILT", ⟨"AILT", "IE", Operating, Active⟩),
  ("ARAX", ⟨"ARAX", "GB", Operating, Active⟩),
  ("CGXS", ⟨"CGXS", "US", Operating, Active⟩),
  ("EQOC", ⟨"EQOS", "SG", Segment, Active⟩),
  ("EQOD", ⟨"EQOS", "SG", Segment, Active⟩),
  ("AQED", ⟨"AQEU", "FR", Segment, Active⟩),
  ("EIXE", ⟨"AQXE", "GB", Segment, Active⟩),
  ("HPCS", ⟨"HPCX", "FR", Segment, Active⟩),
  ("MIDC", ⟨"MIDC", "AE", Operating, Active⟩),
  ("RABL", ⟨"RABL", "GB", Operating, Active⟩),
  ("RMMS", ⟨"RMMS", "ZA", Operating, Active⟩),
  ("RMMX", ⟨"RMMS", "ZA", Segment, Active⟩),
  ("NOCO", ⟨"XSTO", "SE", Segment, Expired⟩),
  ("MABX", ⟨"BMEX", "ES", Segment, Active⟩),
  ("CECA", ⟨"CECA", "ES", Operating, Active⟩),
  ("DBDC", ⟨"DBIX", "GB", Segment, Expired⟩),
  ("DBSE", ⟨"DBIX", "GB", Segment, Expired⟩),
  ("DBCX", ⟨"DBIX", "GB", Segment, Expired⟩),
  ("DBCR", ⟨"DBIX", "GB", Segment, Expired⟩),
  ("HPCO", ⟨"HPCX", "FR", Segment, Active⟩),
  ("ICOR", ⟨"ICOT", "FR", Segment, Active⟩),
  ("JNSI", ⟨"JNSI", "NL", Operating, Active⟩),
  ("TPER", ⟨"TPEU", "FR", Segment, Active⟩),
  ("XSDX", ⟨"XSWX", "CH", Segment, Active⟩),
  ("XSWX", ⟨"XSWX", "CH", Operating, Active⟩)]

/-- The same entries with their strings spelt out. -/
def micChars0 : List (List Char × MicChars) := [
  (['D','R','S','P'], ⟨['D','R','S','P'], ['G','B'], Operating, Active⟩),
  (['X','C','N','Q'], ⟨['X','C','N','Q'], ['C','A'], Operating, Active⟩),
  (['P','U','R','E'], ⟨['X','C','N','Q'], ['C','A'], Segment, Active⟩),
  (['Z','O','D','M'], ⟨['Z','O','D','M'], ['G','B'], Operating, Active⟩),
  (['F','N','F','X'], ⟨['B','G','C','F'], ['U','S'], Segment, Active⟩),
  (['N','O','R','X'], ⟨['N','O','R','X'], ['N','O'], Operating, Active⟩),
  (['P','O','S','E'], ⟨['P','O','S','E'], ['E','S'], Operating, Active⟩),
  (['P','U','N','D'], ⟨['P','U','N','D'], ['U','S'], Operating, Active⟩),
  (['U','C','B','G'], ⟨['U','C','B','G'], ['B','G'], Operating, Active⟩),
  (['N','Z','F','X'], ⟨['X','A','S','X'], ['A','U'], Segment, Active⟩),
  (['X','O','C','H'], ⟨['X','O','C','H'], ['U','S'], Operating, Expired⟩),
  (['B','B','L','X'], ⟨['B','B','L','X'], ['S','G'], Operating, Active⟩),
  (['B','A','C','R'], ⟨['B','A','I','P'], ['H','K'], Segment, Active⟩),
  (['S','P','B','E'], ⟨['S','P','B','E'], ['R','U'], Operating, Active⟩),
  (['O','T','C','M'], ⟨['O','T','C','M'], ['U','S'], Operating, Active⟩),
  (['S','T','U','F'], ⟨['X','S','T','U'], ['D','E'], Segment, Active⟩),
  (['X','S','T','P'], ⟨['X','S','T','U'], ['D','E'], Segment, Active⟩),
  (['S','T','U','E'], ⟨['X','S','T','U'], ['D','E'], Segment, Active⟩),
  (['F','R','E','X'], ⟨['F','R','E','X'], ['U','S'], Operating, Active⟩),
  (['H','C','E','R'], ⟨['H','M','T','F'], ['I','T'], Segment, Active⟩),
  (['I','D','X','M'], ⟨['I','D','X','M'], ['U','S'], Operating, Active⟩),
  (['M','B','C','P'], ⟨['M','B','C','P'], ['P','T'], Operating, Active⟩),
  (['G','M','B','G'], ⟨['M','B','U','L'], ['B','G'], Segment, Active⟩),
  (['O','C','E','A'], ⟨['O','C','E','A'], ['U','S'], Operating, Active⟩),
  (['O','S','D','S'], ⟨['O','S','D','S'], ['H','K'], Operating, Active⟩),
  (['O','S','S','G'], ⟨['O','S','S','G'], ['S','G'], Operating, Active⟩),
  (['R','R','4','G'], ⟨['R','R','4','G'], ['N','L'], Operating, Active⟩),
  (['T','R','U','K'], ⟨['T','R','U','K'], ['G','B'], Operating, Active⟩),
  (['U','G','E','N'], ⟨['U','G','E','N'], ['G','B'], Operating, Active⟩),
  (['X','G','L','O'], ⟨['X','W','A','R'], ['P','L'], Segment, Active⟩),
  (['W','I','N','D'], ⟨['X','W','A','R'], ['P','L'], Segment, Active⟩),
  (['C','N','O','D'], ⟨['C','N','O','D'], ['S','G'], Operating, Active⟩),
  (['B','G','L','U'], ⟨['B','G','L','U'], ['L','U'], Operating, Active⟩),
  (['F','N','I','X'], ⟨['G','F','A','M'], ['U','S'], Segment, Active⟩),
  (['L','A','T','G'], ⟨['G','F','A','M'], ['U','S'], Segment, Active⟩),
  (['G','F','A','M'], ⟨['G','F','A','M'], ['U','S'], Operating, Active⟩),
  (['T','M','C','Y'], ⟨['T','M','C','Y'], ['C','Y'], Operating, Active⟩),
  (['U','B','E','C'], ⟨['U','B','E','C'], ['U','S'], Operating, Active⟩),
  (['E','N','S','L'], ⟨['E','S','L','O'], ['F','R'], Segment, Active⟩),
  (['E','S','L','O'], ⟨['E','S','L','O'], ['F','R'], Operating, Active⟩),
  (['I','O','T','F'], ⟨['I','O','T','F'], ['G','B'], Operating, Active⟩),
  (['S','E','B','A'], ⟨['S','E','B','A'], ['D','E'], Operating, Active⟩),
  (['U','B','I','M'], ⟨['U','B','I','M'], ['I','T'], Operating, Expired⟩),
  (['X','U','B','S'], ⟨['X','U','B','S'], ['G','B'], Operating, Expired⟩),
  (['X','U','M','P'], ⟨['X','U','B','S'], ['G','B'], Segment, Expired⟩),
  (['A','M','L','G'], ⟨['A','M','L','G'], ['U','S'], Operating, Expired⟩),
  (['B','R','E','D'], ⟨['B','R','E','D'], ['F','R'], Operating, Active⟩),
  (['D','B','M','O'], ⟨['D','B','A','G'], ['D','E'], Segment, Active⟩),
  (['D','B','L','N'], ⟨['D','B','A','G'], ['D','E'], Segment, Active⟩),
  (['D','B','I','X'], ⟨['D','B','I','X'], ['G','B'], Operating, Expired⟩),
  (['R','U','S','X'], ⟨['R','U','S','X'], ['R','U'], Operating, Active⟩),
  (['U','N','G','B'], ⟨['U','N','G','B'], ['G','B'], Operating, Active⟩),
  (['X','L','Q','C'], ⟨['X','L','Q','C'], ['A','U'], Operating, Active⟩),
  (['X','M','O','S'], ⟨['X','M','O','S'], ['R','U'], Operating, Active⟩),
  (['A','B','X','X'], ⟨['V','M','E','X'], ['A','E'], Segment, Active⟩),
  (['C','F','I','C'], ⟨['C','F','I','C'], ['G','B'], Operating, Active⟩),
  (['H','B','F','R'], ⟨['H','B','F','R'], ['F','R'], Operating, Active⟩),
  (['K','L','S','H'], ⟨['K','L','S','H'], ['U','S'], Operating, Active⟩),
  (['M','U','D','X'], ⟨['M','U','D','X'], ['J','P'], Operating, Active⟩),
  (['T','R','A','X'], ⟨['T','R','A','X'], ['G','B'], Operating, Active⟩),
  (['T','R','N','L'], ⟨['T','R','N','L'], ['N','L'], Operating, Active⟩),
  (['X','P','E','T'], ⟨['X','P','E','T'], ['R','U'], Operating, Active⟩),
  (['L','E','V','L'], ⟨['L','E','V','L'], ['U','S'], Operating, Active⟩),
  (['E','B','X','V'], ⟨['L','E','V','L'], ['U','S'], Segment, Active⟩),
  (['F','X','R','S'], ⟨['R','M','T','F'], ['I','E'], Segment, Active⟩),
  (['F','X','P','S'], ⟨['T','H','R','E'], ['U','S'], Segment, Active⟩),
  (['X','B','I','S'], ⟨['X','B','A','B'], ['B','B'], Segment, Active⟩),
  (['S','T','R','M'], ⟨['S','T','R','M'], ['U','S'], Operating, Active⟩),
  (['A','B','N','C'], ⟨['A','B','N','C'], ['N','L'], Operating, Active⟩),
  (['B','N','P','C'], ⟨['B','N','P','C'], ['U','S'], Operating, Active⟩),
  (['P','B','G','R'], ⟨['P','B','G','R'], ['G','R'], Operating, Active⟩),
  (['S','I','D','X'], ⟨['S','I','D','X'], ['I','E'], Operating, Active⟩),
  (['S','I','F','X'], ⟨['S','I','F','X'], ['G','B'], Operating, Active⟩),
  (['T','E','U','R'], ⟨['T','E','U','R'], ['E','S'], Operating, Active⟩),
  (['T','P','E','E'], ⟨['T','P','I','C'], ['F','R'], Segment, Active⟩),
  (['A','I','L','T'], ⟨['A','I','L','T'], ['I','E'], Operating, Active⟩),
  (['A','R','A','X'], ⟨['A','R','A','X'], ['G','B'], Operating, Active⟩),
  (['C','G','X','S'], ⟨['C','G','X','S'], ['U','S'], Operating, Active⟩),
  (['E','Q','O','C'], ⟨['E','Q','O','S'], ['S','G'], Segment, Active⟩),
  (['E','Q','O','D'], ⟨['E','Q','O','S'], ['S','G'], Segment, Active⟩),
  (['A','Q','E','D'], ⟨['A','Q','E','U'], ['F','R'], Segment, Active⟩),
  (['E','I','X','E'], ⟨['A','Q','X','E'], ['G','B'], Segment, Active⟩),
  (['H','P','C','S'], ⟨['H','P','C','X'], ['F','R'], Segment, Active⟩),
  (['M','I','D','C'], ⟨['M','I','D','C'], ['A','E'], Operating, Active⟩),
  (['R','A','B','L'], ⟨['R','A','B','L'], ['G','B'], Operating, Active⟩),
  (['R','M','M','S'], ⟨['R','M','M','S'], ['Z','A'], Operating, Active⟩),
  (['R','M','M','X'], ⟨['R','M','M','S'], ['Z','A'], Segment, Active⟩),
  (['N','O','C','O'], ⟨['X','S','T','O'], ['S','E'], Segment, Expired⟩),
  (['M','A','B','X'], ⟨['B','M','E','X'], ['E','S'], Segment, Active⟩),
  (['C','E','C','A'], ⟨['C','E','C','A'], ['E','S'], Operating, Active⟩),
  (['D','B','D','C'], ⟨['D','B','I','X'], ['G','B'], Segment, Expired⟩),
  (['D','B','S','E'], ⟨['D','B','I','X'], ['G','B'], Segment, Expired⟩),
  (['D','B','C','X'], ⟨['D','B','I','X'], ['G','B'], Segment, Expired⟩),
  (['D','B','C','R'], ⟨['D','B','I','X'], ['G','B'], Segment, Expired⟩),
  (['H','P','C','O'], ⟨['H','P','C','X'], ['F','R'], Segment, Active⟩),
  (['I','C','O','R'], ⟨['I','C','O','T'], ['F','R'], Segment, Active⟩),
  (['J','N','S','I'], ⟨['J','N','S','I'], ['N','L'], Operating, Active⟩),
  (['T','P','E','R'], ⟨['T','P','E','U'], ['F','R'], Segment, Active⟩),
  (['X','S','D','X'], ⟨['X','S','W','X'], ['C','H'], Segment, Active⟩),
  (['X','S','W','X'], ⟨['X','S','W','X'], ['C','H'], Operating, Active⟩)]

theorem mics0_eq : mics0 = micChars0.map MicChars.entry := (rfl)

/-- iso_10383.rs 196-295. -/
def mics1 : List (String × Mic) := [
  ("XDLP", ⟨"XSWX", "CH", Segment, Active⟩),
  ("XSWM", ⟨"XSWX", "CH", Segment, Active⟩),
  ("XSLS", ⟨"XSWX", "CH", Segment, Expired⟩),
  ("XSEB", ⟨"XSWX", "CH", Segment, Active⟩),
  ("XBTR", ⟨"XSWX", "CH", Segment, Active⟩),
  ("XVTX", ⟨"XSWX", "CH", Segment, Expired⟩),
  ("XQOD", ⟨"XSWX", "CH", Segment, Active⟩),
  ("XQMH", ⟨"XSWX", "CH", Segment, Active⟩),
  ("BNPX", ⟨"BNPX", "JP", Operating, Active⟩),
  ("BTRL", ⟨"BTRL", "RO", Operating, Active⟩),
  ("NTUK", ⟨"NTUK", "GB", Operating, Active⟩),
  ("EQOS", ⟨"EQOS", "SG", Operating, Active⟩),
  ("LMNR", ⟨"LMNR", "EE", Operating, Active⟩),
  ("CEDX", ⟨"CCRM", "NL", Segment, Active⟩),
  ("EQCA", ⟨"EQCA", "CA", Operating, Active⟩),
  ("EQUS", ⟨"EQUS", "US", Operating, Active⟩),
  ("EVOL", ⟨"EVOL", "GB", Operating, Active⟩),
  ("STEE", ⟨"NORX", "NO", Segment, Expired⟩),
  ("BULK", ⟨"NORX", "NO", Segment, Expired⟩),
  ("RBCC", ⟨"RBCC", "FR", Operating, Active⟩),
  ("BEBG", ⟨"BEBG", "BG", Operating, Active⟩),
  ("CBKS", ⟨"CBKA", "DE", Segment, Active⟩),
  ("XTXD", ⟨"XTXD", "US", Operating, Active⟩),
  ("SSWM", ⟨"SSWM", "DE", Operating, Expired⟩),
  ("XOAS", ⟨"XOSL", "NO", Segment, Active⟩),
  ("XOSL", ⟨"XOSL", "NO", Operating, Active⟩),
  ("SGA2", ⟨"SGAS", "US", Segment, Active⟩),
  ("EWRM", ⟨"TMEX", "TR", Segment, Active⟩),
  ("MERK", ⟨"XOSL", "NO", Segment, Active⟩),
  ("XOBD", ⟨"XOSL", "NO", Segment, Active⟩),
  ("BSAB", ⟨"BSAB", "ES", Operating, Active⟩),
  ("BSPL", ⟨"BSPL", "GB", Operating, Active⟩),
  ("BSTX", ⟨"BSTX", "US", Operating, Active⟩),
  ("XNOM", ⟨"XNOM", "LI", Operating, Active⟩),
  ("BBOK", ⟨"BARX", "US", Segment, Active⟩),
  ("BLFX", ⟨"BLBB", "DE", Segment, Active⟩),
  ("OLBB", ⟨"OLBB", "DE", Operating, Active⟩),
  ("SGMU", ⟨"SGMU", "FR", Operating, Active⟩),
  ("AFEX", ⟨"AFEX", "MU", Operating, Active⟩),
  ("BNPL", ⟨"BNPL", "GB", Operating, Updated⟩),
  ("CAPL", ⟨"CAPL", "PL", Operating, Active⟩),
  ("CCMX", ⟨"CCMX", "US", Operating, Active⟩),
  ("ONEC", ⟨"CGMI", "US", Segment, Active⟩),
  ("MBSI", ⟨"MSBI", "GB", Segment, Active⟩),
  ("MSBI", ⟨"MSBI", "GB", Operating, Active⟩),
  ("SGMV", ⟨"SGMU", "FR", Segment, Active⟩),
  ("SGMW", ⟨"SGMU", "FR", Segment, Active⟩),
  ("T212", ⟨"T212", "BG", Operating, Active⟩),
  ("TMEX", ⟨"TMEX", "TR", Operating, Active⟩),
  ("XCBO", ⟨"XCBO", "US", Operating, Active⟩),
  ("CONE", ⟨"XCBO", "US", Segment, Expired⟩),
  ("CTWO", ⟨"XCBO", "US", Segment, Expired⟩),
  ("C2OX", ⟨"XCBO", "US", Segment, Active⟩),
  ("PEPQ", ⟨"PEPW", "SE", Segment, Active⟩),
  ("PEPY", ⟨"PEPW", "SE", Segment, Active⟩),
  ("PEPH", ⟨"PEPW", "SE", Segment, Active⟩),
  ("PEPM", ⟨"PEPW", "SE", Segment, Active⟩),
  ("XPOM", ⟨"XPOM", "PG", Operating, Active⟩),
  ("GROW", ⟨"BMEX", "ES", Segment, Active⟩),
  ("CLST", ⟨"CLST", "US", Operating, Active⟩),
  ("LLAT", ⟨"LLAT", "AT", Operating, Active⟩),
  ("EPRD", ⟨"MIHI", "US", Segment, Active⟩),
  ("GSPL", ⟨"GSAL", "HK", Segment, Active⟩),
  ("IMMH", ⟨"IMMH", "IT", Operating, Active⟩),
  ("AQSE", ⟨"AQSE", "GB", Operating, Active⟩),
  ("ENMS", ⟨"ENMS", "SG", Operating, Active⟩),
  ("FAST", ⟨"FAST", "US", Operating, Active⟩),
  ("TLCM", ⟨"ICOT", "FR", Segment, Active⟩),
  ("ILCM", ⟨"IOTF", "GB", Segment, Active⟩),
  ("LELE", ⟨"LELE", "GB", Operating, Active⟩),
  ("MCXX", ⟨"MCXX", "IN", Operating, Active⟩),
  ("MEMD", ⟨"MEMX", "US", Segment, Active⟩),
  ("EBSO", ⟨"NEXS", "GB", Segment, Active⟩),
  ("PEPW", ⟨"PEPW", "SE", Operating, Active⟩),
  ("WFLB", ⟨"WFLB", "GB", Operating, Active⟩),
  ("WFSE", ⟨"WFSE", "FR", Operating, Expired⟩),
  ("VNDM", ⟨"WSAG", "US", Segment, Active⟩),
  ("WABR", ⟨"WSAG", "US", Segment, Active⟩),
  ("XSCA", ⟨"XSES", "SG", Segment, Active⟩),
  ("TMCC", ⟨"IFUS", "US", Segment, Active⟩),
  ("EDBT", ⟨"XDUB", "IE", Segment, Active⟩),
  ("EDGL", ⟨"XDUB", "IE", Segment, Active⟩),
  ("ETLX", ⟨"XMIL", "IT", Segment, Active⟩),
  ("BASP", ⟨"BAIP", "HK", Segment, Active⟩),
  ("BTEQ", ⟨"BTEC", "US", Segment, Active⟩),
  ("EQSE", ⟨"EQIE", "IE", Segment, Active⟩),
  ("VABD", ⟨"IFUS", "US", Segment, Active⟩),
  ("IMCC", ⟨"IFUS", "US", Segment, Active⟩),
  ("NBFL", ⟨"NBFL", "GB", Operating, Active⟩),
  ("NEXT", ⟨"NEXX", "GB", Segment, Expired⟩),
  ("NEXN", ⟨"NEXX", "GB", Segment, Expired⟩),
  ("NEXF", ⟨"NEXX", "GB", Segment, Expired⟩),
  ("NEXX", ⟨"NEXX", "GB", Operating, Expired⟩),
  ("NEXG", ⟨"NEXX", "GB", Segment, Expired⟩),
  ("NEXL", ⟨"NEXX", "GB", Segment, Expired⟩),
  ("NEXD", ⟨"NEXX", "GB", Segment, Expired⟩),
  ("XNDX", ⟨"XNGM", "SE", Segment, Expired⟩),
  ("XNMR", ⟨"XNGM", "SE", Segment, Expired⟩),
  ("MAXD", ⟨"MAXD", "GB", Operating, Active⟩),
  ("BTBS", ⟨"BTBS", "SG", Operating, Active⟩)]

/-- The same entries with their strings spelt out. -/
def micChars1 : List (List Char × MicChars) := [
  (['X','D','L','P'], ⟨['X','S','W','X'], ['C','H'], Segment, Active⟩),
  (['X','S','W','M'], ⟨['X','S','W','X'], ['C','H'], Segment, Active⟩),
  (['X','S','L','S'], ⟨['X','S','W','X'], ['C','H'], Segment, Expired⟩),
  (['X','S','E','B'], ⟨['X','S','W','X'], ['C','H'], Segment, Active⟩),
  (['X','B','T','R'], ⟨['X','S','W','X'], ['C','H'], Segment, Active⟩),
  (['X','V','T','X'], ⟨['X','S','W','X'], ['C','H'], Segment, Expired⟩),
  (['X','Q','O','D'], ⟨['X','S','W','X'], ['C','H'], Segment, Active⟩),
  (['X','Q','M','H'], ⟨['X','S','W','X'], ['C','H'], Segment, Active⟩),
  (['B','N','P','X'], ⟨['B','N','P','X'], ['J','P'], Operating, Active⟩),
  (['B','T','R','L'], ⟨['B','T','R','L'], ['R','O'], Operating, Active⟩),
  (['N','T','U','K'], ⟨['N','T','U','K'], ['G','B'], Operating, Active⟩),
  (['E','Q','O','S'], ⟨['E','Q','O','S'], ['S','G'], Operating, Active⟩),
  (['L','M','N','R'], ⟨['L','M','N','R'], ['E','E'], Operating, Active⟩),
  (['C','E','D','X'], ⟨['C','C','R','M'], ['N','L'], Segment, Active⟩),
  (['E','Q','C','A'], ⟨['E','Q','C','A'], ['C','A'], Operating, Active⟩),
  (['E','Q','U','S'], ⟨['E','Q','U','S'], ['U','S'], Operating, Active⟩),
  (['E','V','O','L'], ⟨['E','V','O','L'], ['G','B'], Operating, Active⟩),
  (['S','T','E','E'], ⟨['N','O','R','X'], ['N','O'], Segment, Expired⟩),
  (['B','U','L','K'], ⟨['N','O','R','X'], ['N','O'], Segment, Expired⟩),
  (['R','B','C','C'], ⟨['R','B','C','C'], ['F','R'], Operating, Active⟩),
  (['B','E','B','G'], ⟨['B','E','B','G'], ['B','G'], Operating, Active⟩),
  (['C','B','K','S'], ⟨['C','B','K','A'], ['D','E'], Segment, Active⟩),
  (['X','T','X','D'], ⟨['X','T','X','D'], ['U','S'], Operating, Active⟩),
  (['S','S','W','M'], ⟨['S','S','W','M'], ['D','E'], Operating, Expired⟩),
  (['X','O','A','S'], ⟨['X','O','S','L'], ['N','O'], Segment, Active⟩),
  (['X','O','S','L'], ⟨['X','O','S','L'], ['N','O'], Operating, Active⟩),
  (['S','G','A','2'], ⟨['S','G','A','S'], ['U','S'], Segment, Active⟩),
  (['E','W','R','M'], ⟨['T','M','E','X'], ['T','R'], Segment, Active⟩),
  (['M','E','R','K'], ⟨['X','O','S','L'], ['N','O'], Segment, Active⟩),
  (['X','O','B','D'], ⟨['X','O','S','L'], ['N','O'], Segment, Active⟩),
  (['B','S','A','B'], ⟨['B','S','A','B'], ['E','S'], Operating, Active⟩),
  (['B','S','P','L'], ⟨['B','S','P','L'], ['G','B'], Operating, Active⟩),
  (['B','S','T','X'], ⟨['B','S','T','X'], ['U','S'], Operating, Active⟩),
  (['X','N','O','M'], ⟨['X','N','O','M'], ['L','I'], Operating, Active⟩),
  (['B','B','O','K'], ⟨['B','A','R','X'], ['U','S'], Segment, Active⟩),
  (['B','L','F','X'], ⟨['B','L','B','B'], ['D','E'], Segment, Active⟩),
  (['O','L','B','B'], ⟨['O','L','B','B'], ['D','E'], Operating, Active⟩),
  (['S','G','M','U'], ⟨['S','G','M','U'], ['F','R'], Operating, Active⟩),
  (['A','F','E','X'], ⟨['A','F','E','X'], ['M','U'], Operating, Active⟩),
  (['B','N','P','L'], ⟨['B','N','P','L'], ['G','B'], Operating, Updated⟩),
  (['C','A','P','L'], ⟨['C','A','P','L'], ['P','L'], Operating, Active⟩),
  (['C','C','M','X'], ⟨['C','C','M','X'], ['U','S'], Operating, Active⟩),
  (['O','N','E','C'], ⟨['C','G','M','I'], ['U','S'], Segment, Active⟩),
  (['M','B','S','I'], ⟨['M','S','B','I'], ['G','B'], Segment, Active⟩),
  (['M','S','B','I'], ⟨['M','S','B','I'], ['G','B'], Operating, Active⟩),
  (['S','G','M','V'], ⟨['S','G','M','U'], ['F','R'], Segment, Active⟩),
  (['S','G','M','W'], ⟨['S','G','M','U'], ['F','R'], Segment, Active⟩),
  (['T','2','1','2'], ⟨['T','2','1','2'], ['B','G'], Operating, Active⟩),
  (['T','M','E','X'], ⟨['T','M','E','X'], ['T','R'], Operating, Active⟩),
  (['X','C','B','O'], ⟨['X','C','B','O'], ['U','S'], Operating, Active⟩),
  (['C','O','N','E'], ⟨['X','C','B','O'], ['U','S'], Segment, Expired⟩),
  (['C','T','W','O'], ⟨['X','C','B','O'], ['U','S'], Segment, Expired⟩),
  (['C','2','O','X'], ⟨['X','C','B','O'], ['U','S'], Segment, Active⟩),
  (['P','E','P','Q'], ⟨['P','E','P','W'], ['S','E'], Segment, Active⟩),
  (['P','E','P','Y'], ⟨['P','E','P','W'], ['S','E'], Segment, Active⟩),
  (['P','E','P','H'], ⟨['P','E','P','W'], ['S','E'], Segment, Active⟩),
  (['P','E','P','M'], ⟨['P','E','P','W'], ['S','E'], Segment, Active⟩),
  (['X','P','O','M'], ⟨['X','P','O','M'], ['P','G'], Operating, Active⟩),
  (['G','R','O','W'], ⟨['B','M','E','X'], ['E','S'], Segment, Active⟩),
  (['C','L','S','T'], ⟨['C','L','S','T'], ['U','S'], Operating, Active⟩),
  (['L','L','A','T'], ⟨['L','L','A','T'], ['A','T'], Operating, Active⟩),
  (['E','P','R','D'], ⟨['M','I','H','I'], ['U','S'], Segment, Active⟩),
  (['G','S','P','L'], ⟨['G','S','A','L'], ['H','K'], Segment, Active⟩),
  (['I','M','M','H'], ⟨['I','M','M','H'], ['I','T'], Operating, Active⟩),
  (['A','Q','S','E'], ⟨['A','Q','S','E'], ['G','B'], Operating, Active⟩),
  (['E','N','M','S'], ⟨['E','N','M','S'], ['S','G'], Operating, Active⟩),
  (['F','A','S','T'], ⟨['F','A','S','T'], ['U','S'], Operating, Active⟩),
  (['T','L','C','M'], ⟨['I','C','O','T'], ['F','R'], Segment, Active⟩),
  (['I','L','C','M'], ⟨['I','O','T','F'], ['G','B'], Segment, Active⟩),
  (['L','E','L','E'], ⟨['L','E','L','E'], ['G','B'], Operating, Active⟩),
  (['M','C','X','X'], ⟨['M','C','X','X'], ['I','N'], Operating, Active⟩),
  (['M','E','M','D'], ⟨['M','E','M','X'], ['U','S'], Segment, Active⟩),
  (['E','B','S','O'], ⟨['N','E','X','S'], ['G','B'], Segment, Active⟩),
  (['P','E','P','W'], ⟨['P','E','P','W'], ['S','E'], Operating, Active⟩),
  (['W','F','L','B'], ⟨['W','F','L','B'], ['G','B'], Operating, Active⟩),
  (['W','F','S','E'], ⟨['W','F','S','E'], ['F','R'], Operating, Expired⟩),
  (['V','N','D','M'], ⟨['W','S','A','G'], ['U','S'], Segment, Active⟩),
  (['W','A','B','R'], ⟨['W','S','A','G'], ['U','S'], Segment, Active⟩),
  (['X','S','C','A'], ⟨['X','S','E','S'], ['S','G'], Segment, Active⟩),
  (['T','M','C','C'], ⟨['I','F','U','S'], ['U','S'], Segment, Active⟩),
  (['E','D','B','T'], ⟨['X','D','U','B'], ['I','E'], Segment, Active⟩),
  (['E','D','G','L'], ⟨['X','D','U','B'], ['I','E'], Segment, Active⟩),
  (['E','T','L','X'], ⟨['X','M','I','L'], ['I','T'], Segment, Active⟩),
  (['B','A','S','P'], ⟨['B','A','I','P'], ['H','K'], Segment, Active⟩),
  (['B','T','E','Q'], ⟨['B','T','E','C'], ['U','S'], Segment, Active⟩),
  (['E','Q','S','E'], ⟨['E','Q','I','E'], ['I','E'], Segment, Active⟩),
  (['V','A','B','D'], ⟨['I','F','U','S'], ['U','S'], Segment, Active⟩),
  (['I','M','C','C'], ⟨['I','F','U','S'], ['U','S'], Segment, Active⟩),
  (['N','B','F','L'], ⟨['N','B','F','L'], ['G','B'], Operating, Active⟩),
  (['N','E','X','T'], ⟨['N','E','X','X'], ['G','B'], Segment, Expired⟩),
  (['N','E','X','N'], ⟨['N','E','X','X'], ['G','B'], Segment, Expired⟩),
  (['N','E','X','F'], ⟨['N','E','X','X'], ['G','B'], Segment, Expired⟩),
  (['N','E','X','X'], ⟨['N','E','X','X'], ['G','B'], Operating, Expired⟩),
  (['N','E','X','G'], ⟨['N','E','X','X'], ['G','B'], Segment, Expired⟩),
  (['N','E','X','L'], ⟨['N','E','X','X'], ['G','B'], Segment, Expired⟩),
  (['N','E','X','D'], ⟨['N','E','X','X'], ['G','B'], Segment, Expired⟩),
  (['X','N','D','X'], ⟨['X','N','G','M'], ['S','E'], Segment, Expired⟩),
  (['X','N','M','R'], ⟨['X','N','G','M'], ['S','E'], Segment, Expired⟩),
  (['M','A','X','D'], ⟨['M','A','X','D'], ['G','B'], Operating, Active⟩),
  (['B','T','B','S'], ⟨['B','T','B','S'], ['S','G'], Operating, Active⟩)]

theorem mics1_eq : mics1 = micChars1.map MicChars.entry := (rfl)

/-- iso_10383.rs 296-395. -/
def mics2 : List (String × Mic) := [
  ("AXSI", ⟨"AXSI", "FI", Operating, Expired⟩),
  ("SKBB", ⟨"SKBB", "SI", Operating, Active⟩),
  ("BDSK", ⟨"BDSK", "BG", Operating, Active⟩),
  ("DEXE", ⟨"DEXE", "AE", Operating, Active⟩),
  ("OTPR", ⟨"OTPR", "RO", Operating, Active⟩),
  ("SBIU", ⟨"SBIJ", "JP", Segment, Active⟩),
  ("XSBI", ⟨"SBIJ", "JP", Segment, Active⟩),
  ("SBIV", ⟨"SBIJ", "JP", Segment, Active⟩),
  ("SBIJ", ⟨"SBIJ", "JP", Operating, Active⟩),
  ("XOTP", ⟨"XOTP", "HR", Operating, Active⟩),
  ("EQSL", ⟨"EQLD", "GB", Segment, Active⟩),
  ("JSER", ⟨"XJSE", "ZA", Segment, Active⟩),
  ("XBVM", ⟨"XBVM", "MZ", Operating, Active⟩),
  ("HESP", ⟨"HEMO", "GR", Segment, Active⟩),
  ("HEDE", ⟨"HEMO", "GR", Segment, Active⟩),
  ("MAQE", ⟨"MAQE", "IE", Operating, Active⟩),
  ("MEMX", ⟨"MEMX", "US", Operating, Active⟩),
  ("PARK", ⟨"PARK", "PL", Operating, Active⟩),
  ("PJCX", ⟨"PIPR", "US", Segment, Active⟩),
  ("PIPR", ⟨"PIPR", "US", Operating, Active⟩),
  ("SKYX", ⟨"SKYX", "GB", Operating, Active⟩),
  ("CIMA", ⟨"CIMD", "ES", Segment, Active⟩),
  ("GLOM", ⟨"GLOM", "AE", Operating, Active⟩),
  ("TRAI", ⟨"TRAI", "US", Operating, Active⟩),
  ("XZAM", ⟨"XZAG", "HR", Segment, Expired⟩),
  ("CBOE", ⟨"CBOE", "CH", Operating, Active⟩),
  ("CGEE", ⟨"CGMD", "DE", Segment, Active⟩),
  ("CGEC", ⟨"CGMD", "DE", Segment, Active⟩),
  ("CGME", ⟨"CGML", "GB", Segment, Expired⟩),
  ("CGMC", ⟨"CGML", "GB", Segment, Active⟩),
  ("COHR", ⟨"COHR", "US", Operating, Active⟩),
  ("NEXY", ⟨"EBSN", "NL", Segment, Expired⟩),
  ("STFU", ⟨"STFU", "US", Operating, Expired⟩),
  ("STFX", ⟨"STFX", "US", Operating, Active⟩),
  ("TRQS", ⟨"TRQX", "GB", Segment, Expired⟩),
  ("XICB", ⟨"XICB", "CH", Operating, Expired⟩),
  ("XLCH", ⟨"XLCH", "GB", Operating, Active⟩),
  ("CLCH", ⟨"XLCH", "GB", Segment, Active⟩),
  ("BUYN", ⟨"XLCH", "GB", Segment, Active⟩),
  ("ATDF", ⟨"ATDF", "US", Operating, Expired⟩),
  ("BGHX", ⟨"BGHX", "BG", Operating, Active⟩),
  ("CORE", ⟨"CGMI", "US", Segment, Expired⟩),
  ("CICX", ⟨"CGMI", "US", Segment, Expired⟩),
  ("CSAS", ⟨"CSAS", "CZ", Operating, Active⟩),
  ("LTSE", ⟨"LTSE", "US", Operating, Active⟩),
  ("MALM", ⟨"MASG", "SG", Segment, Expired⟩),
  ("XPSF", ⟨"XEEE", "DE", Segment, Active⟩),
  ("XPOT", ⟨"XEEE", "DE", Segment, Active⟩),
  ("XFEX", ⟨"XFEX", "AU", Operating, Active⟩),
  ("CALH", ⟨"CALH", "US", Operating, Active⟩),
  ("OMIP", ⟨"OMIP", "PT", Operating, Active⟩),
  ("XLIS", ⟨"XLIS", "PT", Operating, Active⟩),
  ("CSLP", ⟨"CRED", "US", Segment, Expired⟩),
  ("DAUK", ⟨"DAUK", "GB", Operating, Active⟩),
  ("BSLB", ⟨"BSLB", "GB", Operating, Active⟩),
  ("CFIL", ⟨"CFIL", "IE", Operating, Active⟩),
  ("CGMU", ⟨"CGML", "GB", Segment, Active⟩),
  ("CSCL", ⟨"CRED", "US", Segment, Active⟩),
  ("CSVW", ⟨"CRED", "US", Segment, Active⟩),
  ("RBCM", ⟨"RBCM", "GB", Operating, Active⟩),
  ("THRE", ⟨"THRE", "US", Operating, Active⟩),
  ("WEED", ⟨"WEED", "US", Operating, Expired⟩),
  ("XWEE", ⟨"WEED", "US", Segment, Expired⟩),
  ("BKKT", ⟨"BKKT", "US", Operating, Active⟩),
  ("UKRE", ⟨"ICPM", "GB", Segment, Active⟩),
  ("UKOR", ⟨"ICPM", "GB", Segment, Active⟩),
  ("IUOB", ⟨"IOTF", "GB", Segment, Active⟩),
  ("TUOB", ⟨"TPSO", "GB", Segment, Active⟩),
  ("XPUS", ⟨"XPUS", "US", Operating, Active⟩),
  ("BMLS", ⟨"BMLI", "IE", Segment, Active⟩),
  ("BMLI", ⟨"BMLI", "IE", Operating, Active⟩),
  ("BMSI", ⟨"BMLX", "IE", Segment, Expired⟩),
  ("BMLX", ⟨"BMLX", "IE", Operating, Expired⟩),
  ("SGMZ", ⟨"SGMX", "GB", Segment, Active⟩),
  ("PFXD", ⟨"TRDE", "GB", Segment, Active⟩),
  ("TRQC", ⟨"TRQX", "GB", Segment, Active⟩),
  ("GSBX", ⟨"GSIL", "GB", Segment, Expired⟩),
  ("ITGL", ⟨"ITGL", "IE", Operating, Active⟩),
  ("XAMM", ⟨"XAMM", "JO", Operating, Active⟩),
  ("AMNL", ⟨"XAMM", "JO", Segment, Active⟩),
  ("BETA", ⟨"XBUD", "HU", Segment, Active⟩),
  ("VFGB", ⟨"VFGB", "GB", Operating, Active⟩),
  ("VFUK", ⟨"VFUK", "GB", Operating, Expired⟩),
  ("SEBL", ⟨"SEBL", "LT", Operating, Active⟩),
  ("XPOL", ⟨"VIUK", "GB", Segment, Active⟩),
  ("XPAL", ⟨"VIUK", "GB", Segment, Active⟩),
  ("VIUK", ⟨"VIUK", "GB", Operating, Active⟩),
  ("ASPI", ⟨"INCR", "US", Segment, Active⟩),
  ("ASMT", ⟨"INCR", "US", Segment, Active⟩),
  ("ASPN", ⟨"INCR", "US", Segment, Active⟩),
  ("CISD", ⟨"XNYS", "US", Segment, Active⟩),
  ("CDSI", ⟨"CSDA", "DE", Segment, Active⟩),
  ("RESF", ⟨"EBSN", "NL", Segment, Active⟩),
  ("EBSF", ⟨"EBSN", "NL", Segment, Active⟩),
  ("BBSX", ⟨"BBSX", "GB", Operating, Active⟩),
  ("JLSI", ⟨"JLSI", "GB", Operating, Expired⟩),
  ("SCOT", ⟨"SCOT", "GB", Operating, Active⟩),
  ("XDEX", ⟨"XSTU", "DE", Segment, Active⟩),
  ("DOWE", ⟨"DOWM", "ES", Segment, Active⟩),
  ("SPEX", ⟨"SPEX", "DE", Operating, Active⟩)]

/-- The same entries with their strings spelt out. -/
def micChars2 : List (List Char × MicChars) := [
  (['A','X','S','I'], ⟨['A','X','S','I'], ['F','I'], Operating, Expired⟩),
  (['S','K','B','B'], ⟨['S','K','B','B'], ['S','I'], Operating, Active⟩),
  (['B','D','S','K'], ⟨['B','D','S','K'], ['B','G'], Operating, Active⟩),
  (['D','E','X','E'], ⟨['D','E','X','E'], ['A','E'], Operating, Active⟩),
  (['O','T','P','R'], ⟨['O','T','P','R'], ['R','O'], Operating, Active⟩),
  (['S','B','I','U'], ⟨['S','B','I','J'], ['J','P'], Segment, Active⟩),
  (['X','S','B','I'], ⟨['S','B','I','J'], ['J','P'], Segment, Active⟩),
  (['S','B','I','V'], ⟨['S','B','I','J'], ['J','P'], Segment, Active⟩),
  (['S','B','I','J'], ⟨['S','B','I','J'], ['J','P'], Operating, Active⟩),
  (['X','O','T','P'], ⟨['X','O','T','P'], ['H','R'], Operating, Active⟩),
  (['E','Q','S','L'], ⟨['E','Q','L','D'], ['G','B'], Segment, Active⟩),
  (['J','S','E','R'], ⟨['X','J','S','E'], ['Z','A'], Segment, Active⟩),
  (['X','B','V','M'], ⟨['X','B','V','M'], ['M','Z'], Operating, Active⟩),
  (['H','E','S','P'], ⟨['H','E','M','O'], ['G','R'], Segment, Active⟩),
  (['H','E','D','E'], ⟨['H','E','M','O'], ['G','R'], Segment, Active⟩),
  (['M','A','Q','E'], ⟨['M','A','Q','E'], ['I','E'], Operating, Active⟩),
  (['M','E','M','X'], ⟨['M','E','M','X'], ['U','S'], Operating, Active⟩),
  (['P','A','R','K'], ⟨['P','A','R','K'], ['P','L'], Operating, Active⟩),
  (['P','J','C','X'], ⟨['P','I','P','R'], ['U','S'], Segment, Active⟩),
  (['P','I','P','R'], ⟨['P','I','P','R'], ['U','S'], Operating, Active⟩),
  (['S','K','Y','X'], ⟨['S','K','Y','X'], ['G','B'], Operating, Active⟩),
  (['C','I','M','A'], ⟨['C','I','M','D'], ['E','S'], Segment, Active⟩),
  (['G','L','O','M'], ⟨['G','L','O','M'], ['A','E'], Operating, Active⟩),
  (['T','R','A','I'], ⟨['T','R','A','I'], ['U','S'], Operating, Active⟩),
  (['X','Z','A','M'], ⟨['X','Z','A','G'], ['H','R'], Segment, Expired⟩),
  (['C','B','O','E'], ⟨['C','B','O','E'], ['C','H'], Operating, Active⟩),
  (['C','G','E','E'], ⟨['C','G','M','D'], ['D','E'], Segment, Active⟩),
  (['C','G','E','C'], ⟨['C','G','M','D'], ['D','E'], Segment, Active⟩),
  (['C','G','M','E'], ⟨['C','G','M','L'], ['G','B'], Segment, Expired⟩),
  (['C','G','M','C'], ⟨['C','G','M','L'], ['G','B'], Segment, Active⟩),
  (['C','O','H','R'], ⟨['C','O','H','R'], ['U','S'], Operating, Active⟩),
  (['N','E','X','Y'], ⟨['E','B','S','N'], ['N','L'], Segment, Expired⟩),
  (['S','T','F','U'], ⟨['S','T','F','U'], ['U','S'], Operating, Expired⟩),
  (['S','T','F','X'], ⟨['S','T','F','X'], ['U','S'], Operating, Active⟩),
  (['T','R','Q','S'], ⟨['T','R','Q','X'], ['G','B'], Segment, Expired⟩),
  (['X','I','C','B'], ⟨['X','I','C','B'], ['C','H'], Operating, Expired⟩),
  (['X','L','C','H'], ⟨['X','L','C','H'], ['G','B'], Operating, Active⟩),
  (['C','L','C','H'], ⟨['X','L','C','H'], ['G','B'], Segment, Active⟩),
  (['B','U','Y','N'], ⟨['X','L','C','H'], ['G','B'], Segment, Active⟩),
  (['A','T','D','F'], ⟨['A','T','D','F'], ['U','S'], Operating, Expired⟩),
  (['B','G','H','X'], ⟨['B','G','H','X'], ['B','G'], Operating, Active⟩),
  (['C','O','R','E'], ⟨['C','G','M','I'], ['U','S'], Segment, Expired⟩),
  (['C','I','C','X'], ⟨['C','G','M','I'], ['U','S'], Segment, Expired⟩),
  (['C','S','A','S'], ⟨['C','S','A','S'], ['C','Z'], Operating, Active⟩),
  (['L','T','S','E'], ⟨['L','T','S','E'], ['U','S'], Operating, Active⟩),
  (['M','A','L','M'], ⟨['M','A','S','G'], ['S','G'], Segment, Expired⟩),
  (['X','P','S','F'], ⟨['X','E','E','E'], ['D','E'], Segment, Active⟩),
  (['X','P','O','T'], ⟨['X','E','E','E'], ['D','E'], Segment, Active⟩),
  (['X','F','E','X'], ⟨['X','F','E','X'], ['A','U'], Operating, Active⟩),
  (['C','A','L','H'], ⟨['C','A','L','H'], ['U','S'], Operating, Active⟩),
  (['O','M','I','P'], ⟨['O','M','I','P'], ['P','T'], Operating, Active⟩),
  (['X','L','I','S'], ⟨['X','L','I','S'], ['P','T'], Operating, Active⟩),
  (['C','S','L','P'], ⟨['C','R','E','D'], ['U','S'], Segment, Expired⟩),
  (['D','A','U','K'], ⟨['D','A','U','K'], ['G','B'], Operating, Active⟩),
  (['B','S','L','B'], ⟨['B','S','L','B'], ['G','B'], Operating, Active⟩),
  (['C','F','I','L'], ⟨['C','F','I','L'], ['I','E'], Operating, Active⟩),
  (['C','G','M','U'], ⟨['C','G','M','L'], ['G','B'], Segment, Active⟩),
  (['C','S','C','L'], ⟨['C','R','E','D'], ['U','S'], Segment, Active⟩),
  (['C','S','V','W'], ⟨['C','R','E','D'], ['U','S'], Segment, Active⟩),
  (['R','B','C','M'], ⟨['R','B','C','M'], ['G','B'], Operating, Active⟩),
  (['T','H','R','E'], ⟨['T','H','R','E'], ['U','S'], Operating, Active⟩),
  (['W','E','E','D'], ⟨['W','E','E','D'], ['U','S'], Operating, Expired⟩),
  (['X','W','E','E'], ⟨['W','E','E','D'], ['U','S'], Segment, Expired⟩),
  (['B','K','K','T'], ⟨['B','K','K','T'], ['U','S'], Operating, Active⟩),
  (['U','K','R','E'], ⟨['I','C','P','M'], ['G','B'], Segment, Active⟩),
  (['U','K','O','R'], ⟨['I','C','P','M'], ['G','B'], Segment, Active⟩),
  (['I','U','O','B'], ⟨['I','O','T','F'], ['G','B'], Segment, Active⟩),
  (['T','U','O','B'], ⟨['T','P','S','O'], ['G','B'], Segment, Active⟩),
  (['X','P','U','S'], ⟨['X','P','U','S'], ['U','S'], Operating, Active⟩),
  (['B','M','L','S'], ⟨['B','M','L','I'], ['I','E'], Segment, Active⟩),
  (['B','M','L','I'], ⟨['B','M','L','I'], ['I','E'], Operating, Active⟩),
  (['B','M','S','I'], ⟨['B','M','L','X'], ['I','E'], Segment, Expired⟩),
  (['B','M','L','X'], ⟨['B','M','L','X'], ['I','E'], Operating, Expired⟩),
  (['S','G','M','Z'], ⟨['S','G','M','X'], ['G','B'], Segment, Active⟩),
  (['P','F','X','D'], ⟨['T','R','D','E'], ['G','B'], Segment, Active⟩),
  (['T','R','Q','C'], ⟨['T','R','Q','X'], ['G','B'], Segment, Active⟩),
  (['G','S','B','X'], ⟨['G','S','I','L'], ['G','B'], Segment, Expired⟩),
  (['I','T','G','L'], ⟨['I','T','G','L'], ['I','E'], Operating, Active⟩),
  (['X','A','M','M'], ⟨['X','A','M','M'], ['J','O'], Operating, Active⟩),
  (['A','M','N','L'], ⟨['X','A','M','M'], ['J','O'], Segment, Active⟩),
  (['B','E','T','A'], ⟨['X','B','U','D'], ['H','U'], Segment, Active⟩),
  (['V','F','G','B'], ⟨['V','F','G','B'], ['G','B'], Operating, Active⟩),
  (['V','F','U','K'], ⟨['V','F','U','K'], ['G','B'], Operating, Expired⟩),
  (['S','E','B','L'], ⟨['S','E','B','L'], ['L','T'], Operating, Active⟩),
  (['X','P','O','L'], ⟨['V','I','U','K'], ['G','B'], Segment, Active⟩),
  (['X','P','A','L'], ⟨['V','I','U','K'], ['G','B'], Segment, Active⟩),
  (['V','I','U','K'], ⟨['V','I','U','K'], ['G','B'], Operating, Active⟩),
  (['A','S','P','I'], ⟨['I','N','C','R'], ['U','S'], Segment, Active⟩),
  (['A','S','M','T'], ⟨['I','N','C','R'], ['U','S'], Segment, Active⟩),
  (['A','S','P','N'], ⟨['I','N','C','R'], ['U','S'], Segment, Active⟩),
  (['C','I','S','D'], ⟨['X','N','Y','S'], ['U','S'], Segment, Active⟩),
  (['C','D','S','I'], ⟨['C','S','D','A'], ['D','E'], Segment, Active⟩),
  (['R','E','S','F'], ⟨['E','B','S','N'], ['N','L'], Segment, Active⟩),
  (['E','B','S','F'], ⟨['E','B','S','N'], ['N','L'], Segment, Active⟩),
  (['B','B','S','X'], ⟨['B','B','S','X'], ['G','B'], Operating, Active⟩),
  (['J','L','S','I'], ⟨['J','L','S','I'], ['G','B'], Operating, Expired⟩),
  (['S','C','O','T'], ⟨['S','C','O','T'], ['G','B'], Operating, Active⟩),
  (['X','D','E','X'], ⟨['X','S','T','U'], ['D','E'], Segment, Active⟩),
  (['D','O','W','E'], ⟨['D','O','W','M'], ['E','S'], Segment, Active⟩),
  (['S','P','E','X'], ⟨['S','P','E','X'], ['D','E'], Operating, Active⟩)]

theorem mics2_eq : mics2 = micChars2.map MicChars.entry := (rfl)

/-- iso_10383.rs 396-495. -/
def mics3 : List (String × Mic) := [
  ("IFAD", ⟨"IFAD", "AE", Operating, Active⟩),
  ("JLQD", ⟨"JLQD", "US", Operating, Active⟩),
  ("LAMP", ⟨"LAMP", "US", Operating, Active⟩),
  ("RCMA", ⟨"RCMA", "US", Operating, Active⟩),
  ("WOPO", ⟨"XWAR", "PL", Segment, Expired⟩),
  ("IEBS", ⟨"EBSN", "NL", Segment, Active⟩),
  ("ERIS", ⟨"ERIS", "US", Operating, Expired⟩),
  ("MKTF", ⟨"MKTF", "FR", Operating, Active⟩),
  ("MKAA", ⟨"MTXX", "US", Segment, Active⟩),
  ("XSGB", ⟨"XSGB", "GB", Operating, Active⟩),
  ("YKNA", ⟨"YKNA", "US", Operating, Active⟩),
  ("CGET", ⟨"CGMD", "DE", Segment, Active⟩),
  ("CSDA", ⟨"CSDA", "DE", Operating, Active⟩),
  ("DOWM", ⟨"DOWM", "ES", Operating, Active⟩),
  ("GSXC", ⟨"GSXC", "CN", Operating, Active⟩),
  ("GSXK", ⟨"GSXK", "KR", Operating, Active⟩),
  ("GSXT", ⟨"GSXT", "TW", Operating, Active⟩),
  ("VAGM", ⟨"VAGM", "GB", Operating, Active⟩),
  ("XEUB", ⟨"XETR", "DE", Segment, Expired⟩),
  ("BMCM", ⟨"BMCM", "GB", Operating, Active⟩),
  ("EWSM", ⟨"EWSM", "MT", Operating, Expired⟩),
  ("GXGR", ⟨"GXGR", "DK", Operating, Expired⟩),
  ("GXGM", ⟨"GXGR", "DK", Segment, Expired⟩),
  ("GXGF", ⟨"GXGR", "DK", Segment, Expired⟩),
  ("NSME", ⟨"XNGM", "SE", Segment, Active⟩),
  ("ABFI", ⟨"ABFI", "GR", Operating, Active⟩),
  ("BEUP", ⟨"CCXE", "NL", Segment, Active⟩),
  ("BEUF", ⟨"CCXE", "NL", Segment, Expired⟩),
  ("CEUD", ⟨"CCXE", "NL", Segment, Active⟩),
  ("BEUD", ⟨"CCXE", "NL", Segment, Expired⟩),
  ("CEUX", ⟨"CCXE", "NL", Segment, Active⟩),
  ("CEUO", ⟨"CCXE", "NL", Segment, Active⟩),
  ("BEUE", ⟨"CCXE", "NL", Segment, Expired⟩),
  ("DASH", ⟨"DASH", "US", Operating, Active⟩),
  ("MISX", ⟨"MISX", "RU", Operating, Active⟩),
  ("XBND", ⟨"XBUD", "HU", Segment, Active⟩),
  ("BLKX", ⟨"XINS", "US", Segment, Active⟩),
  ("PLPD", ⟨"XWAR", "PL", Segment, Active⟩),
  ("BAJD", ⟨"BAJD", "JP", Operating, Active⟩),
  ("NMSX", ⟨"NMRJ", "JP", Segment, Active⟩),
  ("XLOD", ⟨"XLON", "GB", Segment, Expired⟩),
  ("LAFX", ⟨"LAVA", "US", Segment, Expired⟩),
  ("NEOE", ⟨"NEOE", "CA", Operating, Active⟩),
  ("NEOD", ⟨"NEOE", "CA", Segment, Active⟩),
  ("NEON", ⟨"NEOE", "CA", Segment, Active⟩),
  ("NEOC", ⟨"NEOE", "CA", Segment, Active⟩),
  ("TRPX", ⟨"TRPX", "SC", Operating, Active⟩),
  ("KOME", ⟨"KOME", "CZ", Operating, Active⟩),
  ("TRCX", ⟨"TRCX", "US", Operating, Active⟩),
  ("ERBX", ⟨"ERBX", "GR", Operating, Active⟩),
  ("FLTR", ⟨"FLWX", "NL", Segment, Active⟩),
  ("IBER", ⟨"IBER", "ES", Operating, Active⟩),
  ("ALLT", ⟨"ALLT", "ES", Operating, Active⟩),
  ("BATE", ⟨"BCXE", "GB", Segment, Active⟩),
  ("BATF", ⟨"BCXE", "GB", Segment, Active⟩),
  ("BATD", ⟨"BCXE", "GB", Segment, Active⟩),
  ("BILU", ⟨"BILU", "LU", Operating, Active⟩),
  ("BTQE", ⟨"BTAM", "NL", Segment, Active⟩),
  ("BTQG", ⟨"BTEE", "GB", Segment, Active⟩),
  ("CBSK", ⟨"CBSK", "SK", Operating, Active⟩),
  ("CODA", ⟨"CODA", "US", Operating, Active⟩),
  ("PDQX", ⟨"PDQX", "US", Operating, Expired⟩),
  ("SMBD", ⟨"SMBD", "DE", Operating, Active⟩),
  ("STFL", ⟨"STFL", "GB", Operating, Active⟩),
  ("XALT", ⟨"XALT", "GB", Operating, Active⟩),
  ("EBRA", ⟨"XBRA", "SK", Segment, Active⟩),
  ("XCAN", ⟨"XBSE", "RO", Segment, Active⟩),
  ("XRMO", ⟨"XRMZ", "CZ", Segment, Active⟩),
  ("XNCO", ⟨"XWAR", "PL", Segment, Active⟩),
  ("KNMX", ⟨"KNIG", "US", Segment, Expired⟩),
  ("SAGE", ⟨"SAGE", "US", Operating, Active⟩),
  ("ARCH", ⟨"ARCH", "GB", Operating, Active⟩),
  ("EXPM", ⟨"OTCM", "US", Segment, Active⟩),
  ("TNLK", ⟨"XBRU", "BE", Segment, Active⟩),
  ("XDRK", ⟨"XTSE", "CA", Segment, Active⟩),
  ("VDRK", ⟨"XTSX", "CA", Segment, Active⟩),
  ("GFPO", ⟨"AURB", "FR", Segment, Active⟩),
  ("JPMS", ⟨"JPMS", "US", Operating, Active⟩),
  ("SNUK", ⟨"SNUK", "GB", Operating, Active⟩),
  ("ARKX", ⟨"ARKX", "US", Operating, Active⟩),
  ("PUMX", ⟨"PUMA", "US", Segment, Active⟩),
  ("SVXI", ⟨"SVXI", "VC", Operating, Active⟩),
  ("VWDA", ⟨"VWDX", "DE", Segment, Active⟩),
  ("XALS", ⟨"XALS", "AL", Operating, Active⟩),
  ("BGFU", ⟨"BGUK", "GB", Segment, Active⟩),
  ("CGMG", ⟨"CGMG", "GB", Operating, Active⟩),
  ("PUMA", ⟨"PUMA", "US", Operating, Active⟩),
  ("MCZK", ⟨"XMTS", "GB", Segment, Expired⟩),
  ("HUNG", ⟨"XMTS", "GB", Segment, Expired⟩),
  ("EMTS", ⟨"XMTS", "GB", Segment, Expired⟩),
  ("MTSA", ⟨"XMTS", "GB", Segment, Expired⟩),
  ("GMTS", ⟨"XMTS", "GB", Segment, Expired⟩),
  ("MTSG", ⟨"XMTS", "GB", Segment, Expired⟩),
  ("IMTS", ⟨"XMTS", "GB", Segment, Expired⟩),
  ("RMTS", ⟨"XMTS", "GB", Segment, Expired⟩),
  ("AMTS", ⟨"XMTS", "GB", Segment, Expired⟩),
  ("PORT", ⟨"XMTS", "GB", Segment, Expired⟩),
  ("SLKK", ⟨"XMTS", "GB", Segment, Expired⟩),
  ("VMTS", ⟨"XMTS", "GB", Segment, Expired⟩),
  ("SMTS", ⟨"XMTS", "GB", Segment, Expired⟩)]

/-- The same entries with their strings spelt out. -/
def micChars3 : List (List Char × MicChars) := [
  (['I','F','A','D'], ⟨['I','F','A','D'], ['A','E'], Operating, Active⟩),
  (['J','L','Q','D'], ⟨['J','L','Q','D'], ['U','S'], Operating, Active⟩),
  (['L','A','M','P'], ⟨['L','A','M','P'], ['U','S'], Operating, Active⟩),
  (['R','C','M','A'], ⟨['R','C','M','A'], ['U','S'], Operating, Active⟩),
  (['W','O','P','O'], ⟨['X','W','A','R'], ['P','L'], Segment, Expired⟩),
  (['I','E','B','S'], ⟨['E','B','S','N'], ['N','L'], Segment, Active⟩),
  (['E','R','I','S'], ⟨['E','R','I','S'], ['U','S'], Operating, Expired⟩),
  (['M','K','T','F'], ⟨['M','K','T','F'], ['F','R'], Operating, Active⟩),
  (['M','K','A','A'], ⟨['M','T','X','X'], ['U','S'], Segment, Active⟩),
  (['X','S','G','B'], ⟨['X','S','G','B'], ['G','B'], Operating, Active⟩),
  (['Y','K','N','A'], ⟨['Y','K','N','A'], ['U','S'], Operating, Active⟩),
  (['C','G','E','T'], ⟨['C','G','M','D'], ['D','E'], Segment, Active⟩),
  (['C','S','D','A'], ⟨['C','S','D','A'], ['D','E'], Operating, Active⟩),
  (['D','O','W','M'], ⟨['D','O','W','M'], ['E','S'], Operating, Active⟩),
  (['G','S','X','C'], ⟨['G','S','X','C'], ['C','N'], Operating, Active⟩),
  (['G','S','X','K'], ⟨['G','S','X','K'], ['K','R'], Operating, Active⟩),
  (['G','S','X','T'], ⟨['G','S','X','T'], ['T','W'], Operating, Active⟩),
  (['V','A','G','M'], ⟨['V','A','G','M'], ['G','B'], Operating, Active⟩),
  (['X','E','U','B'], ⟨['X','E','T','R'], ['D','E'], Segment, Expired⟩),
  (['B','M','C','M'], ⟨['B','M','C','M'], ['G','B'], Operating, Active⟩),
  (['E','W','S','M'], ⟨['E','W','S','M'], ['M','T'], Operating, Expired⟩),
  (['G','X','G','R'], ⟨['G','X','G','R'], ['D','K'], Operating, Expired⟩),
  (['G','X','G','M'], ⟨['G','X','G','R'], ['D','K'], Segment, Expired⟩),
  (['G','X','G','F'], ⟨['G','X','G','R'], ['D','K'], Segment, Expired⟩),
  (['N','S','M','E'], ⟨['X','N','G','M'], ['S','E'], Segment, Active⟩),
  (['A','B','F','I'], ⟨['A','B','F','I'], ['G','R'], Operating, Active⟩),
  (['B','E','U','P'], ⟨['C','C','X','E'], ['N','L'], Segment, Active⟩),
  (['B','E','U','F'], ⟨['C','C','X','E'], ['N','L'], Segment, Expired⟩),
  (['C','E','U','D'], ⟨['C','C','X','E'], ['N','L'], Segment, Active⟩),
  (['B','E','U','D'], ⟨['C','C','X','E'], ['N','L'], Segment, Expired⟩),
  (['C','E','U','X'], ⟨['C','C','X','E'], ['N','L'], Segment, Active⟩),
  (['C','E','U','O'], ⟨['C','C','X','E'], ['N','L'], Segment, Active⟩),
  (['B','E','U','E'], ⟨['C','C','X','E'], ['N','L'], Segment, Expired⟩),
  (['D','A','S','H'], ⟨['D','A','S','H'], ['U','S'], Operating, Active⟩),
  (['M','I','S','X'], ⟨['M','I','S','X'], ['R','U'], Operating, Active⟩),
  (['X','B','N','D'], ⟨['X','B','U','D'], ['H','U'], Segment, Active⟩),
  (['B','L','K','X'], ⟨['X','I','N','S'], ['U','S'], Segment, Active⟩),
  (['P','L','P','D'], ⟨['X','W','A','R'], ['P','L'], Segment, Active⟩),
  (['B','A','J','D'], ⟨['B','A','J','D'], ['J','P'], Operating, Active⟩),
  (['N','M','S','X'], ⟨['N','M','R','J'], ['J','P'], Segment, Active⟩),
  (['X','L','O','D'], ⟨['X','L','O','N'], ['G','B'], Segment, Expired⟩),
  (['L','A','F','X'], ⟨['L','A','V','A'], ['U','S'], Segment, Expired⟩),
  (['N','E','O','E'], ⟨['N','E','O','E'], ['C','A'], Operating, Active⟩),
  (['N','E','O','D'], ⟨['N','E','O','E'], ['C','A'], Segment, Active⟩),
  (['N','E','O','N'], ⟨['N','E','O','E'], ['C','A'], Segment, Active⟩),
  (['N','E','O','C'], ⟨['N','E','O','E'], ['C','A'], Segment, Active⟩),
  (['T','R','P','X'], ⟨['T','R','P','X'], ['S','C'], Operating, Active⟩),
  (['K','O','M','E'], ⟨['K','O','M','E'], ['C','Z'], Operating, Active⟩),
  (['T','R','C','X'], ⟨['T','R','C','X'], ['U','S'], Operating, Active⟩),
  (['E','R','B','X'], ⟨['E','R','B','X'], ['G','R'], Operating, Active⟩),
  (['F','L','T','R'], ⟨['F','L','W','X'], ['N','L'], Segment, Active⟩),
  (['I','B','E','R'], ⟨['I','B','E','R'], ['E','S'], Operating, Active⟩),
  (['A','L','L','T'], ⟨['A','L','L','T'], ['E','S'], Operating, Active⟩),
  (['B','A','T','E'], ⟨['B','C','X','E'], ['G','B'], Segment, Active⟩),
  (['B','A','T','F'], ⟨['B','C','X','E'], ['G','B'], Segment, Active⟩),
  (['B','A','T','D'], ⟨['B','C','X','E'], ['G','B'], Segment, Active⟩),
  (['B','I','L','U'], ⟨['B','I','L','U'], ['L','U'], Operating, Active⟩),
  (['B','T','Q','E'], ⟨['B','T','A','M'], ['N','L'], Segment, Active⟩),
  (['B','T','Q','G'], ⟨['B','T','E','E'], ['G','B'], Segment, Active⟩),
  (['C','B','S','K'], ⟨['C','B','S','K'], ['S','K'], Operating, Active⟩),
  (['C','O','D','A'], ⟨['C','O','D','A'], ['U','S'], Operating, Active⟩),
  (['P','D','Q','X'], ⟨['P','D','Q','X'], ['U','S'], Operating, Expired⟩),
  (['S','M','B','D'], ⟨['S','M','B','D'], ['D','E'], Operating, Active⟩),
  (['S','T','F','L'], ⟨['S','T','F','L'], ['G','B'], Operating, Active⟩),
  (['X','A','L','T'], ⟨['X','A','L','T'], ['G','B'], Operating, Active⟩),
  (['E','B','R','A'], ⟨['X','B','R','A'], ['S','K'], Segment, Active⟩),
  (['X','C','A','N'], ⟨['X','B','S','E'], ['R','O'], Segment, Active⟩),
  (['X','R','M','O'], ⟨['X','R','M','Z'], ['C','Z'], Segment, Active⟩),
  (['X','N','C','O'], ⟨['X','W','A','R'], ['P','L'], Segment, Active⟩),
  (['K','N','M','X'], ⟨['K','N','I','G'], ['U','S'], Segment, Expired⟩),
  (['S','A','G','E'], ⟨['S','A','G','E'], ['U','S'], Operating, Active⟩),
  (['A','R','C','H'], ⟨['A','R','C','H'], ['G','B'], Operating, Active⟩),
  (['E','X','P','M'], ⟨['O','T','C','M'], ['U','S'], Segment, Active⟩),
  (['T','N','L','K'], ⟨['X','B','R','U'], ['B','E'], Segment, Active⟩),
  (['X','D','R','K'], ⟨['X','T','S','E'], ['C','A'], Segment, Active⟩),
  (['V','D','R','K'], ⟨['X','T','S','X'], ['C','A'], Segment, Active⟩),
  (['G','F','P','O'], ⟨['A','U','R','B'], ['F','R'], Segment, Active⟩),
  (['J','P','M','S'], ⟨['J','P','M','S'], ['U','S'], Operating, Active⟩),
  (['S','N','U','K'], ⟨['S','N','U','K'], ['G','B'], Operating, Active⟩),
  (['A','R','K','X'], ⟨['A','R','K','X'], ['U','S'], Operating, Active⟩),
  (['P','U','M','X'], ⟨['P','U','M','A'], ['U','S'], Segment, Active⟩),
  (['S','V','X','I'], ⟨['S','V','X','I'], ['V','C'], Operating, Active⟩),
  (['V','W','D','A'], ⟨['V','W','D','X'], ['D','E'], Segment, Active⟩),
  (['X','A','L','S'], ⟨['X','A','L','S'], ['A','L'], Operating, Active⟩),
  (['B','G','F','U'], ⟨['B','G','U','K'], ['G','B'], Segment, Active⟩),
  (['C','G','M','G'], ⟨['C','G','M','G'], ['G','B'], Operating, Active⟩),
  (['P','U','M','A'], ⟨['P','U','M','A'], ['U','S'], Operating, Active⟩),
  (['M','C','Z','K'], ⟨['X','M','T','S'], ['G','B'], Segment, Expired⟩),
  (['H','U','N','G'], ⟨['X','M','T','S'], ['G','B'], Segment, Expired⟩),
  (['E','M','T','S'], ⟨['X','M','T','S'], ['G','B'], Segment, Expired⟩),
  (['M','T','S','A'], ⟨['X','M','T','S'], ['G','B'], Segment, Expired⟩),
  (['G','M','T','S'], ⟨['X','M','T','S'], ['G','B'], Segment, Expired⟩),
  (['M','T','S','G'], ⟨['X','M','T','S'], ['G','B'], Segment, Expired⟩),
  (['I','M','T','S'], ⟨['X','M','T','S'], ['G','B'], Segment, Expired⟩),
  (['R','M','T','S'], ⟨['X','M','T','S'], ['G','B'], Segment, Expired⟩),
  (['A','M','T','S'], ⟨['X','M','T','S'], ['G','B'], Segment, Expired⟩),
  (['P','O','R','T'], ⟨['X','M','T','S'], ['G','B'], Segment, Expired⟩),
  (['S','L','K','K'], ⟨['X','M','T','S'], ['G','B'], Segment, Expired⟩),
  (['V','M','T','S'], ⟨['X','M','T','S'], ['G','B'], Segment, Expired⟩),
  (['S','M','T','S'], ⟨['X','M','T','S'], ['G','B'], Segment, Expired⟩)]

theorem mics3_eq : mics3 = micChars3.map MicChars.entry := (rfl)

/-- iso_10383.rs 496-595. -/
def mics4 : List (String × Mic) := [
  ("EBHU", ⟨"EBHU", "HU", Operating, Active⟩),
  ("EBSI", ⟨"EBSN", "NL", Segment, Expired⟩),
  ("RESE", ⟨"EBSN", "NL", Segment, Expired⟩),
  ("EBSD", ⟨"EBSN", "NL", Segment, Expired⟩),
  ("EUSP", ⟨"EUCH", "CH", Segment, Expired⟩),
  ("EUCH", ⟨"EUCH", "CH", Operating, Expired⟩),
  ("EURM", ⟨"EUCH", "CH", Segment, Expired⟩),
  ("EUSC", ⟨"EUCH", "CH", Segment, Expired⟩),
  ("FNUK", ⟨"FNUK", "GB", Operating, Active⟩),
  ("XMFX", ⟨"BMEX", "ES", Segment, Active⟩),
  ("TRFW", ⟨"RTSL", "GB", Segment, Active⟩),
  ("UCHU", ⟨"UCHU", "HU", Operating, Active⟩),
  ("CBNL", ⟨"CBNL", "GB", Operating, Active⟩),
  ("FTUS", ⟨"FTUS", "US", Operating, Active⟩),
  ("TEEG", ⟨"TPSO", "GB", Segment, Expired⟩),
  ("BGUK", ⟨"BGUK", "GB", Operating, Active⟩),
  ("CLVE", ⟨"CLVE", "GB", Operating, Active⟩),
  ("NLAX", ⟨"CPGX", "US", Segment, Active⟩),
  ("CPGX", ⟨"CPGX", "US", Operating, Active⟩),
  ("CEPL", ⟨"CEPL", "IE", Operating, Active⟩),
  ("CEPU", ⟨"CEPU", "GB", Operating, Active⟩),
  ("DBAB", ⟨"DBAB", "US", Operating, Active⟩),
  ("OTCN", ⟨"OTCN", "US", Operating, Active⟩),
  ("RTSL", ⟨"RTSL", "GB", Operating, Active⟩),
  ("TRAL", ⟨"RTSL", "GB", Segment, Updated⟩),
  ("TDGF", ⟨"TDGF", "IE", Operating, Active⟩),
  ("UBSB", ⟨"UBSB", "GB", Operating, Active⟩),
  ("UBSD", ⟨"UBSD", "DE", Operating, Expired⟩),
  ("UBSE", ⟨"UBSL", "GB", Segment, Expired⟩),
  ("UBSI", ⟨"UBSL", "DE", Segment, Active⟩),
  ("UBSL", ⟨"UBSL", "DE", Operating, Active⟩),
  ("WBGF", ⟨"XWBO", "AT", Segment, Expired⟩),
  ("XETV", ⟨"XETR", "DE", Segment, Active⟩),
  ("XETW", ⟨"XETR", "DE", Segment, Active⟩),
  ("XETU", ⟨"XETR", "DE", Segment, Active⟩),
  ("FRAV", ⟨"XFRA", "DE", Segment, Active⟩),
  ("FRAW", ⟨"XFRA", "DE", Segment, Active⟩),
  ("FRAU", ⟨"XFRA", "DE", Segment, Active⟩),
  ("BFPT", ⟨"BFPT", "PT", Operating, Active⟩),
  ("CONC", ⟨"CONC", "HU", Operating, Active⟩),
  ("IFBX", ⟨"IFBX", "IR", Operating, Active⟩),
  ("IPXW", ⟨"IPSX", "GB", Segment, Active⟩),
  ("ZERO", ⟨"SCXO", "US", Segment, Active⟩),
  ("SCXS", ⟨"SCXO", "US", Segment, Active⟩),
  ("SCXO", ⟨"SCXO", "US", Operating, Active⟩),
  ("SCXM", ⟨"SCXO", "US", Segment, Active⟩),
  ("SYFX", ⟨"SYFX", "SG", Operating, Active⟩),
  ("SSIL", ⟨"SSIL", "GB", Operating, Active⟩),
  ("TPIR", ⟨"TPIC", "FR", Segment, Active⟩),
  ("XCHI", ⟨"XNYS", "US", Segment, Active⟩),
  ("XCIS", ⟨"XNYS", "US", Segment, Active⟩),
  ("MANL", ⟨"MANL", "NL", Operating, Active⟩),
  ("CELP", ⟨"CSOB", "CZ", Segment, Active⟩),
  ("BETX", ⟨"BETX", "GB", Operating, Active⟩),
  ("BTLX", ⟨"BTLX", "GB", Operating, Active⟩),
  ("CCEX", ⟨"CCEX", "KZ", Operating, Active⟩),
  ("ZBUL", ⟨"XBUL", "BG", Segment, Active⟩),
  ("IMSB", ⟨"ICPM", "GB", Segment, Active⟩),
  ("AQEU", ⟨"AQEU", "FR", Operating, Active⟩),
  ("AQEA", ⟨"AQEU", "FR", Segment, Active⟩),
  ("AQXA", ⟨"AQXE", "GB", Segment, Active⟩),
  ("AQXE", ⟨"AQXE", "GB", Operating, Active⟩),
  ("BKDM", ⟨"BKDM", "IE", Operating, Active⟩),
  ("BNLD", ⟨"BNLD", "IT", Operating, Active⟩),
  ("CAVD", ⟨"CAVD", "NL", Operating, Active⟩),
  ("GIPB", ⟨"GIPB", "FR", Operating, Active⟩),
  ("GSPX", ⟨"GIPB", "FR", Segment, Active⟩),
  ("ICPM", ⟨"ICPM", "GB", Operating, Active⟩),
  ("IMGI", ⟨"ICPM", "GB", Segment, Active⟩),
  ("IMRD", ⟨"ICPM", "GB", Segment, Active⟩),
  ("IMET", ⟨"ICPM", "GB", Segment, Active⟩),
  ("IMGB", ⟨"ICPM", "GB", Segment, Active⟩),
  ("IMMM", ⟨"ICPM", "GB", Segment, Active⟩),
  ("IMFD", ⟨"ICPM", "GB", Segment, Active⟩),
  ("IMCE", ⟨"ICPM", "GB", Segment, Active⟩),
  ("IMED", ⟨"ICPM", "GB", Segment, Active⟩),
  ("JLEU", ⟨"JLEU", "NL", Operating, Active⟩),
  ("SMFF", ⟨"SMFF", "DE", Operating, Active⟩),
  ("SPTR", ⟨"SPTR", "NO", Operating, Active⟩),
  ("ELXE", ⟨"ELXE", "FR", Operating, Active⟩),
  ("SCAG", ⟨"SCAG", "DE", Operating, Active⟩),
  ("SGAS", ⟨"SGAS", "US", Operating, Active⟩),
  ("SMFE", ⟨"SMFE", "US", Operating, Active⟩),
  ("TRXE", ⟨"TRXE", "FR", Operating, Active⟩),
  ("JBUL", ⟨"XBUL", "BG", Segment, Active⟩),
  ("MHBE", ⟨"MHBE", "NL", Operating, Active⟩),
  ("CSGI", ⟨"CSGI", "IE", Operating, Active⟩),
  ("EUCC", ⟨"EUCC", "IE", Operating, Active⟩),
  ("BLEQ", ⟨"BLBB", "DE", Segment, Active⟩),
  ("BREA", ⟨"BREA", "IT", Operating, Active⟩),
  ("MCAD", ⟨"MTSO", "IT", Segment, Active⟩),
  ("EBMX", ⟨"MTSO", "IT", Segment, Active⟩),
  ("ENXB", ⟨"XBRU", "BE", Segment, Expired⟩),
  ("XMSM", ⟨"XDUB", "IE", Segment, Active⟩),
  ("XESM", ⟨"XDUB", "IE", Segment, Active⟩),
  ("UKGD", ⟨"XMTS", "GB", Segment, Active⟩),
  ("XTXE", ⟨"XTXE", "FR", Operating, Active⟩),
  ("BLUE", ⟨"BLUE", "US", Operating, Active⟩),
  ("BTAM", ⟨"BTAM", "NL", Operating, Active⟩),
  ("CABV", ⟨"CABV", "NL", Operating, Active⟩)]

/-- The same entries with their strings spelt out. -/
def micChars4 : List (List Char × MicChars) := [
  (['E','B','H','U'], ⟨['E','B','H','U'], ['H','U'], Operating, Active⟩),
  (['E','B','S','I'], ⟨['E','B','S','N'], ['N','L'], Segment, Expired⟩),
  (['R','E','S','E'], ⟨['E','B','S','N'], ['N','L'], Segment, Expired⟩),
  (['E','B','S','D'], ⟨['E','B','S','N'], ['N','L'], Segment, Expired⟩),
  (['E','U','S','P'], ⟨['E','U','C','H'], ['C','H'], Segment, Expired⟩),
  (['E','U','C','H'], ⟨['E','U','C','H'], ['C','H'], Operating, Expired⟩),
  (['E','U','R','M'], ⟨['E','U','C','H'], ['C','H'], Segment, Expired⟩),
  (['E','U','S','C'], ⟨['E','U','C','H'], ['C','H'], Segment, Expired⟩),
  (['F','N','U','K'], ⟨['F','N','U','K'], ['G','B'], Operating, Active⟩),
  (['X','M','F','X'], ⟨['B','M','E','X'], ['E','S'], Segment, Active⟩),
  (['T','R','F','W'], ⟨['R','T','S','L'], ['G','B'], Segment, Active⟩),
  (['U','C','H','U'], ⟨['U','C','H','U'], ['H','U'], Operating, Active⟩),
  (['C','B','N','L'], ⟨['C','B','N','L'], ['G','B'], Operating, Active⟩),
  (['F','T','U','S'], ⟨['F','T','U','S'], ['U','S'], Operating, Active⟩),
  (['T','E','E','G'], ⟨['T','P','S','O'], ['G','B'], Segment, Expired⟩),
  (['B','G','U','K'], ⟨['B','G','U','K'], ['G','B'], Operating, Active⟩),
  (['C','L','V','E'], ⟨['C','L','V','E'], ['G','B'], Operating, Active⟩),
  (['N','L','A','X'], ⟨['C','P','G','X'], ['U','S'], Segment, Active⟩),
  (['C','P','G','X'], ⟨['C','P','G','X'], ['U','S'], Operating, Active⟩),
  (['C','E','P','L'], ⟨['C','E','P','L'], ['I','E'], Operating, Active⟩),
  (['C','E','P','U'], ⟨['C','E','P','U'], ['G','B'], Operating, Active⟩),
  (['D','B','A','B'], ⟨['D','B','A','B'], ['U','S'], Operating, Active⟩),
  (['O','T','C','N'], ⟨['O','T','C','N'], ['U','S'], Operating, Active⟩),
  (['R','T','S','L'], ⟨['R','T','S','L'], ['G','B'], Operating, Active⟩),
  (['T','R','A','L'], ⟨['R','T','S','L'], ['G','B'], Segment, Updated⟩),
  (['T','D','G','F'], ⟨['T','D','G','F'], ['I','E'], Operating, Active⟩),
  (['U','B','S','B'], ⟨['U','B','S','B'], ['G','B'], Operating, Active⟩),
  (['U','B','S','D'], ⟨['U','B','S','D'], ['D','E'], Operating, Expired⟩),
  (['U','B','S','E'], ⟨['U','B','S','L'], ['G','B'], Segment, Expired⟩),
  (['U','B','S','I'], ⟨['U','B','S','L'], ['D','E'], Segment, Active⟩),
  (['U','B','S','L'], ⟨['U','B','S','L'], ['D','E'], Operating, Active⟩),
  (['W','B','G','F'], ⟨['X','W','B','O'], ['A','T'], Segment, Expired⟩),
  (['X','E','T','V'], ⟨['X','E','T','R'], ['D','E'], Segment, Active⟩),
  (['X','E','T','W'], ⟨['X','E','T','R'], ['D','E'], Segment, Active⟩),
  (['X','E','T','U'], ⟨['X','E','T','R'], ['D','E'], Segment, Active⟩),
  (['F','R','A','V'], ⟨['X','F','R','A'], ['D','E'], Segment, Active⟩),
  (['F','R','A','W'], ⟨['X','F','R','A'], ['D','E'], Segment, Active⟩),
  (['F','R','A','U'], ⟨['X','F','R','A'], ['D','E'], Segment, Active⟩),
  (['B','F','P','T'], ⟨['B','F','P','T'], ['P','T'], Operating, Active⟩),
  (['C','O','N','C'], ⟨['C','O','N','C'], ['H','U'], Operating, Active⟩),
  (['I','F','B','X'], ⟨['I','F','B','X'], ['I','R'], Operating, Active⟩),
  (['I','P','X','W'], ⟨['I','P','S','X'], ['G','B'], Segment, Active⟩),
  (['Z','E','R','O'], ⟨['S','C','X','O'], ['U','S'], Segment, Active⟩),
  (['S','C','X','S'], ⟨['S','C','X','O'], ['U','S'], Segment, Active⟩),
  (['S','C','X','O'], ⟨['S','C','X','O'], ['U','S'], Operating, Active⟩),
  (['S','C','X','M'], ⟨['S','C','X','O'], ['U','S'], Segment, Active⟩),
  (['S','Y','F','X'], ⟨['S','Y','F','X'], ['S','G'], Operating, Active⟩),
  (['S','S','I','L'], ⟨['S','S','I','L'], ['G','B'], Operating, Active⟩),
  (['T','P','I','R'], ⟨['T','P','I','C'], ['F','R'], Segment, Active⟩),
  (['X','C','H','I'], ⟨['X','N','Y','S'], ['U','S'], Segment, Active⟩),
  (['X','C','I','S'], ⟨['X','N','Y','S'], ['U','S'], Segment, Active⟩),
  (['M','A','N','L'], ⟨['M','A','N','L'], ['N','L'], Operating, Active⟩),
  (['C','E','L','P'], ⟨['C','S','O','B'], ['C','Z'], Segment, Active⟩),
  (['B','E','T','X'], ⟨['B','E','T','X'], ['G','B'], Operating, Active⟩),
  (['B','T','L','X'], ⟨['B','T','L','X'], ['G','B'], Operating, Active⟩),
  (['C','C','E','X'], ⟨['C','C','E','X'], ['K','Z'], Operating, Active⟩),
  (['Z','B','U','L'], ⟨['X','B','U','L'], ['B','G'], Segment, Active⟩),
  (['I','M','S','B'], ⟨['I','C','P','M'], ['G','B'], Segment, Active⟩),
  (['A','Q','E','U'], ⟨['A','Q','E','U'], ['F','R'], Operating, Active⟩),
  (['A','Q','E','A'], ⟨['A','Q','E','U'], ['F','R'], Segment, Active⟩),
  (['A','Q','X','A'], ⟨['A','Q','X','E'], ['G','B'], Segment, Active⟩),
  (['A','Q','X','E'], ⟨['A','Q','X','E'], ['G','B'], Operating, Active⟩),
  (['B','K','D','M'], ⟨['B','K','D','M'], ['I','E'], Operating, Active⟩),
  (['B','N','L','D'], ⟨['B','N','L','D'], ['I','T'], Operating, Active⟩),
  (['C','A','V','D'], ⟨['C','A','V','D'], ['N','L'], Operating, Active⟩),
  (['G','I','P','B'], ⟨['G','I','P','B'], ['F','R'], Operating, Active⟩),
  (['G','S','P','X'], ⟨['G','I','P','B'], ['F','R'], Segment, Active⟩),
  (['I','C','P','M'], ⟨['I','C','P','M'], ['G','B'], Operating, Active⟩),
  (['I','M','G','I'], ⟨['I','C','P','M'], ['G','B'], Segment, Active⟩),
  (['I','M','R','D'], ⟨['I','C','P','M'], ['G','B'], Segment, Active⟩),
  (['I','M','E','T'], ⟨['I','C','P','M'], ['G','B'], Segment, Active⟩),
  (['I','M','G','B'], ⟨['I','C','P','M'], ['G','B'], Segment, Active⟩),
  (['I','M','M','M'], ⟨['I','C','P','M'], ['G','B'], Segment, Active⟩),
  (['I','M','F','D'], ⟨['I','C','P','M'], ['G','B'], Segment, Active⟩),
  (['I','M','C','E'], ⟨['I','C','P','M'], ['G','B'], Segment, Active⟩),
  (['I','M','E','D'], ⟨['I','C','P','M'], ['G','B'], Segment, Active⟩),
  (['J','L','E','U'], ⟨['J','L','E','U'], ['N','L'], Operating, Active⟩),
  (['S','M','F','F'], ⟨['S','M','F','F'], ['D','E'], Operating, Active⟩),
  (['S','P','T','R'], ⟨['S','P','T','R'], ['N','O'], Operating, Active⟩),
  (['E','L','X','E'], ⟨['E','L','X','E'], ['F','R'], Operating, Active⟩),
  (['S','C','A','G'], ⟨['S','C','A','G'], ['D','E'], Operating, Active⟩),
  (['S','G','A','S'], ⟨['S','G','A','S'], ['U','S'], Operating, Active⟩),
  (['S','M','F','E'], ⟨['S','M','F','E'], ['U','S'], Operating, Active⟩),
  (['T','R','X','E'], ⟨['T','R','X','E'], ['F','R'], Operating, Active⟩),
  (['J','B','U','L'], ⟨['X','B','U','L'], ['B','G'], Segment, Active⟩),
  (['M','H','B','E'], ⟨['M','H','B','E'], ['N','L'], Operating, Active⟩),
  (['C','S','G','I'], ⟨['C','S','G','I'], ['I','E'], Operating, Active⟩),
  (['E','U','C','C'], ⟨['E','U','C','C'], ['I','E'], Operating, Active⟩),
  (['B','L','E','Q'], ⟨['B','L','B','B'], ['D','E'], Segment, Active⟩),
  (['B','R','E','A'], ⟨['B','R','E','A'], ['I','T'], Operating, Active⟩),
  (['M','C','A','D'], ⟨['M','T','S','O'], ['I','T'], Segment, Active⟩),
  (['E','B','M','X'], ⟨['M','T','S','O'], ['I','T'], Segment, Active⟩),
  (['E','N','X','B'], ⟨['X','B','R','U'], ['B','E'], Segment, Expired⟩),
  (['X','M','S','M'], ⟨['X','D','U','B'], ['I','E'], Segment, Active⟩),
  (['X','E','S','M'], ⟨['X','D','U','B'], ['I','E'], Segment, Active⟩),
  (['U','K','G','D'], ⟨['X','M','T','S'], ['G','B'], Segment, Active⟩),
  (['X','T','X','E'], ⟨['X','T','X','E'], ['F','R'], Operating, Active⟩),
  (['B','L','U','E'], ⟨['B','L','U','E'], ['U','S'], Operating, Active⟩),
  (['B','T','A','M'], ⟨['B','T','A','M'], ['N','L'], Operating, Active⟩),
  (['C','A','B','V'], ⟨['C','A','B','V'], ['N','L'], Operating, Active⟩)]

theorem mics4_eq : mics4 = micChars4.map MicChars.entry := (rfl)

/-- iso_10383.rs 596-695. -/
def mics5 : List (String × Mic) := [
  ("RFBK", ⟨"RFBK", "CZ", Operating, Active⟩),
  ("TOWR", ⟨"TOWR", "NL", Operating, Active⟩),
  ("GBUL", ⟨"XBUL", "BG", Segment, Active⟩),
  ("BPAS", ⟨"BPAS", "IT", Operating, Expired⟩),
  ("FLWX", ⟨"FLWX", "NL", Operating, Active⟩),
  ("TNLL", ⟨"XLDN", "GB", Segment, Expired⟩),
  ("BLUX", ⟨"BLUX", "LU", Operating, Active⟩),
  ("DBLX", ⟨"DBLX", "LU", Operating, Active⟩),
  ("DHLX", ⟨"DHLX", "LU", Operating, Active⟩),
  ("KHHU", ⟨"KHHU", "HU", Operating, Active⟩),
  ("MCID", ⟨"MCID", "IE", Operating, Active⟩),
  ("NCME", ⟨"NCME", "DE", Operating, Active⟩),
  ("TRQM", ⟨"TRQX", "GB", Segment, Active⟩),
  ("XBLK", ⟨"XPAR", "FR", Segment, Active⟩),
  ("IPNL", ⟨"IPNL", "NL", Operating, Expired⟩),
  ("ISWO", ⟨"ISWP", "NL", Segment, Active⟩),
  ("ISWP", ⟨"ISWP", "NL", Operating, Active⟩),
  ("ISWN", ⟨"ISWP", "NL", Segment, Active⟩),
  ("ISWT", ⟨"ISWP", "NL", Segment, Active⟩),
  ("MSEL", ⟨"MSEL", "IE", Operating, Active⟩),
  ("NCML", ⟨"NCML", "GB", Operating, Active⟩),
  ("FXRQ", ⟨"RMTF", "IE", Segment, Active⟩),
  ("FXFM", ⟨"RMTF", "IE", Segment, Active⟩),
  ("PBUL", ⟨"XBUL", "BG", Segment, Active⟩),
  ("XPUK", ⟨"XPUK", "GB", Operating, Active⟩),
  ("CSAG", ⟨"CSAG", "CH", Operating, Active⟩),
  ("XETF", ⟨"XPAR", "FR", Segment, Active⟩),
  ("GSEI", ⟨"GSBE", "DE", Segment, Active⟩),
  ("GSBE", ⟨"GSBE", "DE", Operating, Active⟩),
  ("HREU", ⟨"HREU", "IE", Operating, Active⟩),
  ("STSI", ⟨"STSI", "GB", Operating, Expired⟩),
  ("CREM", ⟨"CREM", "IT", Operating, Active⟩),
  ("DWFI", ⟨"DWFI", "US", Operating, Active⟩),
  ("BNPP", ⟨"BNPP", "PL", Operating, Active⟩),
  ("CBKC", ⟨"CBKA", "DE", Segment, Active⟩),
  ("CIBH", ⟨"CIBH", "HU", Operating, Active⟩),
  ("CSMD", ⟨"CSMD", "ES", Operating, Active⟩),
  ("SIMD", ⟨"CSMD", "ES", Segment, Active⟩),
  ("GMES", ⟨"GMES", "FR", Operating, Active⟩),
  ("GMEO", ⟨"GMES", "FR", Segment, Active⟩),
  ("KBLC", ⟨"KBLL", "LU", Segment, Active⟩),
  ("KBLS", ⟨"KBLL", "LU", Segment, Active⟩),
  ("KBLT", ⟨"KBLL", "LU", Segment, Active⟩),
  ("KBLL", ⟨"KBLL", "LU", Operating, Active⟩),
  ("MHBP", ⟨"MHBP", "FR", Operating, Active⟩),
  ("MHEU", ⟨"MHEU", "DE", Operating, Active⟩),
  ("UBCZ", ⟨"UBCZ", "CZ", Operating, Active⟩),
  ("XETS", ⟨"XETR", "DE", Segment, Active⟩),
  ("FRAS", ⟨"XFRA", "DE", Segment, Active⟩),
  ("ATLN", ⟨"ATLN", "CY", Operating, Active⟩),
  ("CEUE", ⟨"CCXE", "NL", Segment, Expired⟩),
  ("LBCW", ⟨"LBCW", "DE", Operating, Active⟩),
  ("VALX", ⟨"VUSA", "US", Segment, Active⟩),
  ("AGBP", ⟨"AGBP", "ES", Operating, Active⟩),
  ("CESI", ⟨"CSOB", "CZ", Segment, Active⟩),
  ("EBSN", ⟨"EBSN", "NL", Operating, Active⟩),
  ("ECEU", ⟨"ECEU", "NL", Operating, Active⟩),
  ("TPIO", ⟨"TPIC", "FR", Segment, Active⟩),
  ("TPIC", ⟨"TPIC", "FR", Operating, Active⟩),
  ("XTRD", ⟨"XTRD", "US", Operating, Active⟩),
  ("MLEX", ⟨"MLEX", "FR", Operating, Active⟩),
  ("MLER", ⟨"MLEX", "FR", Segment, Active⟩),
  ("MLES", ⟨"MLEX", "FR", Segment, Active⟩),
  ("MLIB", ⟨"MLIB", "GB", Operating, Expired⟩),
  ("DSME", ⟨"XCSE", "DK", Segment, Active⟩),
  ("FSME", ⟨"XHEL", "FI", Segment, Active⟩),
  ("XNFI", ⟨"XNAS", "US", Segment, Active⟩),
  ("ESPD", ⟨"XNAS", "US", Segment, Expired⟩),
  ("SSME", ⟨"XSTO", "SE", Segment, Active⟩),
  ("ATHL", ⟨"ATHL", "CY", Operating, Active⟩),
  ("BCSC", ⟨"BCSC", "CY", Operating, Active⟩),
  ("CFIF", ⟨"CFIF", "CY", Operating, Active⟩),
  ("JESI", ⟨"JEFE", "DE", Segment, Active⟩),
  ("JEFE", ⟨"JEFE", "DE", Operating, Active⟩),
  ("MHBL", ⟨"MHBL", "GB", Operating, Active⟩),
  ("NOWX", ⟨"NOWX", "FR", Operating, Active⟩),
  ("PKOP", ⟨"PKOP", "PL", Operating, Active⟩),
  ("VCRS", ⟨"VUSA", "US", Segment, Active⟩),
  ("VUSA", ⟨"VUSA", "US", Operating, Active⟩),
  ("VFMI", ⟨"VUSA", "US", Segment, Active⟩),
  ("ABAN", ⟨"ABAN", "ES", Operating, Active⟩),
  ("BRDS", ⟨"BRDE", "RO", Segment, Active⟩),
  ("EQIE", ⟨"EQIE", "IE", Operating, Active⟩),
  ("EQLD", ⟨"EQLD", "GB", Operating, Active⟩),
  ("GPBC", ⟨"GPBC", "CY", Operating, Active⟩),
  ("RTSX", ⟨"MISX", "RU", Segment, Active⟩),
  ("OHVO", ⟨"OHVO", "NL", Operating, Active⟩),
  ("RBCG", ⟨"RBCG", "DE", Operating, Active⟩),
  ("RMTF", ⟨"RMTF", "IE", Operating, Active⟩),
  ("UCBA", ⟨"UCBA", "AT", Operating, Active⟩),
  ("UCDE", ⟨"UCDE", "DE", Operating, Active⟩),
  ("UCIT", ⟨"UCIT", "IT", Operating, Active⟩),
  ("BRGA", ⟨"BRGA", "GB", Operating, Active⟩),
  ("XNOR", ⟨"XNOR", "FI", Operating, Active⟩),
  ("XNXD", ⟨"XNXC", "NL", Segment, Active⟩),
  ("BCMA", ⟨"BCMA", "ES", Operating, Active⟩),
  ("CSOB", ⟨"CSOB", "CZ", Operating, Active⟩),
  ("ICXR", ⟨"ICUR", "IE", Segment, Active⟩),
  ("ICUR", ⟨"ICUR", "IE", Operating, Active⟩),
  ("IFXC", ⟨"IFXC", "IE", Operating, Active⟩)]

/-- The same entries with their strings spelt out. -/
def micChars5 : List (List Char × MicChars) := [
  (['R','F','B','K'], ⟨['R','F','B','K'], ['C','Z'], Operating, Active⟩),
  (['T','O','W','R'], ⟨['T','O','W','R'], ['N','L'], Operating, Active⟩),
  (['G','B','U','L'], ⟨['X','B','U','L'], ['B','G'], Segment, Active⟩),
  (['B','P','A','S'], ⟨['B','P','A','S'], ['I','T'], Operating, Expired⟩),
  (['F','L','W','X'], ⟨['F','L','W','X'], ['N','L'], Operating, Active⟩),
  (['T','N','L','L'], ⟨['X','L','D','N'], ['G','B'], Segment, Expired⟩),
  (['B','L','U','X'], ⟨['B','L','U','X'], ['L','U'], Operating, Active⟩),
  (['D','B','L','X'], ⟨['D','B','L','X'], ['L','U'], Operating, Active⟩),
  (['D','H','L','X'], ⟨['D','H','L','X'], ['L','U'], Operating, Active⟩),
  (['K','H','H','U'], ⟨['K','H','H','U'], ['H','U'], Operating, Active⟩),
  (['M','C','I','D'], ⟨['M','C','I','D'], ['I','E'], Operating, Active⟩),
  (['N','C','M','E'], ⟨['N','C','M','E'], ['D','E'], Operating, Active⟩),
  (['T','R','Q','M'], ⟨['T','R','Q','X'], ['G','B'], Segment, Active⟩),
  (['X','B','L','K'], ⟨['X','P','A','R'], ['F','R'], Segment, Active⟩),
  (['I','P','N','L'], ⟨['I','P','N','L'], ['N','L'], Operating, Expired⟩),
  (['I','S','W','O'], ⟨['I','S','W','P'], ['N','L'], Segment, Active⟩),
  (['I','S','W','P'], ⟨['I','S','W','P'], ['N','L'], Operating, Active⟩),
  (['I','S','W','N'], ⟨['I','S','W','P'], ['N','L'], Segment, Active⟩),
  (['I','S','W','T'], ⟨['I','S','W','P'], ['N','L'], Segment, Active⟩),
  (['M','S','E','L'], ⟨['M','S','E','L'], ['I','E'], Operating, Active⟩),
  (['N','C','M','L'], ⟨['N','C','M','L'], ['G','B'], Operating, Active⟩),
  (['F','X','R','Q'], ⟨['R','M','T','F'], ['I','E'], Segment, Active⟩),
  (['F','X','F','M'], ⟨['R','M','T','F'], ['I','E'], Segment, Active⟩),
  (['P','B','U','L'], ⟨['X','B','U','L'], ['B','G'], Segment, Active⟩),
  (['X','P','U','K'], ⟨['X','P','U','K'], ['G','B'], Operating, Active⟩),
  (['C','S','A','G'], ⟨['C','S','A','G'], ['C','H'], Operating, Active⟩),
  (['X','E','T','F'], ⟨['X','P','A','R'], ['F','R'], Segment, Active⟩),
  (['G','S','E','I'], ⟨['G','S','B','E'], ['D','E'], Segment, Active⟩),
  (['G','S','B','E'], ⟨['G','S','B','E'], ['D','E'], Operating, Active⟩),
  (['H','R','E','U'], ⟨['H','R','E','U'], ['I','E'], Operating, Active⟩),
  (['S','T','S','I'], ⟨['S','T','S','I'], ['G','B'], Operating, Expired⟩),
  (['C','R','E','M'], ⟨['C','R','E','M'], ['I','T'], Operating, Active⟩),
  (['D','W','F','I'], ⟨['D','W','F','I'], ['U','S'], Operating, Active⟩),
  (['B','N','P','P'], ⟨['B','N','P','P'], ['P','L'], Operating, Active⟩),
  (['C','B','K','C'], ⟨['C','B','K','A'], ['D','E'], Segment, Active⟩),
  (['C','I','B','H'], ⟨['C','I','B','H'], ['H','U'], Operating, Active⟩),
  (['C','S','M','D'], ⟨['C','S','M','D'], ['E','S'], Operating, Active⟩),
  (['S','I','M','D'], ⟨['C','S','M','D'], ['E','S'], Segment, Active⟩),
  (['G','M','E','S'], ⟨['G','M','E','S'], ['F','R'], Operating, Active⟩),
  (['G','M','E','O'], ⟨['G','M','E','S'], ['F','R'], Segment, Active⟩),
  (['K','B','L','C'], ⟨['K','B','L','L'], ['L','U'], Segment, Active⟩),
  (['K','B','L','S'], ⟨['K','B','L','L'], ['L','U'], Segment, Active⟩),
  (['K','B','L','T'], ⟨['K','B','L','L'], ['L','U'], Segment, Active⟩),
  (['K','B','L','L'], ⟨['K','B','L','L'], ['L','U'], Operating, Active⟩),
  (['M','H','B','P'], ⟨['M','H','B','P'], ['F','R'], Operating, Active⟩),
  (['M','H','E','U'], ⟨['M','H','E','U'], ['D','E'], Operating, Active⟩),
  (['U','B','C','Z'], ⟨['U','B','C','Z'], ['C','Z'], Operating, Active⟩),
  (['X','E','T','S'], ⟨['X','E','T','R'], ['D','E'], Segment, Active⟩),
  (['F','R','A','S'], ⟨['X','F','R','A'], ['D','E'], Segment, Active⟩),
  (['A','T','L','N'], ⟨['A','T','L','N'], ['C','Y'], Operating, Active⟩),
  (['C','E','U','E'], ⟨['C','C','X','E'], ['N','L'], Segment, Expired⟩),
  (['L','B','C','W'], ⟨['L','B','C','W'], ['D','E'], Operating, Active⟩),
  (['V','A','L','X'], ⟨['V','U','S','A'], ['U','S'], Segment, Active⟩),
  (['A','G','B','P'], ⟨['A','G','B','P'], ['E','S'], Operating, Active⟩),
  (['C','E','S','I'], ⟨['C','S','O','B'], ['C','Z'], Segment, Active⟩),
  (['E','B','S','N'], ⟨['E','B','S','N'], ['N','L'], Operating, Active⟩),
  (['E','C','E','U'], ⟨['E','C','E','U'], ['N','L'], Operating, Active⟩),
  (['T','P','I','O'], ⟨['T','P','I','C'], ['F','R'], Segment, Active⟩),
  (['T','P','I','C'], ⟨['T','P','I','C'], ['F','R'], Operating, Active⟩),
  (['X','T','R','D'], ⟨['X','T','R','D'], ['U','S'], Operating, Active⟩),
  (['M','L','E','X'], ⟨['M','L','E','X'], ['F','R'], Operating, Active⟩),
  (['M','L','E','R'], ⟨['M','L','E','X'], ['F','R'], Segment, Active⟩),
  (['M','L','E','S'], ⟨['M','L','E','X'], ['F','R'], Segment, Active⟩),
  (['M','L','I','B'], ⟨['M','L','I','B'], ['G','B'], Operating, Expired⟩),
  (['D','S','M','E'], ⟨['X','C','S','E'], ['D','K'], Segment, Active⟩),
  (['F','S','M','E'], ⟨['X','H','E','L'], ['F','I'], Segment, Active⟩),
  (['X','N','F','I'], ⟨['X','N','A','S'], ['U','S'], Segment, Active⟩),
  (['E','S','P','D'], ⟨['X','N','A','S'], ['U','S'], Segment, Expired⟩),
  (['S','S','M','E'], ⟨['X','S','T','O'], ['S','E'], Segment, Active⟩),
  (['A','T','H','L'], ⟨['A','T','H','L'], ['C','Y'], Operating, Active⟩),
  (['B','C','S','C'], ⟨['B','C','S','C'], ['C','Y'], Operating, Active⟩),
  (['C','F','I','F'], ⟨['C','F','I','F'], ['C','Y'], Operating, Active⟩),
  (['J','E','S','I'], ⟨['J','E','F','E'], ['D','E'], Segment, Active⟩),
  (['J','E','F','E'], ⟨['J','E','F','E'], ['D','E'], Operating, Active⟩),
  (['M','H','B','L'], ⟨['M','H','B','L'], ['G','B'], Operating, Active⟩),
  (['N','O','W','X'], ⟨['N','O','W','X'], ['F','R'], Operating, Active⟩),
  (['P','K','O','P'], ⟨['P','K','O','P'], ['P','L'], Operating, Active⟩),
  (['V','C','R','S'], ⟨['V','U','S','A'], ['U','S'], Segment, Active⟩),
  (['V','U','S','A'], ⟨['V','U','S','A'], ['U','S'], Operating, Active⟩),
  (['V','F','M','I'], ⟨['V','U','S','A'], ['U','S'], Segment, Active⟩),
  (['A','B','A','N'], ⟨['A','B','A','N'], ['E','S'], Operating, Active⟩),
  (['B','R','D','S'], ⟨['B','R','D','E'], ['R','O'], Segment, Active⟩),
  (['E','Q','I','E'], ⟨['E','Q','I','E'], ['I','E'], Operating, Active⟩),
  (['E','Q','L','D'], ⟨['E','Q','L','D'], ['G','B'], Operating, Active⟩),
  (['G','P','B','C'], ⟨['G','P','B','C'], ['C','Y'], Operating, Active⟩),
  (['R','T','S','X'], ⟨['M','I','S','X'], ['R','U'], Segment, Active⟩),
  (['O','H','V','O'], ⟨['O','H','V','O'], ['N','L'], Operating, Active⟩),
  (['R','B','C','G'], ⟨['R','B','C','G'], ['D','E'], Operating, Active⟩),
  (['R','M','T','F'], ⟨['R','M','T','F'], ['I','E'], Operating, Active⟩),
  (['U','C','B','A'], ⟨['U','C','B','A'], ['A','T'], Operating, Active⟩),
  (['U','C','D','E'], ⟨['U','C','D','E'], ['D','E'], Operating, Active⟩),
  (['U','C','I','T'], ⟨['U','C','I','T'], ['I','T'], Operating, Active⟩),
  (['B','R','G','A'], ⟨['B','R','G','A'], ['G','B'], Operating, Active⟩),
  (['X','N','O','R'], ⟨['X','N','O','R'], ['F','I'], Operating, Active⟩),
  (['X','N','X','D'], ⟨['X','N','X','C'], ['N','L'], Segment, Active⟩),
  (['B','C','M','A'], ⟨['B','C','M','A'], ['E','S'], Operating, Active⟩),
  (['C','S','O','B'], ⟨['C','S','O','B'], ['C','Z'], Operating, Active⟩),
  (['I','C','X','R'], ⟨['I','C','U','R'], ['I','E'], Segment, Active⟩),
  (['I','C','U','R'], ⟨['I','C','U','R'], ['I','E'], Operating, Active⟩),
  (['I','F','X','C'], ⟨['I','F','X','C'], ['I','E'], Operating, Active⟩)]

theorem mics5_eq : mics5 = micChars5.map MicChars.entry := (rfl)

/-- iso_10383.rs 696-795. -/
def mics6 : List (String × Mic) := [
  ("IFXA", ⟨"IFXC", "IE", Segment, Active⟩),
  ("IFXR", ⟨"IFXC", "IE", Segment, Active⟩),
  ("MUSN", ⟨"MUSN", "NL", Operating, Active⟩),
  ("SPDX", ⟨"SPDX", "GB", Operating, Active⟩),
  ("MESI", ⟨"MSEU", "DE", Segment, Active⟩),
  ("NIBC", ⟨"NIBC", "NL", Operating, Active⟩),
  ("UICE", ⟨"UICE", "UA", Operating, Active⟩),
  ("XNDU", ⟨"XNDU", "UA", Operating, Active⟩),
  ("GBWB", ⟨"XSTO", "SE", Segment, Active⟩),
  ("ECSL", ⟨"ECSL", "GB", Operating, Active⟩),
  ("MSCX", ⟨"MSAX", "FR", Segment, Expired⟩),
  ("MSAX", ⟨"MSAX", "FR", Operating, Expired⟩),
  ("MSNT", ⟨"MSAX", "FR", Segment, Expired⟩),
  ("MSEU", ⟨"MSEU", "DE", Operating, Active⟩),
  ("TPIS", ⟨"TPIS", "GB", Operating, Expired⟩),
  ("BRDL", ⟨"BRDE", "RO", Segment, Active⟩),
  ("BRDE", ⟨"BRDE", "RO", Operating, Active⟩),
  ("CIBC", ⟨"CIBC", "GB", Operating, Active⟩),
  ("CIBP", ⟨"CIBP", "GB", Operating, Active⟩),
  ("FTFM", ⟨"FTFS", "CZ", Segment, Active⟩),
  ("FTFS", ⟨"FTFS", "CZ", Operating, Active⟩),
  ("CABK", ⟨"CABK", "ES", Operating, Active⟩),
  ("BARU", ⟨"CCRM", "NL", Segment, Active⟩),
  ("BEUO", ⟨"CCRM", "NL", Segment, Active⟩),
  ("BEUT", ⟨"CCRM", "NL", Segment, Active⟩),
  ("CCRM", ⟨"CCRM", "NL", Operating, Active⟩),
  ("CAPA", ⟨"CCXE", "NL", Segment, Active⟩),
  ("LISZ", ⟨"CCXE", "NL", Segment, Active⟩),
  ("CCXE", ⟨"CCXE", "NL", Operating, Active⟩),
  ("DEKA", ⟨"DEKA", "DE", Operating, Active⟩),
  ("IATS", ⟨"IBKR", "US", Segment, Active⟩),
  ("ICOT", ⟨"ICOT", "FR", Operating, Active⟩),
  ("IPXP", ⟨"IPSX", "GB", Segment, Active⟩),
  ("ISSI", ⟨"ISSI", "GB", Operating, Active⟩),
  ("JYSI", ⟨"JYSI", "DK", Operating, Active⟩),
  ("NWNV", ⟨"NWNV", "NL", Operating, Active⟩),
  ("OTPB", ⟨"OTPB", "HU", Operating, Active⟩),
  ("RBHU", ⟨"RBHU", "HU", Operating, Active⟩),
  ("RENC", ⟨"RENC", "CY", Operating, Active⟩),
  ("TPEU", ⟨"TPEU", "FR", Operating, Active⟩),
  ("WSIL", ⟨"WSIL", "GB", Operating, Active⟩),
  ("INGW", ⟨"INGW", "PL", Operating, Active⟩),
  ("MAKX", ⟨"MAKX", "GB", Operating, Active⟩),
  ("WSIN", ⟨"WSIN", "GB", Operating, Active⟩),
  ("BGFX", ⟨"BGSI", "DE", Segment, Active⟩),
  ("BGFI", ⟨"BGSI", "DE", Segment, Active⟩),
  ("SLHB", ⟨"SLHB", "AT", Operating, Active⟩),
  ("SIBC", ⟨"SIBC", "CY", Operating, Active⟩),
  ("WELN", ⟨"WELN", "GB", Operating, Active⟩),
  ("BMLB", ⟨"BMLB", "GB", Operating, Active⟩),
  ("WELX", ⟨"WELX", "US", Operating, Expired⟩),
  ("XSAT", ⟨"XSAT", "SE", Operating, Active⟩),
  ("BAIP", ⟨"BAIP", "HK", Operating, Active⟩),
  ("BAEP", ⟨"BAIP", "HK", Segment, Active⟩),
  ("DAVY", ⟨"DAVY", "IE", Operating, Active⟩),
  ("IECE", ⟨"ICEO", "GB", Segment, Expired⟩),
  ("IMCM", ⟨"ICPM", "GB", Segment, Expired⟩),
  ("IMCD", ⟨"ICPM", "GB", Segment, Expired⟩),
  ("LIGA", ⟨"LIGA", "DE", Operating, Active⟩),
  ("MBPL", ⟨"MBPL", "PL", Operating, Active⟩),
  ("TEMG", ⟨"TPEL", "GB", Segment, Expired⟩),
  ("TEOF", ⟨"TPEO", "GB", Segment, Expired⟩),
  ("TOMF", ⟨"TPES", "ES", Segment, Expired⟩),
  ("TEPG", ⟨"TPFR", "FR", Segment, Expired⟩),
  ("TEPX", ⟨"TPFR", "FR", Segment, Expired⟩),
  ("TEPR", ⟨"TPFR", "FR", Segment, Expired⟩),
  ("TEPM", ⟨"TPFR", "FR", Segment, Expired⟩),
  ("TPFR", ⟨"TPFR", "FR", Operating, Expired⟩),
  ("TEPI", ⟨"TPFR", "FR", Segment, Expired⟩),
  ("TPMF", ⟨"TPIS", "GB", Segment, Expired⟩),
  ("TPSY", ⟨"TPIS", "GB", Segment, Expired⟩),
  ("TSUK", ⟨"TPSL", "GB", Segment, Expired⟩),
  ("TSMC", ⟨"TPSL", "GB", Segment, Expired⟩),
  ("TSMG", ⟨"TPSL", "GB", Segment, Expired⟩),
  ("TSMI", ⟨"TPSL", "GB", Segment, Expired⟩),
  ("TSMB", ⟨"TPSL", "GB", Segment, Expired⟩),
  ("WELS", ⟨"WELS", "US", Operating, Active⟩),
  ("CBAL", ⟨"CBAL", "GB", Operating, Active⟩),
  ("ICEN", ⟨"ICAP", "GB", Segment, Expired⟩),
  ("SCXA", ⟨"SCXO", "US", Segment, Active⟩),
  ("SIAB", ⟨"SIAB", "PL", Operating, Active⟩),
  ("BKSK", ⟨"BKSK", "AT", Operating, Active⟩),
  ("CMCI", ⟨"CMCI", "FR", Operating, Active⟩),
  ("MHBD", ⟨"MHBD", "DE", Operating, Active⟩),
  ("CSOT", ⟨"CSAG", "CH", Segment, Active⟩),
  ("MUSE", ⟨"MUSE", "GB", Operating, Active⟩),
  ("NABU", ⟨"NABE", "GB", Segment, Expired⟩),
  ("NABE", ⟨"NABE", "GB", Operating, Expired⟩),
  ("NABA", ⟨"NABL", "GB", Segment, Active⟩),
  ("ABNA", ⟨"ABNA", "NL", Operating, Active⟩),
  ("BBIS", ⟨"BBIE", "IE", Segment, Active⟩),
  ("BBIE", ⟨"BBIE", "IE", Operating, Active⟩),
  ("ERST", ⟨"ERST", "HU", Operating, Active⟩),
  ("IKBS", ⟨"IKBS", "DE", Operating, Active⟩),
  ("TQEX", ⟨"TQEX", "NL", Operating, Active⟩),
  ("TQEB", ⟨"TQEX", "NL", Segment, Active⟩),
  ("TQEM", ⟨"TQEX", "NL", Segment, Active⟩),
  ("TQEA", ⟨"TQEX", "NL", Segment, Active⟩),
  ("APAW", ⟨"APAW", "AT", Operating, Active⟩),
  ("NABL", ⟨"NABL", "GB", Operating, Active⟩)]

/-- The same entries with their strings spelt out. -/
def micChars6 : List (List Char × MicChars) := [
  (['I','F','X','A'], ⟨['I','F','X','C'], ['I','E'], Segment, Active⟩),
  (['I','F','X','R'], ⟨['I','F','X','C'], ['I','E'], Segment, Active⟩),
  (['M','U','S','N'], ⟨['M','U','S','N'], ['N','L'], Operating, Active⟩),
  (['S','P','D','X'], ⟨['S','P','D','X'], ['G','B'], Operating, Active⟩),
  (['M','E','S','I'], ⟨['M','S','E','U'], ['D','E'], Segment, Active⟩),
  (['N','I','B','C'], ⟨['N','I','B','C'], ['N','L'], Operating, Active⟩),
  (['U','I','C','E'], ⟨['U','I','C','E'], ['U','A'], Operating, Active⟩),
  (['X','N','D','U'], ⟨['X','N','D','U'], ['U','A'], Operating, Active⟩),
  (['G','B','W','B'], ⟨['X','S','T','O'], ['S','E'], Segment, Active⟩),
  (['E','C','S','L'], ⟨['E','C','S','L'], ['G','B'], Operating, Active⟩),
  (['M','S','C','X'], ⟨['M','S','A','X'], ['F','R'], Segment, Expired⟩),
  (['M','S','A','X'], ⟨['M','S','A','X'], ['F','R'], Operating, Expired⟩),
  (['M','S','N','T'], ⟨['M','S','A','X'], ['F','R'], Segment, Expired⟩),
  (['M','S','E','U'], ⟨['M','S','E','U'], ['D','E'], Operating, Active⟩),
  (['T','P','I','S'], ⟨['T','P','I','S'], ['G','B'], Operating, Expired⟩),
  (['B','R','D','L'], ⟨['B','R','D','E'], ['R','O'], Segment, Active⟩),
  (['B','R','D','E'], ⟨['B','R','D','E'], ['R','O'], Operating, Active⟩),
  (['C','I','B','C'], ⟨['C','I','B','C'], ['G','B'], Operating, Active⟩),
  (['C','I','B','P'], ⟨['C','I','B','P'], ['G','B'], Operating, Active⟩),
  (['F','T','F','M'], ⟨['F','T','F','S'], ['C','Z'], Segment, Active⟩),
  (['F','T','F','S'], ⟨['F','T','F','S'], ['C','Z'], Operating, Active⟩),
  (['C','A','B','K'], ⟨['C','A','B','K'], ['E','S'], Operating, Active⟩),
  (['B','A','R','U'], ⟨['C','C','R','M'], ['N','L'], Segment, Active⟩),
  (['B','E','U','O'], ⟨['C','C','R','M'], ['N','L'], Segment, Active⟩),
  (['B','E','U','T'], ⟨['C','C','R','M'], ['N','L'], Segment, Active⟩),
  (['C','C','R','M'], ⟨['C','C','R','M'], ['N','L'], Operating, Active⟩),
  (['C','A','P','A'], ⟨['C','C','X','E'], ['N','L'], Segment, Active⟩),
  (['L','I','S','Z'], ⟨['C','C','X','E'], ['N','L'], Segment, Active⟩),
  (['C','C','X','E'], ⟨['C','C','X','E'], ['N','L'], Operating, Active⟩),
  (['D','E','K','A'], ⟨['D','E','K','A'], ['D','E'], Operating, Active⟩),
  (['I','A','T','S'], ⟨['I','B','K','R'], ['U','S'], Segment, Active⟩),
  (['I','C','O','T'], ⟨['I','C','O','T'], ['F','R'], Operating, Active⟩),
  (['I','P','X','P'], ⟨['I','P','S','X'], ['G','B'], Segment, Active⟩),
  (['I','S','S','I'], ⟨['I','S','S','I'], ['G','B'], Operating, Active⟩),
  (['J','Y','S','I'], ⟨['J','Y','S','I'], ['D','K'], Operating, Active⟩),
  (['N','W','N','V'], ⟨['N','W','N','V'], ['N','L'], Operating, Active⟩),
  (['O','T','P','B'], ⟨['O','T','P','B'], ['H','U'], Operating, Active⟩),
  (['R','B','H','U'], ⟨['R','B','H','U'], ['H','U'], Operating, Active⟩),
  (['R','E','N','C'], ⟨['R','E','N','C'], ['C','Y'], Operating, Active⟩),
  (['T','P','E','U'], ⟨['T','P','E','U'], ['F','R'], Operating, Active⟩),
  (['W','S','I','L'], ⟨['W','S','I','L'], ['G','B'], Operating, Active⟩),
  (['I','N','G','W'], ⟨['I','N','G','W'], ['P','L'], Operating, Active⟩),
  (['M','A','K','X'], ⟨['M','A','K','X'], ['G','B'], Operating, Active⟩),
  (['W','S','I','N'], ⟨['W','S','I','N'], ['G','B'], Operating, Active⟩),
  (['B','G','F','X'], ⟨['B','G','S','I'], ['D','E'], Segment, Active⟩),
  (['B','G','F','I'], ⟨['B','G','S','I'], ['D','E'], Segment, Active⟩),
  (['S','L','H','B'], ⟨['S','L','H','B'], ['A','T'], Operating, Active⟩),
  (['S','I','B','C'], ⟨['S','I','B','C'], ['C','Y'], Operating, Active⟩),
  (['W','E','L','N'], ⟨['W','E','L','N'], ['G','B'], Operating, Active⟩),
  (['B','M','L','B'], ⟨['B','M','L','B'], ['G','B'], Operating, Active⟩),
  (['W','E','L','X'], ⟨['W','E','L','X'], ['U','S'], Operating, Expired⟩),
  (['X','S','A','T'], ⟨['X','S','A','T'], ['S','E'], Operating, Active⟩),
  (['B','A','I','P'], ⟨['B','A','I','P'], ['H','K'], Operating, Active⟩),
  (['B','A','E','P'], ⟨['B','A','I','P'], ['H','K'], Segment, Active⟩),
  (['D','A','V','Y'], ⟨['D','A','V','Y'], ['I','E'], Operating, Active⟩),
  (['I','E','C','E'], ⟨['I','C','E','O'], ['G','B'], Segment, Expired⟩),
  (['I','M','C','M'], ⟨['I','C','P','M'], ['G','B'], Segment, Expired⟩),
  (['I','M','C','D'], ⟨['I','C','P','M'], ['G','B'], Segment, Expired⟩),
  (['L','I','G','A'], ⟨['L','I','G','A'], ['D','E'], Operating, Active⟩),
  (['M','B','P','L'], ⟨['M','B','P','L'], ['P','L'], Operating, Active⟩),
  (['T','E','M','G'], ⟨['T','P','E','L'], ['G','B'], Segment, Expired⟩),
  (['T','E','O','F'], ⟨['T','P','E','O'], ['G','B'], Segment, Expired⟩),
  (['T','O','M','F'], ⟨['T','P','E','S'], ['E','S'], Segment, Expired⟩),
  (['T','E','P','G'], ⟨['T','P','F','R'], ['F','R'], Segment, Expired⟩),
  (['T','E','P','X'], ⟨['T','P','F','R'], ['F','R'], Segment, Expired⟩),
  (['T','E','P','R'], ⟨['T','P','F','R'], ['F','R'], Segment, Expired⟩),
  (['T','E','P','M'], ⟨['T','P','F','R'], ['F','R'], Segment, Expired⟩),
  (['T','P','F','R'], ⟨['T','P','F','R'], ['F','R'], Operating, Expired⟩),
  (['T','E','P','I'], ⟨['T','P','F','R'], ['F','R'], Segment, Expired⟩),
  (['T','P','M','F'], ⟨['T','P','I','S'], ['G','B'], Segment, Expired⟩),
  (['T','P','S','Y'], ⟨['T','P','I','S'], ['G','B'], Segment, Expired⟩),
  (['T','S','U','K'], ⟨['T','P','S','L'], ['G','B'], Segment, Expired⟩),
  (['T','S','M','C'], ⟨['T','P','S','L'], ['G','B'], Segment, Expired⟩),
  (['T','S','M','G'], ⟨['T','P','S','L'], ['G','B'], Segment, Expired⟩),
  (['T','S','M','I'], ⟨['T','P','S','L'], ['G','B'], Segment, Expired⟩),
  (['T','S','M','B'], ⟨['T','P','S','L'], ['G','B'], Segment, Expired⟩),
  (['W','E','L','S'], ⟨['W','E','L','S'], ['U','S'], Operating, Active⟩),
  (['C','B','A','L'], ⟨['C','B','A','L'], ['G','B'], Operating, Active⟩),
  (['I','C','E','N'], ⟨['I','C','A','P'], ['G','B'], Segment, Expired⟩),
  (['S','C','X','A'], ⟨['S','C','X','O'], ['U','S'], Segment, Active⟩),
  (['S','I','A','B'], ⟨['S','I','A','B'], ['P','L'], Operating, Active⟩),
  (['B','K','S','K'], ⟨['B','K','S','K'], ['A','T'], Operating, Active⟩),
  (['C','M','C','I'], ⟨['C','M','C','I'], ['F','R'], Operating, Active⟩),
  (['M','H','B','D'], ⟨['M','H','B','D'], ['D','E'], Operating, Active⟩),
  (['C','S','O','T'], ⟨['C','S','A','G'], ['C','H'], Segment, Active⟩),
  (['M','U','S','E'], ⟨['M','U','S','E'], ['G','B'], Operating, Active⟩),
  (['N','A','B','U'], ⟨['N','A','B','E'], ['G','B'], Segment, Expired⟩),
  (['N','A','B','E'], ⟨['N','A','B','E'], ['G','B'], Operating, Expired⟩),
  (['N','A','B','A'], ⟨['N','A','B','L'], ['G','B'], Segment, Active⟩),
  (['A','B','N','A'], ⟨['A','B','N','A'], ['N','L'], Operating, Active⟩),
  (['B','B','I','S'], ⟨['B','B','I','E'], ['I','E'], Segment, Active⟩),
  (['B','B','I','E'], ⟨['B','B','I','E'], ['I','E'], Operating, Active⟩),
  (['E','R','S','T'], ⟨['E','R','S','T'], ['H','U'], Operating, Active⟩),
  (['I','K','B','S'], ⟨['I','K','B','S'], ['D','E'], Operating, Active⟩),
  (['T','Q','E','X'], ⟨['T','Q','E','X'], ['N','L'], Operating, Active⟩),
  (['T','Q','E','B'], ⟨['T','Q','E','X'], ['N','L'], Segment, Active⟩),
  (['T','Q','E','M'], ⟨['T','Q','E','X'], ['N','L'], Segment, Active⟩),
  (['T','Q','E','A'], ⟨['T','Q','E','X'], ['N','L'], Segment, Active⟩),
  (['A','P','A','W'], ⟨['A','P','A','W'], ['A','T'], Operating, Active⟩),
  (['N','A','B','L'], ⟨['N','A','B','L'], ['G','B'], Operating, Active⟩)]

theorem mics6_eq : mics6 = micChars6.map MicChars.entry := (rfl)

/-- iso_10383.rs 796-895. -/
def mics7 : List (String × Mic) := [
  ("OBKL", ⟨"OBKL", "AT", Operating, Active⟩),
  ("TWJP", ⟨"TWJP", "JP", Operating, Active⟩),
  ("HRTF", ⟨"HRTF", "US", Operating, Active⟩),
  ("SMBB", ⟨"SMBB", "BE", Operating, Active⟩),
  ("CGMD", ⟨"CGMD", "DE", Operating, Active⟩),
  ("EXYY", ⟨"EXSY", "FR", Segment, Active⟩),
  ("EXSF", ⟨"EXSY", "FR", Segment, Active⟩),
  ("EXSP", ⟨"EXSY", "FR", Segment, Active⟩),
  ("EXSD", ⟨"EXSY", "FR", Segment, Active⟩),
  ("EXSB", ⟨"EXSY", "FR", Segment, Active⟩),
  ("EXSH", ⟨"EXSY", "FR", Segment, Active⟩),
  ("HEMO", ⟨"HEMO", "GR", Operating, Active⟩),
  ("IMCT", ⟨"IMCT", "NL", Operating, Active⟩),
  ("METZ", ⟨"METZ", "GB", Operating, Active⟩),
  ("MIBL", ⟨"MIBL", "LU", Operating, Expired⟩),
  ("MUBL", ⟨"MUBL", "GB", Operating, Active⟩),
  ("MUBM", ⟨"MUBM", "IT", Operating, Active⟩),
  ("MUBP", ⟨"MUBP", "FR", Operating, Active⟩),
  ("RBIV", ⟨"RBIV", "AT", Operating, Active⟩),
  ("SMBG", ⟨"SMBG", "GB", Operating, Active⟩),
  ("TRQB", ⟨"TRQX", "GB", Segment, Active⟩),
  ("MUBE", ⟨"MUBE", "NL", Operating, Active⟩),
  ("JPEU", ⟨"JPEU", "DE", Operating, Active⟩),
  ("SMBE", ⟨"SMBE", "GB", Operating, Active⟩),
  ("SMBP", ⟨"SMBP", "FR", Operating, Active⟩),
  ("LEUE", ⟨"LEUE", "IE", Operating, Expired⟩),
  ("LEUF", ⟨"LEUE", "IE", Segment, Expired⟩),
  ("HELA", ⟨"HELA", "DE", Operating, Active⟩),
  ("NESI", ⟨"NESI", "DE", Operating, Active⟩),
  ("BHWA", ⟨"BHWA", "PL", Operating, Active⟩),
  ("FINN", ⟨"FINR", "US", Segment, Active⟩),
  ("ISBA", ⟨"ISBA", "IT", Operating, Active⟩),
  ("ISBV", ⟨"ISBV", "IT", Operating, Expired⟩),
  ("KBCB", ⟨"KBCB", "BE", Operating, Active⟩),
  ("MAQI", ⟨"MAQI", "GB", Operating, Active⟩),
  ("MAQU", ⟨"MAQU", "GB", Operating, Active⟩),
  ("XFCI", ⟨"FICO", "US", Segment, Active⟩),
  ("XFDA", ⟨"FICO", "US", Segment, Active⟩),
  ("FICO", ⟨"FICO", "US", Operating, Active⟩),
  ("LBBW", ⟨"LBBW", "DE", Operating, Active⟩),
  ("LBWL", ⟨"LBBW", "DE", Segment, Active⟩),
  ("LBWS", ⟨"LBBW", "DE", Segment, Active⟩),
  ("NURO", ⟨"NURO", "GB", Operating, Expired⟩),
  ("XNLX", ⟨"NURO", "GB", Segment, Expired⟩),
  ("MTSM", ⟨"MTSO", "IT", Segment, Expired⟩),
  ("NURD", ⟨"NURO", "GB", Segment, Expired⟩),
  ("TEMC", ⟨"TPEL", "GB", Segment, Expired⟩),
  ("TPMG", ⟨"TPIS", "GB", Segment, Expired⟩),
  ("EDGA", ⟨"XCBO", "US", Segment, Active⟩),
  ("EDGD", ⟨"XCBO", "US", Segment, Active⟩),
  ("EDGO", ⟨"XCBO", "US", Segment, Active⟩),
  ("EDGX", ⟨"XCBO", "US", Segment, Active⟩),
  ("BATS", ⟨"XCBO", "US", Segment, Active⟩),
  ("BATY", ⟨"XCBO", "US", Segment, Active⟩),
  ("BYXD", ⟨"XCBO", "US", Segment, Active⟩),
  ("BZXD", ⟨"XCBO", "US", Segment, Active⟩),
  ("EDDP", ⟨"XCBO", "US", Segment, Active⟩),
  ("BATO", ⟨"XCBO", "US", Segment, Active⟩),
  ("ZFXM", ⟨"XJSE", "ZA", Segment, Active⟩),
  ("BAPE", ⟨"BAPE", "NL", Operating, Active⟩),
  ("BASE", ⟨"BASE", "HK", Operating, Active⟩),
  ("BCEE", ⟨"BCEE", "LU", Operating, Active⟩),
  ("BLIQ", ⟨"BLBB", "DE", Segment, Active⟩),
  ("BSFX", ⟨"BLBB", "DE", Segment, Active⟩),
  ("BDEA", ⟨"BLBB", "DE", Segment, Active⟩),
  ("BLBS", ⟨"BLBB", "DE", Segment, Active⟩),
  ("BPKO", ⟨"BPKO", "PL", Operating, Active⟩),
  ("BTFE", ⟨"BTFE", "NL", Operating, Active⟩),
  ("HRSI", ⟨"HRSI", "GB", Operating, Active⟩),
  ("R5FX", ⟨"R5FX", "GB", Operating, Active⟩),
  ("SISI", ⟨"SISI", "IE", Operating, Active⟩),
  ("BEIS", ⟨"BEIS", "IT", Operating, Active⟩),
  ("BLBB", ⟨"BLBB", "DE", Operating, Active⟩),
  ("BASX", ⟨"BASX", "JP", Operating, Active⟩),
  ("HRTX", ⟨"HRTX", "US", Operating, Active⟩),
  ("ICAS", ⟨"ICAS", "NO", Operating, Expired⟩),
  ("INCR", ⟨"INCR", "US", Operating, Active⟩),
  ("IOFB", ⟨"IOTF", "GB", Segment, Expired⟩),
  ("MSRP", ⟨"MSCO", "US", Segment, Active⟩),
  ("OCSI", ⟨"OCSI", "GB", Operating, Active⟩),
  ("EDRF", ⟨"EDRF", "FR", Operating, Active⟩),
  ("BNSX", ⟨"BNSX", "CA", Operating, Active⟩),
  ("EXSE", ⟨"EXSE", "FR", Operating, Active⟩),
  ("MSSI", ⟨"MSIP", "GB", Segment, Active⟩),
  ("TPLF", ⟨"TPIS", "GB", Segment, Expired⟩),
  ("MELO", ⟨"XNAS", "US", Segment, Active⟩),
  ("AIXK", ⟨"AIXK", "KZ", Operating, Active⟩),
  ("CBLC", ⟨"CGMI", "US", Segment, Expired⟩),
  ("CIOI", ⟨"CGMI", "US", Segment, Expired⟩),
  ("LBCM", ⟨"LBCM", "GB", Operating, Active⟩),
  ("RLBO", ⟨"RLBO", "AT", Operating, Active⟩),
  ("SBEX", ⟨"SBEX", "GB", Operating, Active⟩),
  ("VTBC", ⟨"VTBC", "GB", Operating, Active⟩),
  ("XEHQ", ⟨"XEUP", "DE", Segment, Active⟩),
  ("ZARX", ⟨"ZARX", "ZA", Operating, Active⟩),
  ("IPSX", ⟨"IPSX", "GB", Operating, Active⟩),
  ("TPDE", ⟨"TPDE", "DE", Operating, Expired⟩),
  ("TSFG", ⟨"TPDE", "DE", Segment, Expired⟩),
  ("TSFF", ⟨"TPDE", "DE", Segment, Expired⟩),
  ("COMM", ⟨"COMM", "NL", Operating, Active⟩)]

/-- The same entries with their strings spelt out. -/
def micChars7 : List (List Char × MicChars) := [
  (['O','B','K','L'], ⟨['O','B','K','L'], ['A','T'], Operating, Active⟩),
  (['T','W','J','P'], ⟨['T','W','J','P'], ['J','P'], Operating, Active⟩),
  (['H','R','T','F'], ⟨['H','R','T','F'], ['U','S'], Operating, Active⟩),
  (['S','M','B','B'], ⟨['S','M','B','B'], ['B','E'], Operating, Active⟩),
  (['C','G','M','D'], ⟨['C','G','M','D'], ['D','E'], Operating, Active⟩),
  (['E','X','Y','Y'], ⟨['E','X','S','Y'], ['F','R'], Segment, Active⟩),
  (['E','X','S','F'], ⟨['E','X','S','Y'], ['F','R'], Segment, Active⟩),
  (['E','X','S','P'], ⟨['E','X','S','Y'], ['F','R'], Segment, Active⟩),
  (['E','X','S','D'], ⟨['E','X','S','Y'], ['F','R'], Segment, Active⟩),
  (['E','X','S','B'], ⟨['E','X','S','Y'], ['F','R'], Segment, Active⟩),
  (['E','X','S','H'], ⟨['E','X','S','Y'], ['F','R'], Segment, Active⟩),
  (['H','E','M','O'], ⟨['H','E','M','O'], ['G','R'], Operating, Active⟩),
  (['I','M','C','T'], ⟨['I','M','C','T'], ['N','L'], Operating, Active⟩),
  (['M','E','T','Z'], ⟨['M','E','T','Z'], ['G','B'], Operating, Active⟩),
  (['M','I','B','L'], ⟨['M','I','B','L'], ['L','U'], Operating, Expired⟩),
  (['M','U','B','L'], ⟨['M','U','B','L'], ['G','B'], Operating, Active⟩),
  (['M','U','B','M'], ⟨['M','U','B','M'], ['I','T'], Operating, Active⟩),
  (['M','U','B','P'], ⟨['M','U','B','P'], ['F','R'], Operating, Active⟩),
  (['R','B','I','V'], ⟨['R','B','I','V'], ['A','T'], Operating, Active⟩),
  (['S','M','B','G'], ⟨['S','M','B','G'], ['G','B'], Operating, Active⟩),
  (['T','R','Q','B'], ⟨['T','R','Q','X'], ['G','B'], Segment, Active⟩),
  (['M','U','B','E'], ⟨['M','U','B','E'], ['N','L'], Operating, Active⟩),
  (['J','P','E','U'], ⟨['J','P','E','U'], ['D','E'], Operating, Active⟩),
  (['S','M','B','E'], ⟨['S','M','B','E'], ['G','B'], Operating, Active⟩),
  (['S','M','B','P'], ⟨['S','M','B','P'], ['F','R'], Operating, Active⟩),
  (['L','E','U','E'], ⟨['L','E','U','E'], ['I','E'], Operating, Expired⟩),
  (['L','E','U','F'], ⟨['L','E','U','E'], ['I','E'], Segment, Expired⟩),
  (['H','E','L','A'], ⟨['H','E','L','A'], ['D','E'], Operating, Active⟩),
  (['N','E','S','I'], ⟨['N','E','S','I'], ['D','E'], Operating, Active⟩),
  (['B','H','W','A'], ⟨['B','H','W','A'], ['P','L'], Operating, Active⟩),
  (['F','I','N','N'], ⟨['F','I','N','R'], ['U','S'], Segment, Active⟩),
  (['I','S','B','A'], ⟨['I','S','B','A'], ['I','T'], Operating, Active⟩),
  (['I','S','B','V'], ⟨['I','S','B','V'], ['I','T'], Operating, Expired⟩),
  (['K','B','C','B'], ⟨['K','B','C','B'], ['B','E'], Operating, Active⟩),
  (['M','A','Q','I'], ⟨['M','A','Q','I'], ['G','B'], Operating, Active⟩),
  (['M','A','Q','U'], ⟨['M','A','Q','U'], ['G','B'], Operating, Active⟩),
  (['X','F','C','I'], ⟨['F','I','C','O'], ['U','S'], Segment, Active⟩),
  (['X','F','D','A'], ⟨['F','I','C','O'], ['U','S'], Segment, Active⟩),
  (['F','I','C','O'], ⟨['F','I','C','O'], ['U','S'], Operating, Active⟩),
  (['L','B','B','W'], ⟨['L','B','B','W'], ['D','E'], Operating, Active⟩),
  (['L','B','W','L'], ⟨['L','B','B','W'], ['D','E'], Segment, Active⟩),
  (['L','B','W','S'], ⟨['L','B','B','W'], ['D','E'], Segment, Active⟩),
  (['N','U','R','O'], ⟨['N','U','R','O'], ['G','B'], Operating, Expired⟩),
  (['X','N','L','X'], ⟨['N','U','R','O'], ['G','B'], Segment, Expired⟩),
  (['M','T','S','M'], ⟨['M','T','S','O'], ['I','T'], Segment, Expired⟩),
  (['N','U','R','D'], ⟨['N','U','R','O'], ['G','B'], Segment, Expired⟩),
  (['T','E','M','C'], ⟨['T','P','E','L'], ['G','B'], Segment, Expired⟩),
  (['T','P','M','G'], ⟨['T','P','I','S'], ['G','B'], Segment, Expired⟩),
  (['E','D','G','A'], ⟨['X','C','B','O'], ['U','S'], Segment, Active⟩),
  (['E','D','G','D'], ⟨['X','C','B','O'], ['U','S'], Segment, Active⟩),
  (['E','D','G','O'], ⟨['X','C','B','O'], ['U','S'], Segment, Active⟩),
  (['E','D','G','X'], ⟨['X','C','B','O'], ['U','S'], Segment, Active⟩),
  (['B','A','T','S'], ⟨['X','C','B','O'], ['U','S'], Segment, Active⟩),
  (['B','A','T','Y'], ⟨['X','C','B','O'], ['U','S'], Segment, Active⟩),
  (['B','Y','X','D'], ⟨['X','C','B','O'], ['U','S'], Segment, Active⟩),
  (['B','Z','X','D'], ⟨['X','C','B','O'], ['U','S'], Segment, Active⟩),
  (['E','D','D','P'], ⟨['X','C','B','O'], ['U','S'], Segment, Active⟩),
  (['B','A','T','O'], ⟨['X','C','B','O'], ['U','S'], Segment, Active⟩),
  (['Z','F','X','M'], ⟨['X','J','S','E'], ['Z','A'], Segment, Active⟩),
  (['B','A','P','E'], ⟨['B','A','P','E'], ['N','L'], Operating, Active⟩),
  (['B','A','S','E'], ⟨['B','A','S','E'], ['H','K'], Operating, Active⟩),
  (['B','C','E','E'], ⟨['B','C','E','E'], ['L','U'], Operating, Active⟩),
  (['B','L','I','Q'], ⟨['B','L','B','B'], ['D','E'], Segment, Active⟩),
  (['B','S','F','X'], ⟨['B','L','B','B'], ['D','E'], Segment, Active⟩),
  (['B','D','E','A'], ⟨['B','L','B','B'], ['D','E'], Segment, Active⟩),
  (['B','L','B','S'], ⟨['B','L','B','B'], ['D','E'], Segment, Active⟩),
  (['B','P','K','O'], ⟨['B','P','K','O'], ['P','L'], Operating, Active⟩),
  (['B','T','F','E'], ⟨['B','T','F','E'], ['N','L'], Operating, Active⟩),
  (['H','R','S','I'], ⟨['H','R','S','I'], ['G','B'], Operating, Active⟩),
  (['R','5','F','X'], ⟨['R','5','F','X'], ['G','B'], Operating, Active⟩),
  (['S','I','S','I'], ⟨['S','I','S','I'], ['I','E'], Operating, Active⟩),
  (['B','E','I','S'], ⟨['B','E','I','S'], ['I','T'], Operating, Active⟩),
  (['B','L','B','B'], ⟨['B','L','B','B'], ['D','E'], Operating, Active⟩),
  (['B','A','S','X'], ⟨['B','A','S','X'], ['J','P'], Operating, Active⟩),
  (['H','R','T','X'], ⟨['H','R','T','X'], ['U','S'], Operating, Active⟩),
  (['I','C','A','S'], ⟨['I','C','A','S'], ['N','O'], Operating, Expired⟩),
  (['I','N','C','R'], ⟨['I','N','C','R'], ['U','S'], Operating, Active⟩),
  (['I','O','F','B'], ⟨['I','O','T','F'], ['G','B'], Segment, Expired⟩),
  (['M','S','R','P'], ⟨['M','S','C','O'], ['U','S'], Segment, Active⟩),
  (['O','C','S','I'], ⟨['O','C','S','I'], ['G','B'], Operating, Active⟩),
  (['E','D','R','F'], ⟨['E','D','R','F'], ['F','R'], Operating, Active⟩),
  (['B','N','S','X'], ⟨['B','N','S','X'], ['C','A'], Operating, Active⟩),
  (['E','X','S','E'], ⟨['E','X','S','E'], ['F','R'], Operating, Active⟩),
  (['M','S','S','I'], ⟨['M','S','I','P'], ['G','B'], Segment, Active⟩),
  (['T','P','L','F'], ⟨['T','P','I','S'], ['G','B'], Segment, Expired⟩),
  (['M','E','L','O'], ⟨['X','N','A','S'], ['U','S'], Segment, Active⟩),
  (['A','I','X','K'], ⟨['A','I','X','K'], ['K','Z'], Operating, Active⟩),
  (['C','B','L','C'], ⟨['C','G','M','I'], ['U','S'], Segment, Expired⟩),
  (['C','I','O','I'], ⟨['C','G','M','I'], ['U','S'], Segment, Expired⟩),
  (['L','B','C','M'], ⟨['L','B','C','M'], ['G','B'], Operating, Active⟩),
  (['R','L','B','O'], ⟨['R','L','B','O'], ['A','T'], Operating, Active⟩),
  (['S','B','E','X'], ⟨['S','B','E','X'], ['G','B'], Operating, Active⟩),
  (['V','T','B','C'], ⟨['V','T','B','C'], ['G','B'], Operating, Active⟩),
  (['X','E','H','Q'], ⟨['X','E','U','P'], ['D','E'], Segment, Active⟩),
  (['Z','A','R','X'], ⟨['Z','A','R','X'], ['Z','A'], Operating, Active⟩),
  (['I','P','S','X'], ⟨['I','P','S','X'], ['G','B'], Operating, Active⟩),
  (['T','P','D','E'], ⟨['T','P','D','E'], ['D','E'], Operating, Expired⟩),
  (['T','S','F','G'], ⟨['T','P','D','E'], ['D','E'], Segment, Expired⟩),
  (['T','S','F','F'], ⟨['T','P','D','E'], ['D','E'], Segment, Expired⟩),
  (['C','O','M','M'], ⟨['C','O','M','M'], ['N','L'], Operating, Active⟩)]

theorem mics7_eq : mics7 = micChars7.map MicChars.entry := (rfl)

/-- iso_10383.rs 896-995. -/
def mics8 : List (String × Mic) := [
  ("MOSE", ⟨"XSTO", "SE", Segment, Active⟩),
  ("DOSE", ⟨"XSTO", "SE", Segment, Active⟩),
  ("ATLB", ⟨"ATLB", "GB", Operating, Active⟩),
  ("CCMS", ⟨"CCMS", "CH", Operating, Active⟩),
  ("DAIW", ⟨"DAIW", "GB", Operating, Active⟩),
  ("IBEQ", ⟨"IBIS", "IT", Segment, Active⟩),
  ("IINX", ⟨"IINX", "IN", Operating, Active⟩),
  ("EMLD", ⟨"MIHI", "US", Segment, Active⟩),
  ("OPCO", ⟨"OPCO", "FI", Operating, Active⟩),
  ("TSBX", ⟨"TSBX", "US", Operating, Expired⟩),
  ("TMXS", ⟨"TMXS", "CA", Operating, Expired⟩),
  ("BELF", ⟨"BELB", "BE", Segment, Active⟩),
  ("BELB", ⟨"BELB", "BE", Operating, Active⟩),
  ("IMTF", ⟨"IMTF", "GB", Operating, Active⟩),
  ("MAGM", ⟨"MAGM", "US", Operating, Expired⟩),
  ("ASXC", ⟨"XASX", "AU", Segment, Active⟩),
  ("CFBC", ⟨"XCFE", "CN", Segment, Active⟩),
  ("BLXA", ⟨"BLXA", "AU", Operating, Active⟩),
  ("GFKS", ⟨"GFKS", "SE", Operating, Active⟩),
  ("SGOE", ⟨"SGOE", "FR", Operating, Active⟩),
  ("UBSA", ⟨"UBSA", "US", Operating, Active⟩),
  ("UBSS", ⟨"UBSS", "US", Operating, Active⟩),
  ("IBIS", ⟨"IBIS", "IT", Operating, Active⟩),
  ("PDQD", ⟨"PDQX", "US", Segment, Expired⟩),
  ("TFSD", ⟨"TFSD", "HK", Operating, Active⟩),
  ("TRAS", ⟨"TRAS", "HK", Operating, Active⟩),
  ("TSIG", ⟨"TSIG", "SG", Operating, Active⟩),
  ("UTSL", ⟨"UTSL", "JP", Operating, Active⟩),
  ("SBMF", ⟨"BMFX", "RO", Segment, Expired⟩),
  ("BMFM", ⟨"BMFX", "RO", Segment, Expired⟩),
  ("BMFA", ⟨"BMFX", "RO", Segment, Expired⟩),
  ("BMFX", ⟨"BMFX", "RO", Operating, Expired⟩),
  ("CSZH", ⟨"CSZH", "CH", Operating, Active⟩),
  ("STAL", ⟨"STAL", "GB", Operating, Expired⟩),
  ("JASR", ⟨"XIJP", "JP", Segment, Expired⟩),
  ("XIJP", ⟨"XIJP", "JP", Operating, Expired⟩),
  ("XMCE", ⟨"BMEX", "ES", Segment, Expired⟩),
  ("EUWA", ⟨"EUWA", "DE", Operating, Active⟩),
  ("EXSY", ⟨"EXSY", "FR", Operating, Active⟩),
  ("A2XX", ⟨"A2XX", "ZA", Operating, Active⟩),
  ("FXOP", ⟨"FXOP", "GB", Operating, Active⟩),
  ("BOND", ⟨"MTSO", "IT", Segment, Expired⟩),
  ("TFSG", ⟨"TRDE", "GB", Segment, Expired⟩),
  ("TCDS", ⟨"TRDE", "GB", Segment, Active⟩),
  ("TRDE", ⟨"TRDE", "GB", Operating, Active⟩),
  ("NAVE", ⟨"TRDE", "GB", Segment, Expired⟩),
  ("ZAPA", ⟨"XZAG", "HR", Segment, Active⟩),
  ("AKIS", ⟨"AKIS", "IT", Operating, Active⟩),
  ("BPSX", ⟨"BPSX", "FR", Operating, Active⟩),
  ("ISWE", ⟨"IGDL", "GB", Segment, Active⟩),
  ("ISWV", ⟨"IGDL", "GB", Segment, Active⟩),
  ("IGDL", ⟨"IGDL", "GB", Operating, Active⟩),
  ("HPCV", ⟨"HPCX", "FR", Segment, Active⟩),
  ("JSSI", ⟨"JSSI", "GB", Operating, Active⟩),
  ("SEBX", ⟨"SEBX", "SE", Operating, Expired⟩),
  ("TWGP", ⟨"TWGP", "GB", Operating, Active⟩),
  ("GMGD", ⟨"GMGD", "AE", Operating, Active⟩),
  ("GMGL", ⟨"GMGL", "GB", Operating, Active⟩),
  ("NPEX", ⟨"NPEX", "NL", Operating, Active⟩),
  ("OAPA", ⟨"OAPA", "NO", Operating, Active⟩),
  ("DDTX", ⟨"DDTX", "IT", Operating, Active⟩),
  ("HPCX", ⟨"HPCX", "FR", Operating, Active⟩),
  ("SB1M", ⟨"SB1M", "NO", Operating, Active⟩),
  ("SEDR", ⟨"SEDR", "GB", Operating, Expired⟩),
  ("ANTS", ⟨"ANTS", "GB", Operating, Active⟩),
  ("IENG", ⟨"IENG", "PL", Operating, Expired⟩),
  ("SGMY", ⟨"SGMX", "GB", Segment, Active⟩),
  ("SGMX", ⟨"SGMX", "GB", Operating, Active⟩),
  ("SSBM", ⟨"SSBI", "DE", Segment, Active⟩),
  ("SSBI", ⟨"SSBI", "DE", Operating, Active⟩),
  ("DBES", ⟨"DBAG", "DE", Segment, Active⟩),
  ("DBAG", ⟨"DBAG", "DE", Operating, Active⟩),
  ("MKAP", ⟨"MKAP", "CY", Operating, Active⟩),
  ("GSAL", ⟨"GSAL", "HK", Operating, Active⟩),
  ("GSXH", ⟨"GSAL", "HK", Segment, Active⟩),
  ("SIGH", ⟨"GSAL", "HK", Segment, Active⟩),
  ("SWEE", ⟨"SWEE", "EE", Operating, Active⟩),
  ("SWLT", ⟨"SWLT", "LT", Operating, Active⟩),
  ("SWLV", ⟨"SWLV", "LV", Operating, Active⟩),
  ("TECO", ⟨"TPEO", "GB", Segment, Active⟩),
  ("XZAP", ⟨"XZAG", "HR", Segment, Active⟩),
  ("ODDO", ⟨"ODDO", "FR", Operating, Active⟩),
  ("ODOC", ⟨"ODOC", "FR", Operating, Active⟩),
  ("PULX", ⟨"PULX", "US", Operating, Expired⟩),
  ("SANT", ⟨"SANT", "ES", Operating, Active⟩),
  ("UBIN", ⟨"UBIN", "GB", Operating, Active⟩),
  ("CSLB", ⟨"CSLB", "GB", Operating, Active⟩),
  ("JISI", ⟨"JISI", "GB", Operating, Active⟩),
  ("JEFS", ⟨"JISI", "GB", Segment, Active⟩),
  ("VTPS", ⟨"VWDX", "DE", Segment, Active⟩),
  ("VWDX", ⟨"VWDX", "DE", Operating, Active⟩),
  ("VTLS", ⟨"VWDX", "DE", Segment, Active⟩),
  ("BAMX", ⟨"BAMX", "US", Operating, Active⟩),
  ("IMCO", ⟨"NDEX", "NL", Segment, Active⟩),
  ("ENSX", ⟨"SEBS", "SE", Segment, Expired⟩),
  ("SEBS", ⟨"SEBS", "SE", Operating, Active⟩),
  ("INCA", ⟨"XINS", "US", Segment, Active⟩),
  ("SSOB", ⟨"MTSO", "IT", Segment, Active⟩),
  ("XABC", ⟨"XABC", "SE", Operating, Active⟩),
  ("GFIC", ⟨"GFIC", "GB", Operating, Active⟩)]

/-- The same entries with their strings spelt out. -/
def micChars8 : List (List Char × MicChars) := [
  (['M','O','S','E'], ⟨['X','S','T','O'], ['S','E'], Segment, Active⟩),
  (['D','O','S','E'], ⟨['X','S','T','O'], ['S','E'], Segment, Active⟩),
  (['A','T','L','B'], ⟨['A','T','L','B'], ['G','B'], Operating, Active⟩),
  (['C','C','M','S'], ⟨['C','C','M','S'], ['C','H'], Operating, Active⟩),
  (['D','A','I','W'], ⟨['D','A','I','W'], ['G','B'], Operating, Active⟩),
  (['I','B','E','Q'], ⟨['I','B','I','S'], ['I','T'], Segment, Active⟩),
  (['I','I','N','X'], ⟨['I','I','N','X'], ['I','N'], Operating, Active⟩),
  (['E','M','L','D'], ⟨['M','I','H','I'], ['U','S'], Segment, Active⟩),
  (['O','P','C','O'], ⟨['O','P','C','O'], ['F','I'], Operating, Active⟩),
  (['T','S','B','X'], ⟨['T','S','B','X'], ['U','S'], Operating, Expired⟩),
  (['T','M','X','S'], ⟨['T','M','X','S'], ['C','A'], Operating, Expired⟩),
  (['B','E','L','F'], ⟨['B','E','L','B'], ['B','E'], Segment, Active⟩),
  (['B','E','L','B'], ⟨['B','E','L','B'], ['B','E'], Operating, Active⟩),
  (['I','M','T','F'], ⟨['I','M','T','F'], ['G','B'], Operating, Active⟩),
  (['M','A','G','M'], ⟨['M','A','G','M'], ['U','S'], Operating, Expired⟩),
  (['A','S','X','C'], ⟨['X','A','S','X'], ['A','U'], Segment, Active⟩),
  (['C','F','B','C'], ⟨['X','C','F','E'], ['C','N'], Segment, Active⟩),
  (['B','L','X','A'], ⟨['B','L','X','A'], ['A','U'], Operating, Active⟩),
  (['G','F','K','S'], ⟨['G','F','K','S'], ['S','E'], Operating, Active⟩),
  (['S','G','O','E'], ⟨['S','G','O','E'], ['F','R'], Operating, Active⟩),
  (['U','B','S','A'], ⟨['U','B','S','A'], ['U','S'], Operating, Active⟩),
  (['U','B','S','S'], ⟨['U','B','S','S'], ['U','S'], Operating, Active⟩),
  (['I','B','I','S'], ⟨['I','B','I','S'], ['I','T'], Operating, Active⟩),
  (['P','D','Q','D'], ⟨['P','D','Q','X'], ['U','S'], Segment, Expired⟩),
  (['T','F','S','D'], ⟨['T','F','S','D'], ['H','K'], Operating, Active⟩),
  (['T','R','A','S'], ⟨['T','R','A','S'], ['H','K'], Operating, Active⟩),
  (['T','S','I','G'], ⟨['T','S','I','G'], ['S','G'], Operating, Active⟩),
  (['U','T','S','L'], ⟨['U','T','S','L'], ['J','P'], Operating, Active⟩),
  (['S','B','M','F'], ⟨['B','M','F','X'], ['R','O'], Segment, Expired⟩),
  (['B','M','F','M'], ⟨['B','M','F','X'], ['R','O'], Segment, Expired⟩),
  (['B','M','F','A'], ⟨['B','M','F','X'], ['R','O'], Segment, Expired⟩),
  (['B','M','F','X'], ⟨['B','M','F','X'], ['R','O'], Operating, Expired⟩),
  (['C','S','Z','H'], ⟨['C','S','Z','H'], ['C','H'], Operating, Active⟩),
  (['S','T','A','L'], ⟨['S','T','A','L'], ['G','B'], Operating, Expired⟩),
  (['J','A','S','R'], ⟨['X','I','J','P'], ['J','P'], Segment, Expired⟩),
  (['X','I','J','P'], ⟨['X','I','J','P'], ['J','P'], Operating, Expired⟩),
  (['X','M','C','E'], ⟨['B','M','E','X'], ['E','S'], Segment, Expired⟩),
  (['E','U','W','A'], ⟨['E','U','W','A'], ['D','E'], Operating, Active⟩),
  (['E','X','S','Y'], ⟨['E','X','S','Y'], ['F','R'], Operating, Active⟩),
  (['A','2','X','X'], ⟨['A','2','X','X'], ['Z','A'], Operating, Active⟩),
  (['F','X','O','P'], ⟨['F','X','O','P'], ['G','B'], Operating, Active⟩),
  (['B','O','N','D'], ⟨['M','T','S','O'], ['I','T'], Segment, Expired⟩),
  (['T','F','S','G'], ⟨['T','R','D','E'], ['G','B'], Segment, Expired⟩),
  (['T','C','D','S'], ⟨['T','R','D','E'], ['G','B'], Segment, Active⟩),
  (['T','R','D','E'], ⟨['T','R','D','E'], ['G','B'], Operating, Active⟩),
  (['N','A','V','E'], ⟨['T','R','D','E'], ['G','B'], Segment, Expired⟩),
  (['Z','A','P','A'], ⟨['X','Z','A','G'], ['H','R'], Segment, Active⟩),
  (['A','K','I','S'], ⟨['A','K','I','S'], ['I','T'], Operating, Active⟩),
  (['B','P','S','X'], ⟨['B','P','S','X'], ['F','R'], Operating, Active⟩),
  (['I','S','W','E'], ⟨['I','G','D','L'], ['G','B'], Segment, Active⟩),
  (['I','S','W','V'], ⟨['I','G','D','L'], ['G','B'], Segment, Active⟩),
  (['I','G','D','L'], ⟨['I','G','D','L'], ['G','B'], Operating, Active⟩),
  (['H','P','C','V'], ⟨['H','P','C','X'], ['F','R'], Segment, Active⟩),
  (['J','S','S','I'], ⟨['J','S','S','I'], ['G','B'], Operating, Active⟩),
  (['S','E','B','X'], ⟨['S','E','B','X'], ['S','E'], Operating, Expired⟩),
  (['T','W','G','P'], ⟨['T','W','G','P'], ['G','B'], Operating, Active⟩),
  (['G','M','G','D'], ⟨['G','M','G','D'], ['A','E'], Operating, Active⟩),
  (['G','M','G','L'], ⟨['G','M','G','L'], ['G','B'], Operating, Active⟩),
  (['N','P','E','X'], ⟨['N','P','E','X'], ['N','L'], Operating, Active⟩),
  (['O','A','P','A'], ⟨['O','A','P','A'], ['N','O'], Operating, Active⟩),
  (['D','D','T','X'], ⟨['D','D','T','X'], ['I','T'], Operating, Active⟩),
  (['H','P','C','X'], ⟨['H','P','C','X'], ['F','R'], Operating, Active⟩),
  (['S','B','1','M'], ⟨['S','B','1','M'], ['N','O'], Operating, Active⟩),
  (['S','E','D','R'], ⟨['S','E','D','R'], ['G','B'], Operating, Expired⟩),
  (['A','N','T','S'], ⟨['A','N','T','S'], ['G','B'], Operating, Active⟩),
  (['I','E','N','G'], ⟨['I','E','N','G'], ['P','L'], Operating, Expired⟩),
  (['S','G','M','Y'], ⟨['S','G','M','X'], ['G','B'], Segment, Active⟩),
  (['S','G','M','X'], ⟨['S','G','M','X'], ['G','B'], Operating, Active⟩),
  (['S','S','B','M'], ⟨['S','S','B','I'], ['D','E'], Segment, Active⟩),
  (['S','S','B','I'], ⟨['S','S','B','I'], ['D','E'], Operating, Active⟩),
  (['D','B','E','S'], ⟨['D','B','A','G'], ['D','E'], Segment, Active⟩),
  (['D','B','A','G'], ⟨['D','B','A','G'], ['D','E'], Operating, Active⟩),
  (['M','K','A','P'], ⟨['M','K','A','P'], ['C','Y'], Operating, Active⟩),
  (['G','S','A','L'], ⟨['G','S','A','L'], ['H','K'], Operating, Active⟩),
  (['G','S','X','H'], ⟨['G','S','A','L'], ['H','K'], Segment, Active⟩),
  (['S','I','G','H'], ⟨['G','S','A','L'], ['H','K'], Segment, Active⟩),
  (['S','W','E','E'], ⟨['S','W','E','E'], ['E','E'], Operating, Active⟩),
  (['S','W','L','T'], ⟨['S','W','L','T'], ['L','T'], Operating, Active⟩),
  (['S','W','L','V'], ⟨['S','W','L','V'], ['L','V'], Operating, Active⟩),
  (['T','E','C','O'], ⟨['T','P','E','O'], ['G','B'], Segment, Active⟩),
  (['X','Z','A','P'], ⟨['X','Z','A','G'], ['H','R'], Segment, Active⟩),
  (['O','D','D','O'], ⟨['O','D','D','O'], ['F','R'], Operating, Active⟩),
  (['O','D','O','C'], ⟨['O','D','O','C'], ['F','R'], Operating, Active⟩),
  (['P','U','L','X'], ⟨['P','U','L','X'], ['U','S'], Operating, Expired⟩),
  (['S','A','N','T'], ⟨['S','A','N','T'], ['E','S'], Operating, Active⟩),
  (['U','B','I','N'], ⟨['U','B','I','N'], ['G','B'], Operating, Active⟩),
  (['C','S','L','B'], ⟨['C','S','L','B'], ['G','B'], Operating, Active⟩),
  (['J','I','S','I'], ⟨['J','I','S','I'], ['G','B'], Operating, Active⟩),
  (['J','E','F','S'], ⟨['J','I','S','I'], ['G','B'], Segment, Active⟩),
  (['V','T','P','S'], ⟨['V','W','D','X'], ['D','E'], Segment, Active⟩),
  (['V','W','D','X'], ⟨['V','W','D','X'], ['D','E'], Operating, Active⟩),
  (['V','T','L','S'], ⟨['V','W','D','X'], ['D','E'], Segment, Active⟩),
  (['B','A','M','X'], ⟨['B','A','M','X'], ['U','S'], Operating, Active⟩),
  (['I','M','C','O'], ⟨['N','D','E','X'], ['N','L'], Segment, Active⟩),
  (['E','N','S','X'], ⟨['S','E','B','S'], ['S','E'], Segment, Expired⟩),
  (['S','E','B','S'], ⟨['S','E','B','S'], ['S','E'], Operating, Active⟩),
  (['I','N','C','A'], ⟨['X','I','N','S'], ['U','S'], Segment, Active⟩),
  (['S','S','O','B'], ⟨['M','T','S','O'], ['I','T'], Segment, Active⟩),
  (['X','A','B','C'], ⟨['X','A','B','C'], ['S','E'], Operating, Active⟩),
  (['G','F','I','C'], ⟨['G','F','I','C'], ['G','B'], Operating, Active⟩)]

theorem mics8_eq : mics8 = micChars8.map MicChars.entry := (rfl)

/-- iso_10383.rs 996-1095. -/
def mics9 : List (String × Mic) := [
  ("KELR", ⟨"KELR", "HU", Operating, Active⟩),
  ("MLXN", ⟨"MLXN", "GB", Operating, Expired⟩),
  ("MLAX", ⟨"MLXN", "GB", Segment, Expired⟩),
  ("XBOX", ⟨"XBOX", "US", Operating, Active⟩),
  ("NORD", ⟨"NORD", "DE", Operating, Active⟩),
  ("OTXB", ⟨"OTXB", "CH", Operating, Active⟩),
  ("SEMX", ⟨"SEMX", "IE", Operating, Active⟩),
  ("XAPA", ⟨"XPAR", "FR", Segment, Active⟩),
  ("AACA", ⟨"AACA", "FR", Operating, Active⟩),
  ("ABSI", ⟨"ABSI", "DK", Operating, Active⟩),
  ("BINV", ⟨"BINV", "DE", Operating, Active⟩),
  ("GLMX", ⟨"GLMX", "US", Operating, Active⟩),
  ("GTXE", ⟨"GTXE", "BM", Operating, Active⟩),
  ("JPCB", ⟨"JPCB", "GB", Operating, Active⟩),
  ("REST", ⟨"NEXS", "GB", Segment, Active⟩),
  ("NLBX", ⟨"NLBX", "DE", Operating, Active⟩),
  ("XREP", ⟨"ROSR", "CH", Segment, Active⟩),
  ("ROSR", ⟨"ROSR", "CH", Operating, Active⟩),
  ("XROT", ⟨"ROSR", "CH", Segment, Active⟩),
  ("XLLB", ⟨"XLLB", "LI", Operating, Active⟩),
  ("XVPB", ⟨"XVPB", "LI", Operating, Active⟩),
  ("HBPL", ⟨"HBPL", "PL", Operating, Active⟩),
  ("LMAO", ⟨"LMAX", "GB", Segment, Updated⟩),
  ("LMAE", ⟨"LMAX", "GB", Segment, Updated⟩),
  ("LMAF", ⟨"LMAX", "GB", Segment, Active⟩),
  ("XABG", ⟨"XABG", "NO", Operating, Active⟩),
  ("ALSI", ⟨"ALSI", "DK", Operating, Active⟩),
  ("APCL", ⟨"APEX", "SG", Segment, Active⟩),
  ("SBSI", ⟨"SBSI", "DK", Operating, Active⟩),
  ("TDBL", ⟨"TDBL", "GB", Operating, Active⟩),
  ("BNPA", ⟨"BNPA", "FR", Operating, Active⟩),
  ("BNPF", ⟨"BNPF", "BE", Operating, Active⟩),
  ("BNPS", ⟨"BNPS", "FR", Operating, Active⟩),
  ("SEDX", ⟨"XMIL", "IT", Segment, Active⟩),
  ("CMED", ⟨"CMEE", "GB", Segment, Expired⟩),
  ("ICEO", ⟨"ICEO", "GB", Operating, Expired⟩),
  ("IECL", ⟨"TPEO", "GB", Segment, Active⟩),
  ("IOFI", ⟨"IOTF", "GB", Segment, Active⟩),
  ("IOFX", ⟨"IOTF", "GB", Segment, Active⟩),
  ("IOGB", ⟨"IOTF", "GB", Segment, Active⟩),
  ("IOCD", ⟨"IOTF", "GB", Segment, Active⟩),
  ("IOED", ⟨"IOTF", "GB", Segment, Active⟩),
  ("IOGI", ⟨"IOTF", "GB", Segment, Active⟩),
  ("IOIR", ⟨"IOTF", "GB", Segment, Active⟩),
  ("IOMM", ⟨"IOTF", "GB", Segment, Active⟩),
  ("ISWA", ⟨"ISWA", "GB", Operating, Active⟩),
  ("MDRV", ⟨"MIBG", "ES", Segment, Active⟩),
  ("NWMS", ⟨"NWMS", "GB", Operating, Active⟩),
  ("RBCE", ⟨"RBCE", "GB", Operating, Active⟩),
  ("IIDX", ⟨"XINS", "US", Segment, Expired⟩),
  ("IBLX", ⟨"XINS", "US", Segment, Expired⟩),
  ("RCBX", ⟨"XINS", "US", Segment, Expired⟩),
  ("IFSM", ⟨"XMAL", "MT", Segment, Active⟩),
  ("MTSS", ⟨"XMTS", "GB", Segment, Expired⟩),
  ("MTSW", ⟨"XMTS", "GB", Segment, Expired⟩),
  ("XSGA", ⟨"XSGA", "FR", Operating, Active⟩),
  ("ANLP", ⟨"ANZL", "GB", Segment, Active⟩),
  ("KBLM", ⟨"KBLM", "GB", Operating, Active⟩),
  ("KOTF", ⟨"KOTF", "FR", Operating, Active⟩),
  ("LASP", ⟨"LASP", "DK", Operating, Active⟩),
  ("MACB", ⟨"MAQX", "AU", Segment, Active⟩),
  ("TDON", ⟨"TDON", "FR", Operating, Active⟩),
  ("TSAF", ⟨"TSAF", "FR", Operating, Active⟩),
  ("UBIS", ⟨"UBIS", "IT", Operating, Active⟩),
  ("BRFQ", ⟨"XIEL", "GB", Segment, Active⟩),
  ("BNTW", ⟨"XIEL", "GB", Segment, Active⟩),
  ("BLOX", ⟨"XIEL", "GB", Segment, Active⟩),
  ("IOTC", ⟨"XIEL", "GB", Segment, Active⟩),
  ("XIEL", ⟨"XIEL", "GB", Operating, Active⟩),
  ("XOAA", ⟨"XOSL", "NO", Segment, Active⟩),
  ("BASI", ⟨"BANA", "GB", Segment, Active⟩),
  ("BANA", ⟨"BANA", "GB", Operating, Active⟩),
  ("BOAL", ⟨"BANA", "GB", Segment, Active⟩),
  ("CSEC", ⟨"CSEC", "GB", Operating, Active⟩),
  ("MLSI", ⟨"MLIX", "GB", Segment, Active⟩),
  ("MLIX", ⟨"MLIX", "GB", Operating, Active⟩),
  ("MLRQ", ⟨"MLIX", "GB", Segment, Active⟩),
  ("SVEX", ⟨"SVEX", "SE", Operating, Active⟩),
  ("SVES", ⟨"SVEX", "SE", Segment, Active⟩),
  ("AAPA", ⟨"AAPA", "GR", Operating, Active⟩),
  ("CIMV", ⟨"CIMD", "ES", Segment, Active⟩),
  ("CIMB", ⟨"CIMD", "ES", Segment, Active⟩),
  ("CIME", ⟨"CIMD", "ES", Segment, Active⟩),
  ("CIMD", ⟨"CIMD", "ES", Operating, Active⟩),
  ("CURX", ⟨"CURX", "US", Operating, Updated⟩),
  ("INGE", ⟨"INGB", "NL", Segment, Active⟩),
  ("INGF", ⟨"INGB", "NL", Segment, Active⟩),
  ("SKSI", ⟨"SKSI", "DK", Operating, Active⟩),
  ("SQUA", ⟨"SQUA", "GB", Operating, Active⟩),
  ("SSBT", ⟨"SSBT", "GB", Operating, Active⟩),
  ("SSFX", ⟨"SSBT", "GB", Segment, Active⟩),
  ("AFSO", ⟨"AFSA", "NL", Segment, Active⟩),
  ("AFSX", ⟨"AFSA", "NL", Segment, Active⟩),
  ("AFSL", ⟨"AFSA", "NL", Segment, Active⟩),
  ("AFSA", ⟨"AFSA", "NL", Operating, Active⟩),
  ("AFSI", ⟨"AFSA", "NL", Segment, Active⟩),
  ("ARIA", ⟨"ARIA", "GB", Operating, Active⟩),
  ("DVFX", ⟨"DVFX", "GB", Operating, Active⟩),
  ("ETPA", ⟨"ETPA", "NL", Operating, Active⟩),
  ("LOUI", ⟨"LOUI", "GB", Operating, Expired⟩)]

/-- The same entries with their strings spelt out. -/
def micChars9 : List (List Char × MicChars) := [
  (['K','E','L','R'], ⟨['K','E','L','R'], ['H','U'], Operating, Active⟩),
  (['M','L','X','N'], ⟨['M','L','X','N'], ['G','B'], Operating, Expired⟩),
  (['M','L','A','X'], ⟨['M','L','X','N'], ['G','B'], Segment, Expired⟩),
  (['X','B','O','X'], ⟨['X','B','O','X'], ['U','S'], Operating, Active⟩),
  (['N','O','R','D'], ⟨['N','O','R','D'], ['D','E'], Operating, Active⟩),
  (['O','T','X','B'], ⟨['O','T','X','B'], ['C','H'], Operating, Active⟩),
  (['S','E','M','X'], ⟨['S','E','M','X'], ['I','E'], Operating, Active⟩),
  (['X','A','P','A'], ⟨['X','P','A','R'], ['F','R'], Segment, Active⟩),
  (['A','A','C','A'], ⟨['A','A','C','A'], ['F','R'], Operating, Active⟩),
  (['A','B','S','I'], ⟨['A','B','S','I'], ['D','K'], Operating, Active⟩),
  (['B','I','N','V'], ⟨['B','I','N','V'], ['D','E'], Operating, Active⟩),
  (['G','L','M','X'], ⟨['G','L','M','X'], ['U','S'], Operating, Active⟩),
  (['G','T','X','E'], ⟨['G','T','X','E'], ['B','M'], Operating, Active⟩),
  (['J','P','C','B'], ⟨['J','P','C','B'], ['G','B'], Operating, Active⟩),
  (['R','E','S','T'], ⟨['N','E','X','S'], ['G','B'], Segment, Active⟩),
  (['N','L','B','X'], ⟨['N','L','B','X'], ['D','E'], Operating, Active⟩),
  (['X','R','E','P'], ⟨['R','O','S','R'], ['C','H'], Segment, Active⟩),
  (['R','O','S','R'], ⟨['R','O','S','R'], ['C','H'], Operating, Active⟩),
  (['X','R','O','T'], ⟨['R','O','S','R'], ['C','H'], Segment, Active⟩),
  (['X','L','L','B'], ⟨['X','L','L','B'], ['L','I'], Operating, Active⟩),
  (['X','V','P','B'], ⟨['X','V','P','B'], ['L','I'], Operating, Active⟩),
  (['H','B','P','L'], ⟨['H','B','P','L'], ['P','L'], Operating, Active⟩),
  (['L','M','A','O'], ⟨['L','M','A','X'], ['G','B'], Segment, Updated⟩),
  (['L','M','A','E'], ⟨['L','M','A','X'], ['G','B'], Segment, Updated⟩),
  (['L','M','A','F'], ⟨['L','M','A','X'], ['G','B'], Segment, Active⟩),
  (['X','A','B','G'], ⟨['X','A','B','G'], ['N','O'], Operating, Active⟩),
  (['A','L','S','I'], ⟨['A','L','S','I'], ['D','K'], Operating, Active⟩),
  (['A','P','C','L'], ⟨['A','P','E','X'], ['S','G'], Segment, Active⟩),
  (['S','B','S','I'], ⟨['S','B','S','I'], ['D','K'], Operating, Active⟩),
  (['T','D','B','L'], ⟨['T','D','B','L'], ['G','B'], Operating, Active⟩),
  (['B','N','P','A'], ⟨['B','N','P','A'], ['F','R'], Operating, Active⟩),
  (['B','N','P','F'], ⟨['B','N','P','F'], ['B','E'], Operating, Active⟩),
  (['B','N','P','S'], ⟨['B','N','P','S'], ['F','R'], Operating, Active⟩),
  (['S','E','D','X'], ⟨['X','M','I','L'], ['I','T'], Segment, Active⟩),
  (['C','M','E','D'], ⟨['C','M','E','E'], ['G','B'], Segment, Expired⟩),
  (['I','C','E','O'], ⟨['I','C','E','O'], ['G','B'], Operating, Expired⟩),
  (['I','E','C','L'], ⟨['T','P','E','O'], ['G','B'], Segment, Active⟩),
  (['I','O','F','I'], ⟨['I','O','T','F'], ['G','B'], Segment, Active⟩),
  (['I','O','F','X'], ⟨['I','O','T','F'], ['G','B'], Segment, Active⟩),
  (['I','O','G','B'], ⟨['I','O','T','F'], ['G','B'], Segment, Active⟩),
  (['I','O','C','D'], ⟨['I','O','T','F'], ['G','B'], Segment, Active⟩),
  (['I','O','E','D'], ⟨['I','O','T','F'], ['G','B'], Segment, Active⟩),
  (['I','O','G','I'], ⟨['I','O','T','F'], ['G','B'], Segment, Active⟩),
  (['I','O','I','R'], ⟨['I','O','T','F'], ['G','B'], Segment, Active⟩),
  (['I','O','M','M'], ⟨['I','O','T','F'], ['G','B'], Segment, Active⟩),
  (['I','S','W','A'], ⟨['I','S','W','A'], ['G','B'], Operating, Active⟩),
  (['M','D','R','V'], ⟨['M','I','B','G'], ['E','S'], Segment, Active⟩),
  (['N','W','M','S'], ⟨['N','W','M','S'], ['G','B'], Operating, Active⟩),
  (['R','B','C','E'], ⟨['R','B','C','E'], ['G','B'], Operating, Active⟩),
  (['I','I','D','X'], ⟨['X','I','N','S'], ['U','S'], Segment, Expired⟩),
  (['I','B','L','X'], ⟨['X','I','N','S'], ['U','S'], Segment, Expired⟩),
  (['R','C','B','X'], ⟨['X','I','N','S'], ['U','S'], Segment, Expired⟩),
  (['I','F','S','M'], ⟨['X','M','A','L'], ['M','T'], Segment, Active⟩),
  (['M','T','S','S'], ⟨['X','M','T','S'], ['G','B'], Segment, Expired⟩),
  (['M','T','S','W'], ⟨['X','M','T','S'], ['G','B'], Segment, Expired⟩),
  (['X','S','G','A'], ⟨['X','S','G','A'], ['F','R'], Operating, Active⟩),
  (['A','N','L','P'], ⟨['A','N','Z','L'], ['G','B'], Segment, Active⟩),
  (['K','B','L','M'], ⟨['K','B','L','M'], ['G','B'], Operating, Active⟩),
  (['K','O','T','F'], ⟨['K','O','T','F'], ['F','R'], Operating, Active⟩),
  (['L','A','S','P'], ⟨['L','A','S','P'], ['D','K'], Operating, Active⟩),
  (['M','A','C','B'], ⟨['M','A','Q','X'], ['A','U'], Segment, Active⟩),
  (['T','D','O','N'], ⟨['T','D','O','N'], ['F','R'], Operating, Active⟩),
  (['T','S','A','F'], ⟨['T','S','A','F'], ['F','R'], Operating, Active⟩),
  (['U','B','I','S'], ⟨['U','B','I','S'], ['I','T'], Operating, Active⟩),
  (['B','R','F','Q'], ⟨['X','I','E','L'], ['G','B'], Segment, Active⟩),
  (['B','N','T','W'], ⟨['X','I','E','L'], ['G','B'], Segment, Active⟩),
  (['B','L','O','X'], ⟨['X','I','E','L'], ['G','B'], Segment, Active⟩),
  (['I','O','T','C'], ⟨['X','I','E','L'], ['G','B'], Segment, Active⟩),
  (['X','I','E','L'], ⟨['X','I','E','L'], ['G','B'], Operating, Active⟩),
  (['X','O','A','A'], ⟨['X','O','S','L'], ['N','O'], Segment, Active⟩),
  (['B','A','S','I'], ⟨['B','A','N','A'], ['G','B'], Segment, Active⟩),
  (['B','A','N','A'], ⟨['B','A','N','A'], ['G','B'], Operating, Active⟩),
  (['B','O','A','L'], ⟨['B','A','N','A'], ['G','B'], Segment, Active⟩),
  (['C','S','E','C'], ⟨['C','S','E','C'], ['G','B'], Operating, Active⟩),
  (['M','L','S','I'], ⟨['M','L','I','X'], ['G','B'], Segment, Active⟩),
  (['M','L','I','X'], ⟨['M','L','I','X'], ['G','B'], Operating, Active⟩),
  (['M','L','R','Q'], ⟨['M','L','I','X'], ['G','B'], Segment, Active⟩),
  (['S','V','E','X'], ⟨['S','V','E','X'], ['S','E'], Operating, Active⟩),
  (['S','V','E','S'], ⟨['S','V','E','X'], ['S','E'], Segment, Active⟩),
  (['A','A','P','A'], ⟨['A','A','P','A'], ['G','R'], Operating, Active⟩),
  (['C','I','M','V'], ⟨['C','I','M','D'], ['E','S'], Segment, Active⟩),
  (['C','I','M','B'], ⟨['C','I','M','D'], ['E','S'], Segment, Active⟩),
  (['C','I','M','E'], ⟨['C','I','M','D'], ['E','S'], Segment, Active⟩),
  (['C','I','M','D'], ⟨['C','I','M','D'], ['E','S'], Operating, Active⟩),
  (['C','U','R','X'], ⟨['C','U','R','X'], ['U','S'], Operating, Updated⟩),
  (['I','N','G','E'], ⟨['I','N','G','B'], ['N','L'], Segment, Active⟩),
  (['I','N','G','F'], ⟨['I','N','G','B'], ['N','L'], Segment, Active⟩),
  (['S','K','S','I'], ⟨['S','K','S','I'], ['D','K'], Operating, Active⟩),
  (['S','Q','U','A'], ⟨['S','Q','U','A'], ['G','B'], Operating, Active⟩),
  (['S','S','B','T'], ⟨['S','S','B','T'], ['G','B'], Operating, Active⟩),
  (['S','S','F','X'], ⟨['S','S','B','T'], ['G','B'], Segment, Active⟩),
  (['A','F','S','O'], ⟨['A','F','S','A'], ['N','L'], Segment, Active⟩),
  (['A','F','S','X'], ⟨['A','F','S','A'], ['N','L'], Segment, Active⟩),
  (['A','F','S','L'], ⟨['A','F','S','A'], ['N','L'], Segment, Active⟩),
  (['A','F','S','A'], ⟨['A','F','S','A'], ['N','L'], Operating, Active⟩),
  (['A','F','S','I'], ⟨['A','F','S','A'], ['N','L'], Segment, Active⟩),
  (['A','R','I','A'], ⟨['A','R','I','A'], ['G','B'], Operating, Active⟩),
  (['D','V','F','X'], ⟨['D','V','F','X'], ['G','B'], Operating, Active⟩),
  (['E','T','P','A'], ⟨['E','T','P','A'], ['N','L'], Operating, Active⟩),
  (['L','O','U','I'], ⟨['L','O','U','I'], ['G','B'], Operating, Expired⟩)]

theorem mics9_eq : mics9 = micChars9.map MicChars.entry := (rfl)

/-- iso_10383.rs 1096-1195. -/
def mics10 : List (String × Mic) := [
  ("RABO", ⟨"RABO", "NL", Operating, Active⟩),
  ("BBVA", ⟨"BBVA", "ES", Operating, Active⟩),
  ("BTNL", ⟨"BTNL", "US", Operating, Active⟩),
  ("CAPI", ⟨"CAPI", "ES", Operating, Active⟩),
  ("XRCB", ⟨"XRCB", "AT", Operating, Active⟩),
  ("APEX", ⟨"APEX", "SG", Operating, Active⟩),
  ("XGAT", ⟨"TGAT", "DE", Segment, Active⟩),
  ("TGSI", ⟨"TGAT", "DE", Segment, Active⟩),
  ("TGAT", ⟨"TGAT", "DE", Operating, Active⟩),
  ("XGRM", ⟨"TGAT", "DE", Segment, Active⟩),
  ("CGMT", ⟨"CGML", "GB", Segment, Active⟩),
  ("NYSI", ⟨"NYSI", "DK", Operating, Active⟩),
  ("XMAL", ⟨"XMAL", "MT", Operating, Active⟩),
  ("CASI", ⟨"CASI", "SE", Operating, Active⟩),
  ("CNSI", ⟨"CNSI", "NO", Operating, Active⟩),
  ("TRQA", ⟨"TRQX", "GB", Segment, Active⟩),
  ("XOSA", ⟨"XOSL", "NO", Segment, Active⟩),
  ("CCEU", ⟨"CCEU", "GB", Operating, Active⟩),
  ("XTXM", ⟨"XTXM", "GB", Operating, Active⟩),
  ("GFSM", ⟨"GFIC", "GB", Segment, Active⟩),
  ("GFSO", ⟨"GFIC", "GB", Segment, Active⟩),
  ("AURO", ⟨"AURB", "FR", Segment, Active⟩),
  ("AURB", ⟨"AURB", "FR", Operating, Active⟩),
  ("BGCM", ⟨"BGCI", "GB", Segment, Expired⟩),
  ("EXSI", ⟨"EXEU", "GB", Segment, Active⟩),
  ("ISWR", ⟨"ISWA", "GB", Segment, Active⟩),
  ("ISWC", ⟨"ISWA", "GB", Segment, Active⟩),
  ("ISWB", ⟨"ISWA", "GB", Segment, Active⟩),
  ("SUNM", ⟨"SUNB", "GB", Segment, Expired⟩),
  ("TSCB", ⟨"TPSO", "GB", Segment, Expired⟩),
  ("VAGL", ⟨"VAGL", "GB", Operating, Active⟩),
  ("BCSL", ⟨"BCSL", "GB", Operating, Active⟩),
  ("BCSI", ⟨"BCSL", "GB", Segment, Active⟩),
  ("BGCO", ⟨"BGCI", "GB", Segment, Active⟩),
  ("GFBM", ⟨"GFIB", "GB", Segment, Active⟩),
  ("GFBO", ⟨"GFIB", "GB", Segment, Active⟩),
  ("GFIB", ⟨"GFIB", "GB", Operating, Active⟩),
  ("GFIF", ⟨"GFIC", "GB", Segment, Active⟩),
  ("GFIN", ⟨"GFIC", "GB", Segment, Active⟩),
  ("GFIR", ⟨"GFIC", "GB", Segment, Active⟩),
  ("INGB", ⟨"INGB", "NL", Operating, Active⟩),
  ("SFCL", ⟨"SFCL", "GB", Operating, Active⟩),
  ("SUNO", ⟨"SUNB", "GB", Segment, Expired⟩),
  ("SUNB", ⟨"SUNB", "GB", Operating, Expired⟩),
  ("TPSL", ⟨"TPSL", "GB", Operating, Active⟩),
  ("TSMR", ⟨"TPSL", "GB", Segment, Active⟩),
  ("VONT", ⟨"VONT", "DE", Operating, Active⟩),
  ("BKBR", ⟨"BKBR", "BE", Operating, Active⟩),
  ("BKBF", ⟨"BKBR", "BE", Segment, Active⟩),
  ("CBKA", ⟨"CBKA", "DE", Operating, Active⟩),
  ("TPES", ⟨"TPES", "ES", Operating, Expired⟩),
  ("TSRE", ⟨"TPSO", "GB", Segment, Expired⟩),
  ("TSCD", ⟨"TPSO", "GB", Segment, Active⟩),
  ("TSGB", ⟨"TPSO", "GB", Segment, Active⟩),
  ("TSFI", ⟨"TPSO", "GB", Segment, Active⟩),
  ("TSED", ⟨"TPSO", "GB", Segment, Active⟩),
  ("TSGI", ⟨"TPSO", "GB", Segment, Active⟩),
  ("TSMM", ⟨"TPSO", "GB", Segment, Active⟩),
  ("TPSO", ⟨"TPSO", "GB", Operating, Active⟩),
  ("CBKD", ⟨"CBKA", "DE", Segment, Active⟩),
  ("CBKF", ⟨"CBKA", "DE", Segment, Active⟩),
  ("CBKE", ⟨"CBKA", "DE", Segment, Active⟩),
  ("CBKG", ⟨"CBKA", "DE", Segment, Active⟩),
  ("CGML", ⟨"CGML", "GB", Operating, Active⟩),
  ("CPTX", ⟨"CPTX", "NL", Operating, Active⟩),
  ("MAQL", ⟨"MAQL", "GB", Operating, Active⟩),
  ("DZBK", ⟨"DZBK", "DE", Operating, Active⟩),
  ("XPOS", ⟨"ITGL", "IE", Segment, Active⟩),
  ("TPEL", ⟨"TPEL", "GB", Operating, Active⟩),
  ("TEFD", ⟨"TPEL", "GB", Segment, Active⟩),
  ("TEMF", ⟨"TPEL", "GB", Segment, Expired⟩),
  ("TEMI", ⟨"TPEL", "GB", Segment, Expired⟩),
  ("TIRD", ⟨"TPEL", "GB", Segment, Expired⟩),
  ("TEMB", ⟨"TPEL", "GB", Segment, Expired⟩),
  ("TEMR", ⟨"TPEL", "GB", Segment, Active⟩),
  ("TERE", ⟨"TPEO", "GB", Segment, Expired⟩),
  ("TEFX", ⟨"TPEO", "GB", Segment, Expired⟩),
  ("TEMM", ⟨"TPEO", "GB", Segment, Expired⟩),
  ("TEGI", ⟨"TPEO", "GB", Segment, Expired⟩),
  ("TEIR", ⟨"TPEO", "GB", Segment, Expired⟩),
  ("TPEO", ⟨"TPEO", "GB", Operating, Active⟩),
  ("TEGB", ⟨"TPEO", "GB", Segment, Expired⟩),
  ("TOMG", ⟨"TPES", "ES", Segment, Expired⟩),
  ("TEPF", ⟨"TPFR", "FR", Segment, Expired⟩),
  ("TWHK", ⟨"TWHK", "HK", Operating, Active⟩),
  ("TWJT", ⟨"TWJP", "JP", Segment, Active⟩),
  ("TWSG", ⟨"TWSG", "SG", Operating, Active⟩),
  ("WOOD", ⟨"WOOD", "CZ", Operating, Active⟩),
  ("XRFQ", ⟨"ITGL", "IE", Segment, Active⟩),
  ("XPAC", ⟨"ITGL", "IE", Segment, Active⟩),
  ("LOYD", ⟨"LOYD", "GB", Operating, Active⟩),
  ("SCXF", ⟨"SCXO", "US", Segment, Active⟩),
  ("BOFS", ⟨"BOFS", "GB", Operating, Active⟩),
  ("SUNT", ⟨"SUNT", "US", Operating, Active⟩),
  ("SWBI", ⟨"SWBI", "SE", Operating, Active⟩),
  ("WBKP", ⟨"WBKP", "PL", Operating, Active⟩),
  ("BGSI", ⟨"BGSI", "DE", Operating, Active⟩),
  ("BPLC", ⟨"BPLC", "GB", Operating, Active⟩),
  ("BBSI", ⟨"BPLC", "GB", Segment, Active⟩),
  ("LSSI", ⟨"LSSI", "DE", Operating, Active⟩)]

/-- The same entries with their strings spelt out. -/
def micChars10 : List (List Char × MicChars) := [
  (['R','A','B','O'], ⟨['R','A','B','O'], ['N','L'], Operating, Active⟩),
  (['B','B','V','A'], ⟨['B','B','V','A'], ['E','S'], Operating, Active⟩),
  (['B','T','N','L'], ⟨['B','T','N','L'], ['U','S'], Operating, Active⟩),
  (['C','A','P','I'], ⟨['C','A','P','I'], ['E','S'], Operating, Active⟩),
  (['X','R','C','B'], ⟨['X','R','C','B'], ['A','T'], Operating, Active⟩),
  (['A','P','E','X'], ⟨['A','P','E','X'], ['S','G'], Operating, Active⟩),
  (['X','G','A','T'], ⟨['T','G','A','T'], ['D','E'], Segment, Active⟩),
  (['T','G','S','I'], ⟨['T','G','A','T'], ['D','E'], Segment, Active⟩),
  (['T','G','A','T'], ⟨['T','G','A','T'], ['D','E'], Operating, Active⟩),
  (['X','G','R','M'], ⟨['T','G','A','T'], ['D','E'], Segment, Active⟩),
  (['C','G','M','T'], ⟨['C','G','M','L'], ['G','B'], Segment, Active⟩),
  (['N','Y','S','I'], ⟨['N','Y','S','I'], ['D','K'], Operating, Active⟩),
  (['X','M','A','L'], ⟨['X','M','A','L'], ['M','T'], Operating, Active⟩),
  (['C','A','S','I'], ⟨['C','A','S','I'], ['S','E'], Operating, Active⟩),
  (['C','N','S','I'], ⟨['C','N','S','I'], ['N','O'], Operating, Active⟩),
  (['T','R','Q','A'], ⟨['T','R','Q','X'], ['G','B'], Segment, Active⟩),
  (['X','O','S','A'], ⟨['X','O','S','L'], ['N','O'], Segment, Active⟩),
  (['C','C','E','U'], ⟨['C','C','E','U'], ['G','B'], Operating, Active⟩),
  (['X','T','X','M'], ⟨['X','T','X','M'], ['G','B'], Operating, Active⟩),
  (['G','F','S','M'], ⟨['G','F','I','C'], ['G','B'], Segment, Active⟩),
  (['G','F','S','O'], ⟨['G','F','I','C'], ['G','B'], Segment, Active⟩),
  (['A','U','R','O'], ⟨['A','U','R','B'], ['F','R'], Segment, Active⟩),
  (['A','U','R','B'], ⟨['A','U','R','B'], ['F','R'], Operating, Active⟩),
  (['B','G','C','M'], ⟨['B','G','C','I'], ['G','B'], Segment, Expired⟩),
  (['E','X','S','I'], ⟨['E','X','E','U'], ['G','B'], Segment, Active⟩),
  (['I','S','W','R'], ⟨['I','S','W','A'], ['G','B'], Segment, Active⟩),
  (['I','S','W','C'], ⟨['I','S','W','A'], ['G','B'], Segment, Active⟩),
  (['I','S','W','B'], ⟨['I','S','W','A'], ['G','B'], Segment, Active⟩),
  (['S','U','N','M'], ⟨['S','U','N','B'], ['G','B'], Segment, Expired⟩),
  (['T','S','C','B'], ⟨['T','P','S','O'], ['G','B'], Segment, Expired⟩),
  (['V','A','G','L'], ⟨['V','A','G','L'], ['G','B'], Operating, Active⟩),
  (['B','C','S','L'], ⟨['B','C','S','L'], ['G','B'], Operating, Active⟩),
  (['B','C','S','I'], ⟨['B','C','S','L'], ['G','B'], Segment, Active⟩),
  (['B','G','C','O'], ⟨['B','G','C','I'], ['G','B'], Segment, Active⟩),
  (['G','F','B','M'], ⟨['G','F','I','B'], ['G','B'], Segment, Active⟩),
  (['G','F','B','O'], ⟨['G','F','I','B'], ['G','B'], Segment, Active⟩),
  (['G','F','I','B'], ⟨['G','F','I','B'], ['G','B'], Operating, Active⟩),
  (['G','F','I','F'], ⟨['G','F','I','C'], ['G','B'], Segment, Active⟩),
  (['G','F','I','N'], ⟨['G','F','I','C'], ['G','B'], Segment, Active⟩),
  (['G','F','I','R'], ⟨['G','F','I','C'], ['G','B'], Segment, Active⟩),
  (['I','N','G','B'], ⟨['I','N','G','B'], ['N','L'], Operating, Active⟩),
  (['S','F','C','L'], ⟨['S','F','C','L'], ['G','B'], Operating, Active⟩),
  (['S','U','N','O'], ⟨['S','U','N','B'], ['G','B'], Segment, Expired⟩),
  (['S','U','N','B'], ⟨['S','U','N','B'], ['G','B'], Operating, Expired⟩),
  (['T','P','S','L'], ⟨['T','P','S','L'], ['G','B'], Operating, Active⟩),
  (['T','S','M','R'], ⟨['T','P','S','L'], ['G','B'], Segment, Active⟩),
  (['V','O','N','T'], ⟨['V','O','N','T'], ['D','E'], Operating, Active⟩),
  (['B','K','B','R'], ⟨['B','K','B','R'], ['B','E'], Operating, Active⟩),
  (['B','K','B','F'], ⟨['B','K','B','R'], ['B','E'], Segment, Active⟩),
  (['C','B','K','A'], ⟨['C','B','K','A'], ['D','E'], Operating, Active⟩),
  (['T','P','E','S'], ⟨['T','P','E','S'], ['E','S'], Operating, Expired⟩),
  (['T','S','R','E'], ⟨['T','P','S','O'], ['G','B'], Segment, Expired⟩),
  (['T','S','C','D'], ⟨['T','P','S','O'], ['G','B'], Segment, Active⟩),
  (['T','S','G','B'], ⟨['T','P','S','O'], ['G','B'], Segment, Active⟩),
  (['T','S','F','I'], ⟨['T','P','S','O'], ['G','B'], Segment, Active⟩),
  (['T','S','E','D'], ⟨['T','P','S','O'], ['G','B'], Segment, Active⟩),
  (['T','S','G','I'], ⟨['T','P','S','O'], ['G','B'], Segment, Active⟩),
  (['T','S','M','M'], ⟨['T','P','S','O'], ['G','B'], Segment, Active⟩),
  (['T','P','S','O'], ⟨['T','P','S','O'], ['G','B'], Operating, Active⟩),
  (['C','B','K','D'], ⟨['C','B','K','A'], ['D','E'], Segment, Active⟩),
  (['C','B','K','F'], ⟨['C','B','K','A'], ['D','E'], Segment, Active⟩),
  (['C','B','K','E'], ⟨['C','B','K','A'], ['D','E'], Segment, Active⟩),
  (['C','B','K','G'], ⟨['C','B','K','A'], ['D','E'], Segment, Active⟩),
  (['C','G','M','L'], ⟨['C','G','M','L'], ['G','B'], Operating, Active⟩),
  (['C','P','T','X'], ⟨['C','P','T','X'], ['N','L'], Operating, Active⟩),
  (['M','A','Q','L'], ⟨['M','A','Q','L'], ['G','B'], Operating, Active⟩),
  (['D','Z','B','K'], ⟨['D','Z','B','K'], ['D','E'], Operating, Active⟩),
  (['X','P','O','S'], ⟨['I','T','G','L'], ['I','E'], Segment, Active⟩),
  (['T','P','E','L'], ⟨['T','P','E','L'], ['G','B'], Operating, Active⟩),
  (['T','E','F','D'], ⟨['T','P','E','L'], ['G','B'], Segment, Active⟩),
  (['T','E','M','F'], ⟨['T','P','E','L'], ['G','B'], Segment, Expired⟩),
  (['T','E','M','I'], ⟨['T','P','E','L'], ['G','B'], Segment, Expired⟩),
  (['T','I','R','D'], ⟨['T','P','E','L'], ['G','B'], Segment, Expired⟩),
  (['T','E','M','B'], ⟨['T','P','E','L'], ['G','B'], Segment, Expired⟩),
  (['T','E','M','R'], ⟨['T','P','E','L'], ['G','B'], Segment, Active⟩),
  (['T','E','R','E'], ⟨['T','P','E','O'], ['G','B'], Segment, Expired⟩),
  (['T','E','F','X'], ⟨['T','P','E','O'], ['G','B'], Segment, Expired⟩),
  (['T','E','M','M'], ⟨['T','P','E','O'], ['G','B'], Segment, Expired⟩),
  (['T','E','G','I'], ⟨['T','P','E','O'], ['G','B'], Segment, Expired⟩),
  (['T','E','I','R'], ⟨['T','P','E','O'], ['G','B'], Segment, Expired⟩),
  (['T','P','E','O'], ⟨['T','P','E','O'], ['G','B'], Operating, Active⟩),
  (['T','E','G','B'], ⟨['T','P','E','O'], ['G','B'], Segment, Expired⟩),
  (['T','O','M','G'], ⟨['T','P','E','S'], ['E','S'], Segment, Expired⟩),
  (['T','E','P','F'], ⟨['T','P','F','R'], ['F','R'], Segment, Expired⟩),
  (['T','W','H','K'], ⟨['T','W','H','K'], ['H','K'], Operating, Active⟩),
  (['T','W','J','T'], ⟨['T','W','J','P'], ['J','P'], Segment, Active⟩),
  (['T','W','S','G'], ⟨['T','W','S','G'], ['S','G'], Operating, Active⟩),
  (['W','O','O','D'], ⟨['W','O','O','D'], ['C','Z'], Operating, Active⟩),
  (['X','R','F','Q'], ⟨['I','T','G','L'], ['I','E'], Segment, Active⟩),
  (['X','P','A','C'], ⟨['I','T','G','L'], ['I','E'], Segment, Active⟩),
  (['L','O','Y','D'], ⟨['L','O','Y','D'], ['G','B'], Operating, Active⟩),
  (['S','C','X','F'], ⟨['S','C','X','O'], ['U','S'], Segment, Active⟩),
  (['B','O','F','S'], ⟨['B','O','F','S'], ['G','B'], Operating, Active⟩),
  (['S','U','N','T'], ⟨['S','U','N','T'], ['U','S'], Operating, Active⟩),
  (['S','W','B','I'], ⟨['S','W','B','I'], ['S','E'], Operating, Active⟩),
  (['W','B','K','P'], ⟨['W','B','K','P'], ['P','L'], Operating, Active⟩),
  (['B','G','S','I'], ⟨['B','G','S','I'], ['D','E'], Operating, Active⟩),
  (['B','P','L','C'], ⟨['B','P','L','C'], ['G','B'], Operating, Active⟩),
  (['B','B','S','I'], ⟨['B','P','L','C'], ['G','B'], Segment, Active⟩),
  (['L','S','S','I'], ⟨['L','S','S','I'], ['D','E'], Operating, Active⟩)]

theorem mics10_eq : mics10 = micChars10.map MicChars.entry := (rfl)

/-- iso_10383.rs 1196-1295. -/
def mics11 : List (String × Mic) := [
  ("JSEB", ⟨"XJSE", "ZA", Segment, Active⟩),
  ("BIVA", ⟨"BIVA", "MX", Operating, Active⟩),
  ("BKLN", ⟨"BKLN", "GB", Operating, Active⟩),
  ("BKLF", ⟨"BKLN", "GB", Segment, Active⟩),
  ("FISU", ⟨"FISU", "GB", Operating, Active⟩),
  ("JBSI", ⟨"JBSI", "DK", Operating, Active⟩),
  ("NAPA", ⟨"NAPA", "SE", Operating, Active⟩),
  ("POTC", ⟨"POTC", "VU", Operating, Active⟩),
  ("PPEX", ⟨"PPEX", "GB", Operating, Active⟩),
  ("ESTO", ⟨"XSTO", "SE", Segment, Active⟩),
  ("ONSE", ⟨"XSTO", "SE", Segment, Active⟩),
  ("BAAD", ⟨"BAAD", "DE", Operating, Active⟩),
  ("INVE", ⟨"INVE", "GB", Operating, Active⟩),
  ("EMCH", ⟨"TRDE", "GB", Segment, Expired⟩),
  ("VOLA", ⟨"TRDE", "GB", Segment, Expired⟩),
  ("XDNB", ⟨"XDNB", "NO", Operating, Active⟩),
  ("IFLS", ⟨"IFLS", "GB", Operating, Active⟩),
  ("XSMP", ⟨"XLDN", "GB", Segment, Expired⟩),
  ("EBSX", ⟨"BTEE", "GB", Segment, Expired⟩),
  ("EXOT", ⟨"EXOT", "GB", Operating, Active⟩),
  ("HSXE", ⟨"HSXE", "GB", Operating, Expired⟩),
  ("ANZL", ⟨"ANZL", "GB", Operating, Active⟩),
  ("BMEA", ⟨"BMEX", "ES", Segment, Active⟩),
  ("EBSC", ⟨"EBSS", "CH", Segment, Active⟩),
  ("ECHO", ⟨"ECHO", "GB", Operating, Active⟩),
  ("FBSI", ⟨"FBSI", "IT", Operating, Active⟩),
  ("HSBC", ⟨"HSBC", "GB", Operating, Active⟩),
  ("HSBT", ⟨"HSBT", "DE", Operating, Active⟩),
  ("NATX", ⟨"NATX", "FR", Operating, Active⟩),
  ("STAN", ⟨"STAN", "GB", Operating, Active⟩),
  ("VCMO", ⟨"VCMO", "GB", Operating, Active⟩),
  ("AIMX", ⟨"XLON", "GB", Segment, Active⟩),
  ("XLOM", ⟨"XLON", "GB", Segment, Active⟩),
  ("ADVT", ⟨"ADVT", "US", Operating, Active⟩),
  ("SICS", ⟨"CSEU", "GB", Segment, Active⟩),
  ("CSIN", ⟨"CSIN", "GB", Operating, Active⟩),
  ("CSSI", ⟨"CSIN", "GB", Segment, Active⟩),
  ("DOWG", ⟨"DOWG", "GB", Operating, Active⟩),
  ("AMPX", ⟨"AMPX", "GB", Operating, Active⟩),
  ("FXGB", ⟨"FXGB", "GB", Operating, Active⟩),
  ("TOMD", ⟨"TOMX", "NL", Segment, Expired⟩),
  ("TOMX", ⟨"TOMX", "NL", Operating, Expired⟩),
  ("TRSI", ⟨"TRSI", "GB", Operating, Active⟩),
  ("RBSI", ⟨"RBCB", "LU", Segment, Active⟩),
  ("RTSI", ⟨"RBCT", "GB", Segment, Active⟩),
  ("MUND", ⟨"XMUN", "DE", Segment, Active⟩),
  ("MUNC", ⟨"XMUN", "DE", Segment, Active⟩),
  ("BTEE", ⟨"BTEE", "GB", Operating, Active⟩),
  ("EBSM", ⟨"BTEE", "GB", Segment, Expired⟩),
  ("EBSS", ⟨"EBSS", "CH", Operating, Active⟩),
  ("RBCB", ⟨"RBCB", "LU", Operating, Active⟩),
  ("RBCT", ⟨"RBCT", "GB", Operating, Active⟩),
  ("WIPO", ⟨"XWAR", "PL", Segment, Active⟩),
  ("GSIB", ⟨"GSIB", "GB", Operating, Active⟩),
  ("BISI", ⟨"GSIB", "GB", Segment, Active⟩),
  ("HUDX", ⟨"HUDX", "HU", Operating, Active⟩),
  ("IEXD", ⟨"IEXG", "US", Segment, Active⟩),
  ("IMCS", ⟨"IMCS", "US", Operating, Active⟩),
  ("UBSY", ⟨"UBSB", "GB", Segment, Active⟩),
  ("XEYE", ⟨"XDUB", "IE", Segment, Active⟩),
  ("XDUB", ⟨"XDUB", "IE", Operating, Active⟩),
  ("XATL", ⟨"XDUB", "IE", Segment, Active⟩),
  ("BILT", ⟨"BILT", "ZZ", Operating, Active⟩),
  ("XHNF", ⟨"HSTC", "VN", Segment, Active⟩),
  ("MUFP", ⟨"MUFP", "GB", Operating, Active⟩),
  ("VFIL", ⟨"VFIL", "IE", Operating, Active⟩),
  ("VFSI", ⟨"VFIL", "IE", Segment, Active⟩),
  ("VFXO", ⟨"VFIL", "IE", Segment, Active⟩),
  ("CCML", ⟨"CCML", "GB", Operating, Active⟩),
  ("CFTW", ⟨"CFTW", "TW", Operating, Active⟩),
  ("DAPA", ⟨"DAPA", "DE", Operating, Active⟩),
  ("VLEX", ⟨"VLEX", "CH", Operating, Active⟩),
  ("XSBT", ⟨"XSES", "SG", Segment, Active⟩),
  ("ENSY", ⟨"XLDN", "GB", Segment, Expired⟩),
  ("MHIP", ⟨"MHIP", "GB", Operating, Active⟩),
  ("WINS", ⟨"WINS", "GB", Operating, Active⟩),
  ("WINX", ⟨"WINS", "GB", Segment, Active⟩),
  ("ALXB", ⟨"XBRU", "BE", Segment, Active⟩),
  ("MLXB", ⟨"XBRU", "BE", Segment, Active⟩),
  ("ENXL", ⟨"XLIS", "PT", Segment, Active⟩),
  ("ALXL", ⟨"XLIS", "PT", Segment, Active⟩),
  ("XMLI", ⟨"XPAR", "FR", Segment, Active⟩),
  ("ALXP", ⟨"XPAR", "FR", Segment, Active⟩),
  ("SGMT", ⟨"GSCO", "US", Segment, Active⟩),
  ("MASG", ⟨"MASG", "SG", Operating, Active⟩),
  ("TCML", ⟨"TCML", "GB", Operating, Active⟩),
  ("FRTE", ⟨"FRTE", "GB", Operating, Active⟩),
  ("THEM", ⟨"THEM", "US", Operating, Active⟩),
  ("LEDG", ⟨"LEDG", "US", Operating, Active⟩),
  ("MTSD", ⟨"BEAM", "BE", Segment, Active⟩),
  ("MTSF", ⟨"BEAM", "BE", Segment, Active⟩),
  ("ISDX", ⟨"ICAP", "GB", Segment, Expired⟩),
  ("MUTI", ⟨"MUTI", "GB", Operating, Active⟩),
  ("NDCM", ⟨"NDCM", "GB", Operating, Active⟩),
  ("IMEQ", ⟨"NDEX", "NL", Segment, Active⟩),
  ("NDXS", ⟨"NDEX", "NL", Segment, Active⟩),
  ("NDEX", ⟨"NDEX", "NL", Operating, Active⟩),
  ("SPEC", ⟨"SPEC", "GB", Operating, Active⟩),
  ("ALXA", ⟨"XAMS", "NL", Segment, Expired⟩),
  ("ETFP", ⟨"XMIL", "IT", Segment, Active⟩)]

/-- The same entries with their strings spelt out. -/
def micChars11 : List (List Char × MicChars) := [
  (['J','S','E','B'], ⟨['X','J','S','E'], ['Z','A'], Segment, Active⟩),
  (['B','I','V','A'], ⟨['B','I','V','A'], ['M','X'], Operating, Active⟩),
  (['B','K','L','N'], ⟨['B','K','L','N'], ['G','B'], Operating, Active⟩),
  (['B','K','L','F'], ⟨['B','K','L','N'], ['G','B'], Segment, Active⟩),
  (['F','I','S','U'], ⟨['F','I','S','U'], ['G','B'], Operating, Active⟩),
  (['J','B','S','I'], ⟨['J','B','S','I'], ['D','K'], Operating, Active⟩),
  (['N','A','P','A'], ⟨['N','A','P','A'], ['S','E'], Operating, Active⟩),
  (['P','O','T','C'], ⟨['P','O','T','C'], ['V','U'], Operating, Active⟩),
  (['P','P','E','X'], ⟨['P','P','E','X'], ['G','B'], Operating, Active⟩),
  (['E','S','T','O'], ⟨['X','S','T','O'], ['S','E'], Segment, Active⟩),
  (['O','N','S','E'], ⟨['X','S','T','O'], ['S','E'], Segment, Active⟩),
  (['B','A','A','D'], ⟨['B','A','A','D'], ['D','E'], Operating, Active⟩),
  (['I','N','V','E'], ⟨['I','N','V','E'], ['G','B'], Operating, Active⟩),
  (['E','M','C','H'], ⟨['T','R','D','E'], ['G','B'], Segment, Expired⟩),
  (['V','O','L','A'], ⟨['T','R','D','E'], ['G','B'], Segment, Expired⟩),
  (['X','D','N','B'], ⟨['X','D','N','B'], ['N','O'], Operating, Active⟩),
  (['I','F','L','S'], ⟨['I','F','L','S'], ['G','B'], Operating, Active⟩),
  (['X','S','M','P'], ⟨['X','L','D','N'], ['G','B'], Segment, Expired⟩),
  (['E','B','S','X'], ⟨['B','T','E','E'], ['G','B'], Segment, Expired⟩),
  (['E','X','O','T'], ⟨['E','X','O','T'], ['G','B'], Operating, Active⟩),
  (['H','S','X','E'], ⟨['H','S','X','E'], ['G','B'], Operating, Expired⟩),
  (['A','N','Z','L'], ⟨['A','N','Z','L'], ['G','B'], Operating, Active⟩),
  (['B','M','E','A'], ⟨['B','M','E','X'], ['E','S'], Segment, Active⟩),
  (['E','B','S','C'], ⟨['E','B','S','S'], ['C','H'], Segment, Active⟩),
  (['E','C','H','O'], ⟨['E','C','H','O'], ['G','B'], Operating, Active⟩),
  (['F','B','S','I'], ⟨['F','B','S','I'], ['I','T'], Operating, Active⟩),
  (['H','S','B','C'], ⟨['H','S','B','C'], ['G','B'], Operating, Active⟩),
  (['H','S','B','T'], ⟨['H','S','B','T'], ['D','E'], Operating, Active⟩),
  (['N','A','T','X'], ⟨['N','A','T','X'], ['F','R'], Operating, Active⟩),
  (['S','T','A','N'], ⟨['S','T','A','N'], ['G','B'], Operating, Active⟩),
  (['V','C','M','O'], ⟨['V','C','M','O'], ['G','B'], Operating, Active⟩),
  (['A','I','M','X'], ⟨['X','L','O','N'], ['G','B'], Segment, Active⟩),
  (['X','L','O','M'], ⟨['X','L','O','N'], ['G','B'], Segment, Active⟩),
  (['A','D','V','T'], ⟨['A','D','V','T'], ['U','S'], Operating, Active⟩),
  (['S','I','C','S'], ⟨['C','S','E','U'], ['G','B'], Segment, Active⟩),
  (['C','S','I','N'], ⟨['C','S','I','N'], ['G','B'], Operating, Active⟩),
  (['C','S','S','I'], ⟨['C','S','I','N'], ['G','B'], Segment, Active⟩),
  (['D','O','W','G'], ⟨['D','O','W','G'], ['G','B'], Operating, Active⟩),
  (['A','M','P','X'], ⟨['A','M','P','X'], ['G','B'], Operating, Active⟩),
  (['F','X','G','B'], ⟨['F','X','G','B'], ['G','B'], Operating, Active⟩),
  (['T','O','M','D'], ⟨['T','O','M','X'], ['N','L'], Segment, Expired⟩),
  (['T','O','M','X'], ⟨['T','O','M','X'], ['N','L'], Operating, Expired⟩),
  (['T','R','S','I'], ⟨['T','R','S','I'], ['G','B'], Operating, Active⟩),
  (['R','B','S','I'], ⟨['R','B','C','B'], ['L','U'], Segment, Active⟩),
  (['R','T','S','I'], ⟨['R','B','C','T'], ['G','B'], Segment, Active⟩),
  (['M','U','N','D'], ⟨['X','M','U','N'], ['D','E'], Segment, Active⟩),
  (['M','U','N','C'], ⟨['X','M','U','N'], ['D','E'], Segment, Active⟩),
  (['B','T','E','E'], ⟨['B','T','E','E'], ['G','B'], Operating, Active⟩),
  (['E','B','S','M'], ⟨['B','T','E','E'], ['G','B'], Segment, Expired⟩),
  (['E','B','S','S'], ⟨['E','B','S','S'], ['C','H'], Operating, Active⟩),
  (['R','B','C','B'], ⟨['R','B','C','B'], ['L','U'], Operating, Active⟩),
  (['R','B','C','T'], ⟨['R','B','C','T'], ['G','B'], Operating, Active⟩),
  (['W','I','P','O'], ⟨['X','W','A','R'], ['P','L'], Segment, Active⟩),
  (['G','S','I','B'], ⟨['G','S','I','B'], ['G','B'], Operating, Active⟩),
  (['B','I','S','I'], ⟨['G','S','I','B'], ['G','B'], Segment, Active⟩),
  (['H','U','D','X'], ⟨['H','U','D','X'], ['H','U'], Operating, Active⟩),
  (['I','E','X','D'], ⟨['I','E','X','G'], ['U','S'], Segment, Active⟩),
  (['I','M','C','S'], ⟨['I','M','C','S'], ['U','S'], Operating, Active⟩),
  (['U','B','S','Y'], ⟨['U','B','S','B'], ['G','B'], Segment, Active⟩),
  (['X','E','Y','E'], ⟨['X','D','U','B'], ['I','E'], Segment, Active⟩),
  (['X','D','U','B'], ⟨['X','D','U','B'], ['I','E'], Operating, Active⟩),
  (['X','A','T','L'], ⟨['X','D','U','B'], ['I','E'], Segment, Active⟩),
  (['B','I','L','T'], ⟨['B','I','L','T'], ['Z','Z'], Operating, Active⟩),
  (['X','H','N','F'], ⟨['H','S','T','C'], ['V','N'], Segment, Active⟩),
  (['M','U','F','P'], ⟨['M','U','F','P'], ['G','B'], Operating, Active⟩),
  (['V','F','I','L'], ⟨['V','F','I','L'], ['I','E'], Operating, Active⟩),
  (['V','F','S','I'], ⟨['V','F','I','L'], ['I','E'], Segment, Active⟩),
  (['V','F','X','O'], ⟨['V','F','I','L'], ['I','E'], Segment, Active⟩),
  (['C','C','M','L'], ⟨['C','C','M','L'], ['G','B'], Operating, Active⟩),
  (['C','F','T','W'], ⟨['C','F','T','W'], ['T','W'], Operating, Active⟩),
  (['D','A','P','A'], ⟨['D','A','P','A'], ['D','E'], Operating, Active⟩),
  (['V','L','E','X'], ⟨['V','L','E','X'], ['C','H'], Operating, Active⟩),
  (['X','S','B','T'], ⟨['X','S','E','S'], ['S','G'], Segment, Active⟩),
  (['E','N','S','Y'], ⟨['X','L','D','N'], ['G','B'], Segment, Expired⟩),
  (['M','H','I','P'], ⟨['M','H','I','P'], ['G','B'], Operating, Active⟩),
  (['W','I','N','S'], ⟨['W','I','N','S'], ['G','B'], Operating, Active⟩),
  (['W','I','N','X'], ⟨['W','I','N','S'], ['G','B'], Segment, Active⟩),
  (['A','L','X','B'], ⟨['X','B','R','U'], ['B','E'], Segment, Active⟩),
  (['M','L','X','B'], ⟨['X','B','R','U'], ['B','E'], Segment, Active⟩),
  (['E','N','X','L'], ⟨['X','L','I','S'], ['P','T'], Segment, Active⟩),
  (['A','L','X','L'], ⟨['X','L','I','S'], ['P','T'], Segment, Active⟩),
  (['X','M','L','I'], ⟨['X','P','A','R'], ['F','R'], Segment, Active⟩),
  (['A','L','X','P'], ⟨['X','P','A','R'], ['F','R'], Segment, Active⟩),
  (['S','G','M','T'], ⟨['G','S','C','O'], ['U','S'], Segment, Active⟩),
  (['M','A','S','G'], ⟨['M','A','S','G'], ['S','G'], Operating, Active⟩),
  (['T','C','M','L'], ⟨['T','C','M','L'], ['G','B'], Operating, Active⟩),
  (['F','R','T','E'], ⟨['F','R','T','E'], ['G','B'], Operating, Active⟩),
  (['T','H','E','M'], ⟨['T','H','E','M'], ['U','S'], Operating, Active⟩),
  (['L','E','D','G'], ⟨['L','E','D','G'], ['U','S'], Operating, Active⟩),
  (['M','T','S','D'], ⟨['B','E','A','M'], ['B','E'], Segment, Active⟩),
  (['M','T','S','F'], ⟨['B','E','A','M'], ['B','E'], Segment, Active⟩),
  (['I','S','D','X'], ⟨['I','C','A','P'], ['G','B'], Segment, Expired⟩),
  (['M','U','T','I'], ⟨['M','U','T','I'], ['G','B'], Operating, Active⟩),
  (['N','D','C','M'], ⟨['N','D','C','M'], ['G','B'], Operating, Active⟩),
  (['I','M','E','Q'], ⟨['N','D','E','X'], ['N','L'], Segment, Active⟩),
  (['N','D','X','S'], ⟨['N','D','E','X'], ['N','L'], Segment, Active⟩),
  (['N','D','E','X'], ⟨['N','D','E','X'], ['N','L'], Operating, Active⟩),
  (['S','P','E','C'], ⟨['S','P','E','C'], ['G','B'], Operating, Active⟩),
  (['A','L','X','A'], ⟨['X','A','M','S'], ['N','L'], Segment, Expired⟩),
  (['E','T','F','P'], ⟨['X','M','I','L'], ['I','T'], Segment, Active⟩)]

theorem mics11_eq : mics11 = micChars11.map MicChars.entry := (rfl)

/-- iso_10383.rs 1296-1395. -/
def mics12 : List (String × Mic) := [
  ("BART", ⟨"BCRM", "GB", Segment, Active⟩),
  ("BARO", ⟨"BCRM", "GB", Segment, Active⟩),
  ("BCRM", ⟨"BCRM", "GB", Operating, Active⟩),
  ("BARK", ⟨"BCRM", "GB", Segment, Active⟩),
  ("BMTS", ⟨"BEAM", "BE", Segment, Active⟩),
  ("MTUS", ⟨"MTUS", "US", Operating, Expired⟩),
  ("GOTC", ⟨"GOTC", "US", Operating, Active⟩),
  ("MFXC", ⟨"MFXC", "GB", Operating, Active⟩),
  ("MFXR", ⟨"MFXC", "GB", Segment, Active⟩),
  ("MFXA", ⟨"MFXC", "GB", Segment, Active⟩),
  ("SNSI", ⟨"SNSI", "DK", Operating, Active⟩),
  ("VERT", ⟨"VERT", "US", Operating, Active⟩),
  ("IBUL", ⟨"XBUL", "BG", Segment, Active⟩),
  ("APXL", ⟨"APXL", "AU", Operating, Active⟩),
  ("CLTD", ⟨"CLTD", "SG", Operating, Active⟩),
  ("DRCT", ⟨"DRCT", "JP", Operating, Active⟩),
  ("MTXX", ⟨"MTXX", "US", Operating, Active⟩),
  ("CAVE", ⟨"OTCM", "US", Segment, Active⟩),
  ("OTCB", ⟨"OTCM", "US", Segment, Active⟩),
  ("PINL", ⟨"OTCM", "US", Segment, Active⟩),
  ("PINI", ⟨"OTCM", "US", Segment, Active⟩),
  ("PINX", ⟨"OTCM", "US", Segment, Active⟩),
  ("OTCQ", ⟨"OTCM", "US", Segment, Active⟩),
  ("PSGM", ⟨"OTCM", "US", Segment, Active⟩),
  ("PINC", ⟨"OTCM", "US", Segment, Active⟩),
  ("XEER", ⟨"XEEE", "DE", Segment, Active⟩),
  ("XEEO", ⟨"XEEE", "DE", Segment, Active⟩),
  ("XEEE", ⟨"XEEE", "DE", Operating, Active⟩),
  ("MTSO", ⟨"MTSO", "IT", Operating, Active⟩),
  ("MTSC", ⟨"MTSO", "IT", Segment, Active⟩),
  ("ELUK", ⟨"NORX", "NO", Segment, Active⟩),
  ("ELNO", ⟨"NORX", "NO", Segment, Active⟩),
  ("ELSE", ⟨"NORX", "NO", Segment, Active⟩),
  ("ELEU", ⟨"NORX", "NO", Segment, Active⟩),
  ("FREI", ⟨"NORX", "NO", Segment, Active⟩),
  ("NOSI", ⟨"NOSI", "GB", Operating, Active⟩),
  ("PRME", ⟨"XMTS", "GB", Segment, Expired⟩),
  ("CSBX", ⟨"CSEU", "GB", Segment, Active⟩),
  ("CXOT", ⟨"IFEU", "GB", Segment, Active⟩),
  ("XBDV", ⟨"XBDV", "AO", Operating, Active⟩),
  ("DKED", ⟨"XSTO", "SE", Segment, Active⟩),
  ("DKFI", ⟨"XSTO", "SE", Segment, Active⟩),
  ("NOED", ⟨"XSTO", "SE", Segment, Active⟩),
  ("SEED", ⟨"XSTO", "SE", Segment, Active⟩),
  ("PNED", ⟨"XSTO", "SE", Segment, Expired⟩),
  ("USWB", ⟨"XSTO", "SE", Segment, Active⟩),
  ("NOFI", ⟨"XSTO", "SE", Segment, Active⟩),
  ("FIED", ⟨"XSTO", "SE", Segment, Active⟩),
  ("EBON", ⟨"XSTO", "SE", Segment, Active⟩),
  ("EUWB", ⟨"XSTO", "SE", Segment, Active⟩),
  ("DIFX", ⟨"DIFX", "AE", Operating, Active⟩),
  ("TREA", ⟨"TREU", "GB", Segment, Active⟩),
  ("TREO", ⟨"TREU", "GB", Segment, Active⟩),
  ("AUTB", ⟨"AUTX", "GB", Segment, Active⟩),
  ("AUTX", ⟨"AUTX", "GB", Operating, Active⟩),
  ("AUTP", ⟨"AUTX", "GB", Segment, Active⟩),
  ("CXRT", ⟨"IFEU", "GB", Segment, Active⟩),
  ("ACKF", ⟨"KNIG", "US", Segment, Active⟩),
  ("NEXS", ⟨"NEXS", "GB", Operating, Active⟩),
  ("VIRT", ⟨"VIRT", "US", Operating, Active⟩),
  ("BALT", ⟨"BALT", "GB", Operating, Active⟩),
  ("BLTX", ⟨"BALT", "GB", Segment, Active⟩),
  ("CGMA", ⟨"CGMA", "AU", Operating, Active⟩),
  ("CGMH", ⟨"CGMH", "HK", Operating, Active⟩),
  ("CGMI", ⟨"CGMI", "US", Operating, Active⟩),
  ("LQFI", ⟨"CGMI", "US", Segment, Expired⟩),
  ("CGMX", ⟨"CGMX", "MX", Operating, Active⟩),
  ("CITX", ⟨"CITX", "JP", Operating, Active⟩),
  ("CITD", ⟨"CITX", "JP", Segment, Active⟩),
  ("GRIO", ⟨"GRIF", "GB", Segment, Active⟩),
  ("LQED", ⟨"LQED", "US", Operating, Active⟩),
  ("MTXA", ⟨"MTXX", "US", Segment, Active⟩),
  ("PTPG", ⟨"PTPG", "PL", Operating, Active⟩),
  ("UFEX", ⟨"UFEX", "UY", Operating, Active⟩),
  ("TSAD", ⟨"TSAD", "US", Operating, Active⟩),
  ("XISL", ⟨"XISL", "PK", Operating, Expired⟩),
  ("XKAR", ⟨"XKAR", "PK", Operating, Active⟩),
  ("XLAH", ⟨"XLAH", "PK", Operating, Expired⟩),
  ("XLGT", ⟨"XLGT", "LI", Operating, Active⟩),
  ("XSTF", ⟨"XSTU", "DE", Segment, Active⟩),
  ("STUC", ⟨"XSTU", "DE", Segment, Active⟩),
  ("STUD", ⟨"XSTU", "DE", Segment, Active⟩),
  ("XCEG", ⟨"XWBO", "AT", Segment, Expired⟩),
  ("XRSP", ⟨"PEEL", "GB", Segment, Active⟩),
  ("PEEL", ⟨"PEEL", "GB", Operating, Active⟩),
  ("XPHX", ⟨"PEEL", "GB", Segment, Active⟩),
  ("CAZE", ⟨"CAZE", "GB", Operating, Expired⟩),
  ("JPBX", ⟨"JPBX", "US", Operating, Active⟩),
  ("JPSI", ⟨"JPSI", "GB", Operating, Active⟩),
  ("JSEF", ⟨"JSEF", "US", Operating, Expired⟩),
  ("AREX", ⟨"AREX", "IE", Operating, Active⟩),
  ("HOTC", ⟨"ASEX", "GR", Segment, Active⟩),
  ("XADE", ⟨"ASEX", "GR", Segment, Active⟩),
  ("ENAX", ⟨"ASEX", "GR", Segment, Active⟩),
  ("XATH", ⟨"ASEX", "GR", Segment, Active⟩),
  ("CSAU", ⟨"CSAU", "AU", Operating, Active⟩),
  ("CFAU", ⟨"CSAU", "AU", Segment, Active⟩),
  ("CSEU", ⟨"CSEU", "GB", Operating, Active⟩),
  ("CSCF", ⟨"CSEU", "GB", Segment, Active⟩),
  ("CSHK", ⟨"CSHK", "HK", Operating, Active⟩)]

/-- The same entries with their strings spelt out. -/
def micChars12 : List (List Char × MicChars) := [
  (['B','A','R','T'], ⟨['B','C','R','M'], ['G','B'], Segment, Active⟩),
  (['B','A','R','O'], ⟨['B','C','R','M'], ['G','B'], Segment, Active⟩),
  (['B','C','R','M'], ⟨['B','C','R','M'], ['G','B'], Operating, Active⟩),
  (['B','A','R','K'], ⟨['B','C','R','M'], ['G','B'], Segment, Active⟩),
  (['B','M','T','S'], ⟨['B','E','A','M'], ['B','E'], Segment, Active⟩),
  (['M','T','U','S'], ⟨['M','T','U','S'], ['U','S'], Operating, Expired⟩),
  (['G','O','T','C'], ⟨['G','O','T','C'], ['U','S'], Operating, Active⟩),
  (['M','F','X','C'], ⟨['M','F','X','C'], ['G','B'], Operating, Active⟩),
  (['M','F','X','R'], ⟨['M','F','X','C'], ['G','B'], Segment, Active⟩),
  (['M','F','X','A'], ⟨['M','F','X','C'], ['G','B'], Segment, Active⟩),
  (['S','N','S','I'], ⟨['S','N','S','I'], ['D','K'], Operating, Active⟩),
  (['V','E','R','T'], ⟨['V','E','R','T'], ['U','S'], Operating, Active⟩),
  (['I','B','U','L'], ⟨['X','B','U','L'], ['B','G'], Segment, Active⟩),
  (['A','P','X','L'], ⟨['A','P','X','L'], ['A','U'], Operating, Active⟩),
  (['C','L','T','D'], ⟨['C','L','T','D'], ['S','G'], Operating, Active⟩),
  (['D','R','C','T'], ⟨['D','R','C','T'], ['J','P'], Operating, Active⟩),
  (['M','T','X','X'], ⟨['M','T','X','X'], ['U','S'], Operating, Active⟩),
  (['C','A','V','E'], ⟨['O','T','C','M'], ['U','S'], Segment, Active⟩),
  (['O','T','C','B'], ⟨['O','T','C','M'], ['U','S'], Segment, Active⟩),
  (['P','I','N','L'], ⟨['O','T','C','M'], ['U','S'], Segment, Active⟩),
  (['P','I','N','I'], ⟨['O','T','C','M'], ['U','S'], Segment, Active⟩),
  (['P','I','N','X'], ⟨['O','T','C','M'], ['U','S'], Segment, Active⟩),
  (['O','T','C','Q'], ⟨['O','T','C','M'], ['U','S'], Segment, Active⟩),
  (['P','S','G','M'], ⟨['O','T','C','M'], ['U','S'], Segment, Active⟩),
  (['P','I','N','C'], ⟨['O','T','C','M'], ['U','S'], Segment, Active⟩),
  (['X','E','E','R'], ⟨['X','E','E','E'], ['D','E'], Segment, Active⟩),
  (['X','E','E','O'], ⟨['X','E','E','E'], ['D','E'], Segment, Active⟩),
  (['X','E','E','E'], ⟨['X','E','E','E'], ['D','E'], Operating, Active⟩),
  (['M','T','S','O'], ⟨['M','T','S','O'], ['I','T'], Operating, Active⟩),
  (['M','T','S','C'], ⟨['M','T','S','O'], ['I','T'], Segment, Active⟩),
  (['E','L','U','K'], ⟨['N','O','R','X'], ['N','O'], Segment, Active⟩),
  (['E','L','N','O'], ⟨['N','O','R','X'], ['N','O'], Segment, Active⟩),
  (['E','L','S','E'], ⟨['N','O','R','X'], ['N','O'], Segment, Active⟩),
  (['E','L','E','U'], ⟨['N','O','R','X'], ['N','O'], Segment, Active⟩),
  (['F','R','E','I'], ⟨['N','O','R','X'], ['N','O'], Segment, Active⟩),
  (['N','O','S','I'], ⟨['N','O','S','I'], ['G','B'], Operating, Active⟩),
  (['P','R','M','E'], ⟨['X','M','T','S'], ['G','B'], Segment, Expired⟩),
  (['C','S','B','X'], ⟨['C','S','E','U'], ['G','B'], Segment, Active⟩),
  (['C','X','O','T'], ⟨['I','F','E','U'], ['G','B'], Segment, Active⟩),
  (['X','B','D','V'], ⟨['X','B','D','V'], ['A','O'], Operating, Active⟩),
  (['D','K','E','D'], ⟨['X','S','T','O'], ['S','E'], Segment, Active⟩),
  (['D','K','F','I'], ⟨['X','S','T','O'], ['S','E'], Segment, Active⟩),
  (['N','O','E','D'], ⟨['X','S','T','O'], ['S','E'], Segment, Active⟩),
  (['S','E','E','D'], ⟨['X','S','T','O'], ['S','E'], Segment, Active⟩),
  (['P','N','E','D'], ⟨['X','S','T','O'], ['S','E'], Segment, Expired⟩),
  (['U','S','W','B'], ⟨['X','S','T','O'], ['S','E'], Segment, Active⟩),
  (['N','O','F','I'], ⟨['X','S','T','O'], ['S','E'], Segment, Active⟩),
  (['F','I','E','D'], ⟨['X','S','T','O'], ['S','E'], Segment, Active⟩),
  (['E','B','O','N'], ⟨['X','S','T','O'], ['S','E'], Segment, Active⟩),
  (['E','U','W','B'], ⟨['X','S','T','O'], ['S','E'], Segment, Active⟩),
  (['D','I','F','X'], ⟨['D','I','F','X'], ['A','E'], Operating, Active⟩),
  (['T','R','E','A'], ⟨['T','R','E','U'], ['G','B'], Segment, Active⟩),
  (['T','R','E','O'], ⟨['T','R','E','U'], ['G','B'], Segment, Active⟩),
  (['A','U','T','B'], ⟨['A','U','T','X'], ['G','B'], Segment, Active⟩),
  (['A','U','T','X'], ⟨['A','U','T','X'], ['G','B'], Operating, Active⟩),
  (['A','U','T','P'], ⟨['A','U','T','X'], ['G','B'], Segment, Active⟩),
  (['C','X','R','T'], ⟨['I','F','E','U'], ['G','B'], Segment, Active⟩),
  (['A','C','K','F'], ⟨['K','N','I','G'], ['U','S'], Segment, Active⟩),
  (['N','E','X','S'], ⟨['N','E','X','S'], ['G','B'], Operating, Active⟩),
  (['V','I','R','T'], ⟨['V','I','R','T'], ['U','S'], Operating, Active⟩),
  (['B','A','L','T'], ⟨['B','A','L','T'], ['G','B'], Operating, Active⟩),
  (['B','L','T','X'], ⟨['B','A','L','T'], ['G','B'], Segment, Active⟩),
  (['C','G','M','A'], ⟨['C','G','M','A'], ['A','U'], Operating, Active⟩),
  (['C','G','M','H'], ⟨['C','G','M','H'], ['H','K'], Operating, Active⟩),
  (['C','G','M','I'], ⟨['C','G','M','I'], ['U','S'], Operating, Active⟩),
  (['L','Q','F','I'], ⟨['C','G','M','I'], ['U','S'], Segment, Expired⟩),
  (['C','G','M','X'], ⟨['C','G','M','X'], ['M','X'], Operating, Active⟩),
  (['C','I','T','X'], ⟨['C','I','T','X'], ['J','P'], Operating, Active⟩),
  (['C','I','T','D'], ⟨['C','I','T','X'], ['J','P'], Segment, Active⟩),
  (['G','R','I','O'], ⟨['G','R','I','F'], ['G','B'], Segment, Active⟩),
  (['L','Q','E','D'], ⟨['L','Q','E','D'], ['U','S'], Operating, Active⟩),
  (['M','T','X','A'], ⟨['M','T','X','X'], ['U','S'], Segment, Active⟩),
  (['P','T','P','G'], ⟨['P','T','P','G'], ['P','L'], Operating, Active⟩),
  (['U','F','E','X'], ⟨['U','F','E','X'], ['U','Y'], Operating, Active⟩),
  (['T','S','A','D'], ⟨['T','S','A','D'], ['U','S'], Operating, Active⟩),
  (['X','I','S','L'], ⟨['X','I','S','L'], ['P','K'], Operating, Expired⟩),
  (['X','K','A','R'], ⟨['X','K','A','R'], ['P','K'], Operating, Active⟩),
  (['X','L','A','H'], ⟨['X','L','A','H'], ['P','K'], Operating, Expired⟩),
  (['X','L','G','T'], ⟨['X','L','G','T'], ['L','I'], Operating, Active⟩),
  (['X','S','T','F'], ⟨['X','S','T','U'], ['D','E'], Segment, Active⟩),
  (['S','T','U','C'], ⟨['X','S','T','U'], ['D','E'], Segment, Active⟩),
  (['S','T','U','D'], ⟨['X','S','T','U'], ['D','E'], Segment, Active⟩),
  (['X','C','E','G'], ⟨['X','W','B','O'], ['A','T'], Segment, Expired⟩),
  (['X','R','S','P'], ⟨['P','E','E','L'], ['G','B'], Segment, Active⟩),
  (['P','E','E','L'], ⟨['P','E','E','L'], ['G','B'], Operating, Active⟩),
  (['X','P','H','X'], ⟨['P','E','E','L'], ['G','B'], Segment, Active⟩),
  (['C','A','Z','E'], ⟨['C','A','Z','E'], ['G','B'], Operating, Expired⟩),
  (['J','P','B','X'], ⟨['J','P','B','X'], ['U','S'], Operating, Active⟩),
  (['J','P','S','I'], ⟨['J','P','S','I'], ['G','B'], Operating, Active⟩),
  (['J','S','E','F'], ⟨['J','S','E','F'], ['U','S'], Operating, Expired⟩),
  (['A','R','E','X'], ⟨['A','R','E','X'], ['I','E'], Operating, Active⟩),
  (['H','O','T','C'], ⟨['A','S','E','X'], ['G','R'], Segment, Active⟩),
  (['X','A','D','E'], ⟨['A','S','E','X'], ['G','R'], Segment, Active⟩),
  (['E','N','A','X'], ⟨['A','S','E','X'], ['G','R'], Segment, Active⟩),
  (['X','A','T','H'], ⟨['A','S','E','X'], ['G','R'], Segment, Active⟩),
  (['C','S','A','U'], ⟨['C','S','A','U'], ['A','U'], Operating, Active⟩),
  (['C','F','A','U'], ⟨['C','S','A','U'], ['A','U'], Segment, Active⟩),
  (['C','S','E','U'], ⟨['C','S','E','U'], ['G','B'], Operating, Active⟩),
  (['C','S','C','F'], ⟨['C','S','E','U'], ['G','B'], Segment, Active⟩),
  (['C','S','H','K'], ⟨['C','S','H','K'], ['H','K'], Operating, Active⟩)]

theorem mics12_eq : mics12 = micChars12.map MicChars.entry := (rfl)

/-- iso_10383.rs 1396-1495. -/
def mics13 : List (String × Mic) := [
  ("CFHK", ⟨"CSHK", "HK", Segment, Active⟩),
  ("CSJP", ⟨"CSJP", "JP", Operating, Active⟩),
  ("CFJP", ⟨"CSJP", "JP", Segment, Active⟩),
  ("EDGE", ⟨"EDGE", "US", Operating, Expired⟩),
  ("FICX", ⟨"FICX", "DE", Operating, Active⟩),
  ("GBOT", ⟨"GBOT", "MU", Operating, Active⟩),
  ("GRIF", ⟨"GRIF", "GB", Operating, Active⟩),
  ("IBGH", ⟨"IBGH", "ES", Operating, Active⟩),
  ("IEXG", ⟨"IEXG", "US", Operating, Active⟩),
  ("LMEC", ⟨"LMEC", "GB", Operating, Active⟩),
  ("NEXO", ⟨"NEXO", "NO", Operating, Active⟩),
  ("NMRJ", ⟨"NMRJ", "JP", Operating, Active⟩),
  ("NXJP", ⟨"NMRJ", "JP", Segment, Active⟩),
  ("NXVW", ⟨"NMRJ", "JP", Segment, Active⟩),
  ("PARX", ⟨"TRDE", "GB", Segment, Active⟩),
  ("ELIX", ⟨"TRDE", "GB", Segment, Active⟩),
  ("TRDX", ⟨"TRDE", "GB", Segment, Active⟩),
  ("XBEL", ⟨"XBEL", "RS", Operating, Active⟩),
  ("BLBF", ⟨"XBLB", "BA", Segment, Active⟩),
  ("XBLB", ⟨"XBLB", "BA", Operating, Active⟩),
  ("XMOT", ⟨"XMIL", "IT", Segment, Active⟩),
  ("MOTX", ⟨"XMIL", "IT", Segment, Active⟩),
  ("MUNB", ⟨"XMUN", "DE", Segment, Active⟩),
  ("MUNA", ⟨"XMUN", "DE", Segment, Active⟩),
  ("XMUN", ⟨"XMUN", "DE", Operating, Active⟩),
  ("XNXC", ⟨"XNXC", "NL", Operating, Active⟩),
  ("XOPV", ⟨"XSTO", "SE", Segment, Expired⟩),
  ("XVES", ⟨"XVES", "LU", Operating, Active⟩),
  ("XVIA", ⟨"XLIT", "LT", Segment, Expired⟩),
  ("XHON", ⟨"XHON", "HN", Operating, Expired⟩),
  ("ICUS", ⟨"ICUS", "US", Operating, Expired⟩),
  ("ITSM", ⟨"ITSM", "IT", Operating, Expired⟩),
  ("JATA", ⟨"JATA", "JP", Operating, Expired⟩),
  ("KMTS", ⟨"KMTS", "GB", Operating, Expired⟩),
  ("XSUR", ⟨"XSUR", "ID", Operating, Expired⟩),
  ("XWCE", ⟨"IFCA", "CA", Segment, Expired⟩),
  ("NASN", ⟨"XSTO", "SE", Segment, Expired⟩),
  ("MTSP", ⟨"MTSP", "PL", Operating, Expired⟩),
  ("XASM", ⟨"XDUB", "IE", Segment, Expired⟩),
  ("XIEX", ⟨"XDUB", "IE", Segment, Expired⟩),
  ("XJKT", ⟨"XJKT", "ID", Operating, Expired⟩),
  ("MTAX", ⟨"MTAX", "IT", Operating, Expired⟩),
  ("XEAS", ⟨"XEQT", "BE", Segment, Expired⟩),
  ("XBMK", ⟨"XBMK", "US", Operating, Expired⟩),
  ("XBMF", ⟨"XBMF", "BR", Operating, Expired⟩),
  ("ICEU", ⟨"ICEU", "GB", Operating, Expired⟩),
  ("CETO", ⟨"XWAR", "PL", Segment, Expired⟩),
  ("XA1X", ⟨"XA1X", "AR", Operating, Expired⟩),
  ("ICAT", ⟨"ICAH", "GB", Segment, Expired⟩),
  ("NOME", ⟨"NURO", "GB", Segment, Expired⟩),
  ("EXPA", ⟨"MTAA", "IT", Segment, Expired⟩),
  ("XBSP", ⟨"XBSP", "BR", Operating, Expired⟩),
  ("NECD", ⟨"NECD", "AU", Operating, Expired⟩),
  ("NBXO", ⟨"XBXO", "US", Segment, Expired⟩),
  ("FXMT", ⟨"FXMT", "GB", Operating, Expired⟩),
  ("THRD", ⟨"XNIM", "US", Segment, Expired⟩),
  ("ATSA", ⟨"ATSA", "CA", Operating, Expired⟩),
  ("XSIC", ⟨"XSIC", "RU", Operating, Expired⟩),
  ("XTAA", ⟨"XTAL", "EE", Segment, Expired⟩),
  ("XTLX", ⟨"XTLX", "IT", Operating, Expired⟩),
  ("XLOF", ⟨"XLOF", "MY", Operating, Expired⟩),
  ("XMIC", ⟨"XMIC", "RU", Operating, Expired⟩),
  ("QMTS", ⟨"QMTS", "GB", Operating, Expired⟩),
  ("PCDS", ⟨"TPCD", "GB", Segment, Expired⟩),
  ("XEUS", ⟨"XEUS", "US", Operating, Expired⟩),
  ("XNYF", ⟨"XNYF", "US", Operating, Expired⟩),
  ("BAMP", ⟨"BAMP", "US", Operating, Expired⟩),
  ("XEDX", ⟨"XEDX", "GB", Operating, Expired⟩),
  ("XTAR", ⟨"XTAR", "EE", Operating, Expired⟩),
  ("URCE", ⟨"URCE", "RU", Operating, Expired⟩),
  ("VRXP", ⟨"XMLI", "FR", Segment, Expired⟩),
  ("XFNX", ⟨"XFNX", "IE", Operating, Expired⟩),
  ("CSFB", ⟨"CSEU", "GB", Segment, Expired⟩),
  ("XHCE", ⟨"XHCE", "DE", Operating, Expired⟩),
  ("XHER", ⟨"XHER", "JP", Operating, Expired⟩),
  ("CRDL", ⟨"CRDL", "GB", Operating, Expired⟩),
  ("BAIK", ⟨"BAIK", "GB", Operating, Expired⟩),
  ("UMTS", ⟨"UMTS", "GB", Operating, Expired⟩),
  ("XPIN", ⟨"UBSA", "US", Segment, Expired⟩),
  ("XRTR", ⟨"XRTR", "DE", Operating, Expired⟩),
  ("XPLU", ⟨"XPLU", "GB", Operating, Expired⟩),
  ("XROV", ⟨"XROV", "RU", Operating, Expired⟩),
  ("DAMP", ⟨"DAMP", "DK", Operating, Expired⟩),
  ("XLJS", ⟨"XLJS", "SI", Operating, Expired⟩),
  ("XRMS", ⟨"XRMS", "SK", Operating, Expired⟩),
  ("AATS", ⟨"AATS", "US", Operating, Active⟩),
  ("ACEX", ⟨"ACEX", "IN", Operating, Active⟩),
  ("AFDL", ⟨"AFDL", "GB", Operating, Active⟩),
  ("AFET", ⟨"AFET", "TH", Operating, Active⟩),
  ("AFSE", ⟨"AFSE", "NL", Operating, Active⟩),
  ("AIXE", ⟨"AIXE", "CH", Operating, Expired⟩),
  ("AQST", ⟨"AQSE", "GB", Segment, Active⟩),
  ("AQSL", ⟨"AQSE", "GB", Segment, Active⟩),
  ("AQSN", ⟨"AQSE", "GB", Segment, Active⟩),
  ("AQSG", ⟨"AQSE", "GB", Segment, Active⟩),
  ("AQSF", ⟨"AQSE", "GB", Segment, Active⟩),
  ("AQSD", ⟨"AQSE", "GB", Segment, Active⟩),
  ("AQUA", ⟨"AQUA", "US", Operating, Expired⟩),
  ("ASEX", ⟨"ASEX", "GR", Operating, Active⟩),
  ("XIPO", ⟨"ASEX", "GR", Segment, Active⟩)]

/-- The same entries with their strings spelt out. -/
def micChars13 : List (List Char × MicChars) := [
  (['C','F','H','K'], ⟨['C','S','H','K'], ['H','K'], Segment, Active⟩),
  (['C','S','J','P'], ⟨['C','S','J','P'], ['J','P'], Operating, Active⟩),
  (['C','F','J','P'], ⟨['C','S','J','P'], ['J','P'], Segment, Active⟩),
  (['E','D','G','E'], ⟨['E','D','G','E'], ['U','S'], Operating, Expired⟩),
  (['F','I','C','X'], ⟨['F','I','C','X'], ['D','E'], Operating, Active⟩),
  (['G','B','O','T'], ⟨['G','B','O','T'], ['M','U'], Operating, Active⟩),
  (['G','R','I','F'], ⟨['G','R','I','F'], ['G','B'], Operating, Active⟩),
  (['I','B','G','H'], ⟨['I','B','G','H'], ['E','S'], Operating, Active⟩),
  (['I','E','X','G'], ⟨['I','E','X','G'], ['U','S'], Operating, Active⟩),
  (['L','M','E','C'], ⟨['L','M','E','C'], ['G','B'], Operating, Active⟩),
  (['N','E','X','O'], ⟨['N','E','X','O'], ['N','O'], Operating, Active⟩),
  (['N','M','R','J'], ⟨['N','M','R','J'], ['J','P'], Operating, Active⟩),
  (['N','X','J','P'], ⟨['N','M','R','J'], ['J','P'], Segment, Active⟩),
  (['N','X','V','W'], ⟨['N','M','R','J'], ['J','P'], Segment, Active⟩),
  (['P','A','R','X'], ⟨['T','R','D','E'], ['G','B'], Segment, Active⟩),
  (['E','L','I','X'], ⟨['T','R','D','E'], ['G','B'], Segment, Active⟩),
  (['T','R','D','X'], ⟨['T','R','D','E'], ['G','B'], Segment, Active⟩),
  (['X','B','E','L'], ⟨['X','B','E','L'], ['R','S'], Operating, Active⟩),
  (['B','L','B','F'], ⟨['X','B','L','B'], ['B','A'], Segment, Active⟩),
  (['X','B','L','B'], ⟨['X','B','L','B'], ['B','A'], Operating, Active⟩),
  (['X','M','O','T'], ⟨['X','M','I','L'], ['I','T'], Segment, Active⟩),
  (['M','O','T','X'], ⟨['X','M','I','L'], ['I','T'], Segment, Active⟩),
  (['M','U','N','B'], ⟨['X','M','U','N'], ['D','E'], Segment, Active⟩),
  (['M','U','N','A'], ⟨['X','M','U','N'], ['D','E'], Segment, Active⟩),
  (['X','M','U','N'], ⟨['X','M','U','N'], ['D','E'], Operating, Active⟩),
  (['X','N','X','C'], ⟨['X','N','X','C'], ['N','L'], Operating, Active⟩),
  (['X','O','P','V'], ⟨['X','S','T','O'], ['S','E'], Segment, Expired⟩),
  (['X','V','E','S'], ⟨['X','V','E','S'], ['L','U'], Operating, Active⟩),
  (['X','V','I','A'], ⟨['X','L','I','T'], ['L','T'], Segment, Expired⟩),
  (['X','H','O','N'], ⟨['X','H','O','N'], ['H','N'], Operating, Expired⟩),
  (['I','C','U','S'], ⟨['I','C','U','S'], ['U','S'], Operating, Expired⟩),
  (['I','T','S','M'], ⟨['I','T','S','M'], ['I','T'], Operating, Expired⟩),
  (['J','A','T','A'], ⟨['J','A','T','A'], ['J','P'], Operating, Expired⟩),
  (['K','M','T','S'], ⟨['K','M','T','S'], ['G','B'], Operating, Expired⟩),
  (['X','S','U','R'], ⟨['X','S','U','R'], ['I','D'], Operating, Expired⟩),
  (['X','W','C','E'], ⟨['I','F','C','A'], ['C','A'], Segment, Expired⟩),
  (['N','A','S','N'], ⟨['X','S','T','O'], ['S','E'], Segment, Expired⟩),
  (['M','T','S','P'], ⟨['M','T','S','P'], ['P','L'], Operating, Expired⟩),
  (['X','A','S','M'], ⟨['X','D','U','B'], ['I','E'], Segment, Expired⟩),
  (['X','I','E','X'], ⟨['X','D','U','B'], ['I','E'], Segment, Expired⟩),
  (['X','J','K','T'], ⟨['X','J','K','T'], ['I','D'], Operating, Expired⟩),
  (['M','T','A','X'], ⟨['M','T','A','X'], ['I','T'], Operating, Expired⟩),
  (['X','E','A','S'], ⟨['X','E','Q','T'], ['B','E'], Segment, Expired⟩),
  (['X','B','M','K'], ⟨['X','B','M','K'], ['U','S'], Operating, Expired⟩),
  (['X','B','M','F'], ⟨['X','B','M','F'], ['B','R'], Operating, Expired⟩),
  (['I','C','E','U'], ⟨['I','C','E','U'], ['G','B'], Operating, Expired⟩),
  (['C','E','T','O'], ⟨['X','W','A','R'], ['P','L'], Segment, Expired⟩),
  (['X','A','1','X'], ⟨['X','A','1','X'], ['A','R'], Operating, Expired⟩),
  (['I','C','A','T'], ⟨['I','C','A','H'], ['G','B'], Segment, Expired⟩),
  (['N','O','M','E'], ⟨['N','U','R','O'], ['G','B'], Segment, Expired⟩),
  (['E','X','P','A'], ⟨['M','T','A','A'], ['I','T'], Segment, Expired⟩),
  (['X','B','S','P'], ⟨['X','B','S','P'], ['B','R'], Operating, Expired⟩),
  (['N','E','C','D'], ⟨['N','E','C','D'], ['A','U'], Operating, Expired⟩),
  (['N','B','X','O'], ⟨['X','B','X','O'], ['U','S'], Segment, Expired⟩),
  (['F','X','M','T'], ⟨['F','X','M','T'], ['G','B'], Operating, Expired⟩),
  (['T','H','R','D'], ⟨['X','N','I','M'], ['U','S'], Segment, Expired⟩),
  (['A','T','S','A'], ⟨['A','T','S','A'], ['C','A'], Operating, Expired⟩),
  (['X','S','I','C'], ⟨['X','S','I','C'], ['R','U'], Operating, Expired⟩),
  (['X','T','A','A'], ⟨['X','T','A','L'], ['E','E'], Segment, Expired⟩),
  (['X','T','L','X'], ⟨['X','T','L','X'], ['I','T'], Operating, Expired⟩),
  (['X','L','O','F'], ⟨['X','L','O','F'], ['M','Y'], Operating, Expired⟩),
  (['X','M','I','C'], ⟨['X','M','I','C'], ['R','U'], Operating, Expired⟩),
  (['Q','M','T','S'], ⟨['Q','M','T','S'], ['G','B'], Operating, Expired⟩),
  (['P','C','D','S'], ⟨['T','P','C','D'], ['G','B'], Segment, Expired⟩),
  (['X','E','U','S'], ⟨['X','E','U','S'], ['U','S'], Operating, Expired⟩),
  (['X','N','Y','F'], ⟨['X','N','Y','F'], ['U','S'], Operating, Expired⟩),
  (['B','A','M','P'], ⟨['B','A','M','P'], ['U','S'], Operating, Expired⟩),
  (['X','E','D','X'], ⟨['X','E','D','X'], ['G','B'], Operating, Expired⟩),
  (['X','T','A','R'], ⟨['X','T','A','R'], ['E','E'], Operating, Expired⟩),
  (['U','R','C','E'], ⟨['U','R','C','E'], ['R','U'], Operating, Expired⟩),
  (['V','R','X','P'], ⟨['X','M','L','I'], ['F','R'], Segment, Expired⟩),
  (['X','F','N','X'], ⟨['X','F','N','X'], ['I','E'], Operating, Expired⟩),
  (['C','S','F','B'], ⟨['C','S','E','U'], ['G','B'], Segment, Expired⟩),
  (['X','H','C','E'], ⟨['X','H','C','E'], ['D','E'], Operating, Expired⟩),
  (['X','H','E','R'], ⟨['X','H','E','R'], ['J','P'], Operating, Expired⟩),
  (['C','R','D','L'], ⟨['C','R','D','L'], ['G','B'], Operating, Expired⟩),
  (['B','A','I','K'], ⟨['B','A','I','K'], ['G','B'], Operating, Expired⟩),
  (['U','M','T','S'], ⟨['U','M','T','S'], ['G','B'], Operating, Expired⟩),
  (['X','P','I','N'], ⟨['U','B','S','A'], ['U','S'], Segment, Expired⟩),
  (['X','R','T','R'], ⟨['X','R','T','R'], ['D','E'], Operating, Expired⟩),
  (['X','P','L','U'], ⟨['X','P','L','U'], ['G','B'], Operating, Expired⟩),
  (['X','R','O','V'], ⟨['X','R','O','V'], ['R','U'], Operating, Expired⟩),
  (['D','A','M','P'], ⟨['D','A','M','P'], ['D','K'], Operating, Expired⟩),
  (['X','L','J','S'], ⟨['X','L','J','S'], ['S','I'], Operating, Expired⟩),
  (['X','R','M','S'], ⟨['X','R','M','S'], ['S','K'], Operating, Expired⟩),
  (['A','A','T','S'], ⟨['A','A','T','S'], ['U','S'], Operating, Active⟩),
  (['A','C','E','X'], ⟨['A','C','E','X'], ['I','N'], Operating, Active⟩),
  (['A','F','D','L'], ⟨['A','F','D','L'], ['G','B'], Operating, Active⟩),
  (['A','F','E','T'], ⟨['A','F','E','T'], ['T','H'], Operating, Active⟩),
  (['A','F','S','E'], ⟨['A','F','S','E'], ['N','L'], Operating, Active⟩),
  (['A','I','X','E'], ⟨['A','I','X','E'], ['C','H'], Operating, Expired⟩),
  (['A','Q','S','T'], ⟨['A','Q','S','E'], ['G','B'], Segment, Active⟩),
  (['A','Q','S','L'], ⟨['A','Q','S','E'], ['G','B'], Segment, Active⟩),
  (['A','Q','S','N'], ⟨['A','Q','S','E'], ['G','B'], Segment, Active⟩),
  (['A','Q','S','G'], ⟨['A','Q','S','E'], ['G','B'], Segment, Active⟩),
  (['A','Q','S','F'], ⟨['A','Q','S','E'], ['G','B'], Segment, Active⟩),
  (['A','Q','S','D'], ⟨['A','Q','S','E'], ['G','B'], Segment, Active⟩),
  (['A','Q','U','A'], ⟨['A','Q','U','A'], ['U','S'], Operating, Expired⟩),
  (['A','S','E','X'], ⟨['A','S','E','X'], ['G','R'], Operating, Active⟩),
  (['X','I','P','O'], ⟨['A','S','E','X'], ['G','R'], Segment, Active⟩)]

theorem mics13_eq : mics13 = micChars13.map MicChars.entry := (rfl)

/-- iso_10383.rs 1496-1595. -/
def mics14 : List (String × Mic) := [
  ("EUAX", ⟨"ASEX", "GR", Segment, Expired⟩),
  ("AWBX", ⟨"AWBX", "AU", Operating, Active⟩),
  ("AWEX", ⟨"AWEX", "AU", Operating, Active⟩),
  ("BACE", ⟨"BACE", "AR", Operating, Active⟩),
  ("MLCO", ⟨"BAML", "US", Segment, Active⟩),
  ("MLVX", ⟨"BAML", "US", Segment, Active⟩),
  ("BAML", ⟨"BAML", "US", Operating, Active⟩),
  ("BAPA", ⟨"BAPA", "GB", Operating, Active⟩),
  ("BAPX", ⟨"BAPX", "LT", Operating, Active⟩),
  ("BCDX", ⟨"BARX", "US", Segment, Expired⟩),
  ("BARL", ⟨"BARX", "US", Segment, Active⟩),
  ("BARX", ⟨"BARX", "US", Operating, Active⟩),
  ("BARD", ⟨"BARX", "US", Segment, Active⟩),
  ("BBSF", ⟨"BBSF", "US", Operating, Active⟩),
  ("BCFS", ⟨"BCFS", "AR", Operating, Active⟩),
  ("XMVL", ⟨"BCFS", "AR", Segment, Active⟩),
  ("BCMM", ⟨"BCMM", "BR", Operating, Active⟩),
  ("BCSE", ⟨"BCSE", "BY", Operating, Active⟩),
  ("CHIY", ⟨"BCXE", "GB", Segment, Expired⟩),
  ("CHIO", ⟨"BCXE", "GB", Segment, Active⟩),
  ("BATP", ⟨"BCXE", "GB", Segment, Active⟩),
  ("CHID", ⟨"BCXE", "GB", Segment, Active⟩),
  ("BOTC", ⟨"BCXE", "GB", Segment, Active⟩),
  ("BCXE", ⟨"BCXE", "GB", Operating, Active⟩),
  ("LISX", ⟨"BCXE", "GB", Segment, Active⟩),
  ("CHIX", ⟨"BCXE", "GB", Segment, Active⟩),
  ("BEAM", ⟨"BEAM", "BE", Operating, Active⟩),
  ("BEEX", ⟨"BEEX", "TH", Operating, Active⟩),
  ("BETP", ⟨"BETP", "JP", Operating, Active⟩),
  ("BFEX", ⟨"BFEX", "BH", Operating, Expired⟩),
  ("BGCF", ⟨"BGCF", "US", Operating, Active⟩),
  ("BGCD", ⟨"BGCF", "US", Segment, Active⟩),
  ("FNCS", ⟨"BGCF", "US", Segment, Active⟩),
  ("BGCB", ⟨"BGCI", "GB", Segment, Active⟩),
  ("BGCI", ⟨"BGCI", "GB", Operating, Active⟩),
  ("BHSF", ⟨"BHSF", "US", Operating, Active⟩),
  ("BIDS", ⟨"BIDS", "US", Operating, Active⟩),
  ("BLEV", ⟨"BLEV", "AU", Operating, Active⟩),
  ("BLPX", ⟨"BLPX", "BE", Operating, Active⟩),
  ("BPOL", ⟨"BPOL", "US", Operating, Active⟩),
  ("BLTD", ⟨"BLTD", "US", Operating, Expired⟩),
  ("SEND", ⟨"BMEX", "ES", Segment, Active⟩),
  ("XDRF", ⟨"BMEX", "ES", Segment, Active⟩),
  ("MARF", ⟨"BMEX", "ES", Segment, Active⟩),
  ("BMCL", ⟨"BMEX", "ES", Segment, Active⟩),
  ("MERF", ⟨"BMEX", "ES", Segment, Active⟩),
  ("XBIL", ⟨"BMEX", "ES", Segment, Active⟩),
  ("XMAD", ⟨"BMEX", "ES", Segment, Active⟩),
  ("BMEX", ⟨"BMEX", "ES", Operating, Active⟩),
  ("SBIL", ⟨"BMEX", "ES", Segment, Active⟩),
  ("SBAR", ⟨"BMEX", "ES", Segment, Active⟩),
  ("XVAL", ⟨"BMEX", "ES", Segment, Active⟩),
  ("XBAR", ⟨"BMEX", "ES", Segment, Active⟩),
  ("XLAT", ⟨"BMEX", "ES", Segment, Active⟩),
  ("XMEF", ⟨"BMEX", "ES", Segment, Expired⟩),
  ("XMPW", ⟨"BMEX", "ES", Segment, Active⟩),
  ("XMRV", ⟨"BMEX", "ES", Segment, Active⟩),
  ("BMTF", ⟨"BMTF", "GB", Operating, Active⟩),
  ("VTEX", ⟨"BNYC", "US", Segment, Expired⟩),
  ("NYFX", ⟨"BNYC", "US", Segment, Expired⟩),
  ("BNYC", ⟨"BNYC", "US", Operating, Active⟩),
  ("BOAT", ⟨"BOAT", "GB", Operating, Active⟩),
  ("BOSC", ⟨"BOSC", "GB", Operating, Active⟩),
  ("BOVA", ⟨"BOVA", "CL", Operating, Active⟩),
  ("BOVM", ⟨"BOVM", "BR", Operating, Active⟩),
  ("BRIX", ⟨"BRIX", "BR", Operating, Active⟩),
  ("BRNX", ⟨"BRNX", "GB", Operating, Active⟩),
  ("BSEX", ⟨"BSEX", "AZ", Operating, Active⟩),
  ("ICSU", ⟨"BTEC", "US", Segment, Active⟩),
  ("BTEC", ⟨"BTEC", "US", Operating, Active⟩),
  ("BVCA", ⟨"BVCA", "VE", Operating, Active⟩),
  ("XCAR", ⟨"BVCA", "VE", Segment, Expired⟩),
  ("BVMF", ⟨"BVMF", "BR", Operating, Active⟩),
  ("BVUR", ⟨"BVUR", "UY", Operating, Active⟩),
  ("CAND", ⟨"CAND", "CA", Operating, Active⟩),
  ("CANX", ⟨"CANX", "CA", Operating, Active⟩),
  ("CMAP", ⟨"CAPI", "ES", Segment, Active⟩),
  ("CATS", ⟨"CATS", "DE", Operating, Active⟩),
  ("CCFE", ⟨"CCFE", "US", Operating, Expired⟩),
  ("CCFX", ⟨"CCFX", "CN", Operating, Active⟩),
  ("CCLX", ⟨"CCLX", "LU", Operating, Active⟩),
  ("CCO2", ⟨"CCO2", "GB", Operating, Active⟩),
  ("CDED", ⟨"CDED", "US", Operating, Active⟩),
  ("CDEL", ⟨"CDEL", "US", Operating, Expired⟩),
  ("ASTR", ⟨"CDSL", "IN", Segment, Active⟩),
  ("FXCL", ⟨"CDSL", "IN", Segment, Active⟩),
  ("CDSL", ⟨"CDSL", "IN", Operating, Active⟩),
  ("FXSW", ⟨"CDSL", "IN", Segment, Active⟩),
  ("CETI", ⟨"BVMF", "BR", Segment, Active⟩),
  ("CGQD", ⟨"CGIT", "IT", Segment, Active⟩),
  ("CGDB", ⟨"CGIT", "IT", Segment, Active⟩),
  ("CGTR", ⟨"CGIT", "IT", Segment, Active⟩),
  ("CGIT", ⟨"CGIT", "IT", Operating, Active⟩),
  ("CGND", ⟨"CGIT", "IT", Segment, Active⟩),
  ("CGEB", ⟨"CGIT", "IT", Segment, Active⟩),
  ("CGQT", ⟨"CGIT", "IT", Segment, Active⟩),
  ("CGCM", ⟨"CGIT", "IT", Segment, Active⟩),
  ("CGGD", ⟨"CGIT", "IT", Segment, Active⟩),
  ("CHEV", ⟨"CHEV", "GB", Operating, Active⟩),
  ("BLNK", ⟨"CHEV", "GB", Segment, Active⟩)]

/-- The same entries with their strings spelt out. -/
def micChars14 : List (List Char × MicChars) := [
  (['E','U','A','X'], ⟨['A','S','E','X'], ['G','R'], Segment, Expired⟩),
  (['A','W','B','X'], ⟨['A','W','B','X'], ['A','U'], Operating, Active⟩),
  (['A','W','E','X'], ⟨['A','W','E','X'], ['A','U'], Operating, Active⟩),
  (['B','A','C','E'], ⟨['B','A','C','E'], ['A','R'], Operating, Active⟩),
  (['M','L','C','O'], ⟨['B','A','M','L'], ['U','S'], Segment, Active⟩),
  (['M','L','V','X'], ⟨['B','A','M','L'], ['U','S'], Segment, Active⟩),
  (['B','A','M','L'], ⟨['B','A','M','L'], ['U','S'], Operating, Active⟩),
  (['B','A','P','A'], ⟨['B','A','P','A'], ['G','B'], Operating, Active⟩),
  (['B','A','P','X'], ⟨['B','A','P','X'], ['L','T'], Operating, Active⟩),
  (['B','C','D','X'], ⟨['B','A','R','X'], ['U','S'], Segment, Expired⟩),
  (['B','A','R','L'], ⟨['B','A','R','X'], ['U','S'], Segment, Active⟩),
  (['B','A','R','X'], ⟨['B','A','R','X'], ['U','S'], Operating, Active⟩),
  (['B','A','R','D'], ⟨['B','A','R','X'], ['U','S'], Segment, Active⟩),
  (['B','B','S','F'], ⟨['B','B','S','F'], ['U','S'], Operating, Active⟩),
  (['B','C','F','S'], ⟨['B','C','F','S'], ['A','R'], Operating, Active⟩),
  (['X','M','V','L'], ⟨['B','C','F','S'], ['A','R'], Segment, Active⟩),
  (['B','C','M','M'], ⟨['B','C','M','M'], ['B','R'], Operating, Active⟩),
  (['B','C','S','E'], ⟨['B','C','S','E'], ['B','Y'], Operating, Active⟩),
  (['C','H','I','Y'], ⟨['B','C','X','E'], ['G','B'], Segment, Expired⟩),
  (['C','H','I','O'], ⟨['B','C','X','E'], ['G','B'], Segment, Active⟩),
  (['B','A','T','P'], ⟨['B','C','X','E'], ['G','B'], Segment, Active⟩),
  (['C','H','I','D'], ⟨['B','C','X','E'], ['G','B'], Segment, Active⟩),
  (['B','O','T','C'], ⟨['B','C','X','E'], ['G','B'], Segment, Active⟩),
  (['B','C','X','E'], ⟨['B','C','X','E'], ['G','B'], Operating, Active⟩),
  (['L','I','S','X'], ⟨['B','C','X','E'], ['G','B'], Segment, Active⟩),
  (['C','H','I','X'], ⟨['B','C','X','E'], ['G','B'], Segment, Active⟩),
  (['B','E','A','M'], ⟨['B','E','A','M'], ['B','E'], Operating, Active⟩),
  (['B','E','E','X'], ⟨['B','E','E','X'], ['T','H'], Operating, Active⟩),
  (['B','E','T','P'], ⟨['B','E','T','P'], ['J','P'], Operating, Active⟩),
  (['B','F','E','X'], ⟨['B','F','E','X'], ['B','H'], Operating, Expired⟩),
  (['B','G','C','F'], ⟨['B','G','C','F'], ['U','S'], Operating, Active⟩),
  (['B','G','C','D'], ⟨['B','G','C','F'], ['U','S'], Segment, Active⟩),
  (['F','N','C','S'], ⟨['B','G','C','F'], ['U','S'], Segment, Active⟩),
  (['B','G','C','B'], ⟨['B','G','C','I'], ['G','B'], Segment, Active⟩),
  (['B','G','C','I'], ⟨['B','G','C','I'], ['G','B'], Operating, Active⟩),
  (['B','H','S','F'], ⟨['B','H','S','F'], ['U','S'], Operating, Active⟩),
  (['B','I','D','S'], ⟨['B','I','D','S'], ['U','S'], Operating, Active⟩),
  (['B','L','E','V'], ⟨['B','L','E','V'], ['A','U'], Operating, Active⟩),
  (['B','L','P','X'], ⟨['B','L','P','X'], ['B','E'], Operating, Active⟩),
  (['B','P','O','L'], ⟨['B','P','O','L'], ['U','S'], Operating, Active⟩),
  (['B','L','T','D'], ⟨['B','L','T','D'], ['U','S'], Operating, Expired⟩),
  (['S','E','N','D'], ⟨['B','M','E','X'], ['E','S'], Segment, Active⟩),
  (['X','D','R','F'], ⟨['B','M','E','X'], ['E','S'], Segment, Active⟩),
  (['M','A','R','F'], ⟨['B','M','E','X'], ['E','S'], Segment, Active⟩),
  (['B','M','C','L'], ⟨['B','M','E','X'], ['E','S'], Segment, Active⟩),
  (['M','E','R','F'], ⟨['B','M','E','X'], ['E','S'], Segment, Active⟩),
  (['X','B','I','L'], ⟨['B','M','E','X'], ['E','S'], Segment, Active⟩),
  (['X','M','A','D'], ⟨['B','M','E','X'], ['E','S'], Segment, Active⟩),
  (['B','M','E','X'], ⟨['B','M','E','X'], ['E','S'], Operating, Active⟩),
  (['S','B','I','L'], ⟨['B','M','E','X'], ['E','S'], Segment, Active⟩),
  (['S','B','A','R'], ⟨['B','M','E','X'], ['E','S'], Segment, Active⟩),
  (['X','V','A','L'], ⟨['B','M','E','X'], ['E','S'], Segment, Active⟩),
  (['X','B','A','R'], ⟨['B','M','E','X'], ['E','S'], Segment, Active⟩),
  (['X','L','A','T'], ⟨['B','M','E','X'], ['E','S'], Segment, Active⟩),
  (['X','M','E','F'], ⟨['B','M','E','X'], ['E','S'], Segment, Expired⟩),
  (['X','M','P','W'], ⟨['B','M','E','X'], ['E','S'], Segment, Active⟩),
  (['X','M','R','V'], ⟨['B','M','E','X'], ['E','S'], Segment, Active⟩),
  (['B','M','T','F'], ⟨['B','M','T','F'], ['G','B'], Operating, Active⟩),
  (['V','T','E','X'], ⟨['B','N','Y','C'], ['U','S'], Segment, Expired⟩),
  (['N','Y','F','X'], ⟨['B','N','Y','C'], ['U','S'], Segment, Expired⟩),
  (['B','N','Y','C'], ⟨['B','N','Y','C'], ['U','S'], Operating, Active⟩),
  (['B','O','A','T'], ⟨['B','O','A','T'], ['G','B'], Operating, Active⟩),
  (['B','O','S','C'], ⟨['B','O','S','C'], ['G','B'], Operating, Active⟩),
  (['B','O','V','A'], ⟨['B','O','V','A'], ['C','L'], Operating, Active⟩),
  (['B','O','V','M'], ⟨['B','O','V','M'], ['B','R'], Operating, Active⟩),
  (['B','R','I','X'], ⟨['B','R','I','X'], ['B','R'], Operating, Active⟩),
  (['B','R','N','X'], ⟨['B','R','N','X'], ['G','B'], Operating, Active⟩),
  (['B','S','E','X'], ⟨['B','S','E','X'], ['A','Z'], Operating, Active⟩),
  (['I','C','S','U'], ⟨['B','T','E','C'], ['U','S'], Segment, Active⟩),
  (['B','T','E','C'], ⟨['B','T','E','C'], ['U','S'], Operating, Active⟩),
  (['B','V','C','A'], ⟨['B','V','C','A'], ['V','E'], Operating, Active⟩),
  (['X','C','A','R'], ⟨['B','V','C','A'], ['V','E'], Segment, Expired⟩),
  (['B','V','M','F'], ⟨['B','V','M','F'], ['B','R'], Operating, Active⟩),
  (['B','V','U','R'], ⟨['B','V','U','R'], ['U','Y'], Operating, Active⟩),
  (['C','A','N','D'], ⟨['C','A','N','D'], ['C','A'], Operating, Active⟩),
  (['C','A','N','X'], ⟨['C','A','N','X'], ['C','A'], Operating, Active⟩),
  (['C','M','A','P'], ⟨['C','A','P','I'], ['E','S'], Segment, Active⟩),
  (['C','A','T','S'], ⟨['C','A','T','S'], ['D','E'], Operating, Active⟩),
  (['C','C','F','E'], ⟨['C','C','F','E'], ['U','S'], Operating, Expired⟩),
  (['C','C','F','X'], ⟨['C','C','F','X'], ['C','N'], Operating, Active⟩),
  (['C','C','L','X'], ⟨['C','C','L','X'], ['L','U'], Operating, Active⟩),
  (['C','C','O','2'], ⟨['C','C','O','2'], ['G','B'], Operating, Active⟩),
  (['C','D','E','D'], ⟨['C','D','E','D'], ['U','S'], Operating, Active⟩),
  (['C','D','E','L'], ⟨['C','D','E','L'], ['U','S'], Operating, Expired⟩),
  (['A','S','T','R'], ⟨['C','D','S','L'], ['I','N'], Segment, Active⟩),
  (['F','X','C','L'], ⟨['C','D','S','L'], ['I','N'], Segment, Active⟩),
  (['C','D','S','L'], ⟨['C','D','S','L'], ['I','N'], Operating, Active⟩),
  (['F','X','S','W'], ⟨['C','D','S','L'], ['I','N'], Segment, Active⟩),
  (['C','E','T','I'], ⟨['B','V','M','F'], ['B','R'], Segment, Active⟩),
  (['C','G','Q','D'], ⟨['C','G','I','T'], ['I','T'], Segment, Active⟩),
  (['C','G','D','B'], ⟨['C','G','I','T'], ['I','T'], Segment, Active⟩),
  (['C','G','T','R'], ⟨['C','G','I','T'], ['I','T'], Segment, Active⟩),
  (['C','G','I','T'], ⟨['C','G','I','T'], ['I','T'], Operating, Active⟩),
  (['C','G','N','D'], ⟨['C','G','I','T'], ['I','T'], Segment, Active⟩),
  (['C','G','E','B'], ⟨['C','G','I','T'], ['I','T'], Segment, Active⟩),
  (['C','G','Q','T'], ⟨['C','G','I','T'], ['I','T'], Segment, Active⟩),
  (['C','G','C','M'], ⟨['C','G','I','T'], ['I','T'], Segment, Active⟩),
  (['C','G','G','D'], ⟨['C','G','I','T'], ['I','T'], Segment, Active⟩),
  (['C','H','E','V'], ⟨['C','H','E','V'], ['G','B'], Operating, Active⟩),
  (['B','L','N','K'], ⟨['C','H','E','V'], ['G','B'], Segment, Active⟩)]

theorem mics14_eq : mics14 = micChars14.map MicChars.entry := (rfl)

/-- iso_10383.rs 1596-1695. -/
def mics15 : List (String × Mic) := [
  ("CXAR", ⟨"CHIA", "AU", Segment, Active⟩),
  ("CXAC", ⟨"CHIA", "AU", Segment, Active⟩),
  ("CXAP", ⟨"CHIA", "AU", Segment, Active⟩),
  ("CXAM", ⟨"CHIA", "AU", Segment, Active⟩),
  ("CXAQ", ⟨"CHIA", "AU", Segment, Active⟩),
  ("CXAV", ⟨"CHIA", "AU", Segment, Active⟩),
  ("CXAF", ⟨"CHIA", "AU", Segment, Active⟩),
  ("CXAN", ⟨"CHIA", "AU", Segment, Active⟩),
  ("CXAW", ⟨"CHIA", "AU", Segment, Active⟩),
  ("CHIA", ⟨"CHIA", "AU", Operating, Active⟩),
  ("XCX2", ⟨"CHIC", "CA", Segment, Active⟩),
  ("CHIC", ⟨"CHIC", "CA", Operating, Active⟩),
  ("CHIE", ⟨"CHIE", "SG", Operating, Expired⟩),
  ("CHIJ", ⟨"CHIJ", "JP", Operating, Active⟩),
  ("KAIX", ⟨"CHIJ", "JP", Segment, Active⟩),
  ("CHIS", ⟨"CHIJ", "JP", Segment, Active⟩),
  ("CHIV", ⟨"CHIJ", "JP", Segment, Active⟩),
  ("CLAU", ⟨"CLAU", "AU", Operating, Active⟩),
  ("CLHK", ⟨"CLHK", "HK", Operating, Active⟩),
  ("CLJP", ⟨"CLJP", "JP", Operating, Active⟩),
  ("CLMX", ⟨"CLMX", "NL", Operating, Active⟩),
  ("CLPH", ⟨"CLPH", "PH", Operating, Active⟩),
  ("CMEC", ⟨"CMEE", "GB", Segment, Expired⟩),
  ("CMEE", ⟨"CMEE", "GB", Operating, Expired⟩),
  ("CMET", ⟨"CMET", "JP", Operating, Active⟩),
  ("CMMT", ⟨"CMMT", "GB", Operating, Active⟩),
  ("CMSF", ⟨"CMSF", "US", Operating, Active⟩),
  ("COAL", ⟨"COAL", "FR", Operating, Active⟩),
  ("COMG", ⟨"COMG", "MT", Operating, Active⟩),
  ("COTC", ⟨"COTC", "CA", Operating, Active⟩),
  ("CRED", ⟨"CRED", "US", Operating, Active⟩),
  ("CAES", ⟨"CRED", "US", Segment, Active⟩),
  ("CRYD", ⟨"CRYD", "SE", Operating, Active⟩),
  ("CRYP", ⟨"CRYP", "GB", Operating, Active⟩),
  ("CRYX", ⟨"CRYX", "SE", Operating, Active⟩),
  ("CSSX", ⟨"CSSX", "CN", Operating, Active⟩),
  ("DASI", ⟨"DASI", "DK", Operating, Active⟩),
  ("DBHK", ⟨"DBHK", "HK", Operating, Active⟩),
  ("AUTO", ⟨"DBOX", "DE", Segment, Active⟩),
  ("DBOX", ⟨"DBOX", "DE", Operating, Active⟩),
  ("DBSX", ⟨"DBSX", "US", Operating, Expired⟩),
  ("DCSX", ⟨"DCSX", "CW", Operating, Active⟩),
  ("DEAL", ⟨"DEAL", "US", Operating, Active⟩),
  ("DGCX", ⟨"DGCX", "AE", Operating, Active⟩),
  ("DKTC", ⟨"DKTC", "DK", Operating, Active⟩),
  ("DOTS", ⟨"DOTS", "CH", Operating, Active⟩),
  ("DSMD", ⟨"DSMD", "QA", Operating, Active⟩),
  ("DUMX", ⟨"DUMX", "AE", Operating, Active⟩),
  ("ECAG", ⟨"ECAG", "DE", Operating, Active⟩),
  ("ECGS", ⟨"ECAG", "DE", Segment, Active⟩),
  ("ECAL", ⟨"ECAL", "SG", Operating, Active⟩),
  ("ECXE", ⟨"ECXE", "NL", Operating, Expired⟩),
  ("EEAL", ⟨"EEAL", "SG", Operating, Active⟩),
  ("EESE", ⟨"EESE", "UA", Operating, Active⟩),
  ("EFTP", ⟨"EFTP", "DE", Operating, Expired⟩),
  ("EGMT", ⟨"EGMT", "US", Operating, Active⟩),
  ("EGSI", ⟨"EGSI", "AT", Operating, Active⟩),
  ("EMBX", ⟨"EMBX", "GB", Operating, Active⟩),
  ("EMIB", ⟨"EMID", "IT", Segment, Expired⟩),
  ("EMID", ⟨"EMID", "IT", Operating, Expired⟩),
  ("EMIR", ⟨"EMID", "IT", Segment, Expired⟩),
  ("EMDR", ⟨"EMID", "IT", Segment, Expired⟩),
  ("ENCL", ⟨"ENCL", "GB", Operating, Active⟩),
  ("EOTC", ⟨"EOTC", "HK", Operating, Active⟩),
  ("EPEX", ⟨"EPEX", "FR", Operating, Active⟩),
  ("ETSC", ⟨"ETSC", "KZ", Operating, Active⟩),
  ("EXOR", ⟨"EXEU", "GB", Segment, Active⟩),
  ("EXVP", ⟨"EXEU", "GB", Segment, Active⟩),
  ("EXMP", ⟨"EXEU", "GB", Segment, Active⟩),
  ("EXLP", ⟨"EXEU", "GB", Segment, Active⟩),
  ("EXEU", ⟨"EXEU", "GB", Operating, Active⟩),
  ("EXCP", ⟨"EXEU", "GB", Segment, Active⟩),
  ("EXBO", ⟨"EXEU", "GB", Segment, Active⟩),
  ("EXDC", ⟨"EXEU", "GB", Segment, Active⟩),
  ("EXGM", ⟨"XMIL", "IT", Segment, Active⟩),
  ("XEDA", ⟨"EXTR", "TR", Segment, Active⟩),
  ("XEID", ⟨"EXTR", "TR", Segment, Active⟩),
  ("EXTR", ⟨"EXTR", "TR", Operating, Active⟩),
  ("FAIR", ⟨"FAIR", "GB", Operating, Active⟩),
  ("FGEX", ⟨"FGEX", "FI", Operating, Active⟩),
  ("XADF", ⟨"FINR", "US", Segment, Active⟩),
  ("FINC", ⟨"FINR", "US", Segment, Active⟩),
  ("FINO", ⟨"FINR", "US", Segment, Active⟩),
  ("FINR", ⟨"FINR", "US", Operating, Active⟩),
  ("FINY", ⟨"FINR", "US", Segment, Active⟩),
  ("OOTC", ⟨"FINR", "US", Segment, Active⟩),
  ("FISH", ⟨"FISH", "NO", Operating, Active⟩),
  ("FLTB", ⟨"FLWX", "NL", Segment, Active⟩),
  ("FMTS", ⟨"FMTS", "FR", Operating, Active⟩),
  ("FRRF", ⟨"FRRF", "BE", Operating, Expired⟩),
  ("FSEF", ⟨"FSEF", "US", Operating, Active⟩),
  ("FSHX", ⟨"FSHX", "NO", Operating, Active⟩),
  ("FXAL", ⟨"FXAL", "US", Operating, Active⟩),
  ("FXCM", ⟨"FXCM", "US", Operating, Active⟩),
  ("G1XX", ⟨"G1XX", "US", Operating, Active⟩),
  ("GEMX", ⟨"GEMX", "GB", Operating, Active⟩),
  ("GETB", ⟨"GETB", "LT", Operating, Active⟩),
  ("GFIA", ⟨"GFIA", "GB", Operating, Expired⟩),
  ("XGFI", ⟨"GFIC", "GB", Segment, Expired⟩),
  ("GFIM", ⟨"GFIC", "GB", Segment, Expired⟩)]

/-- The same entries with their strings spelt out. -/
def micChars15 : List (List Char × MicChars) := [
  (['C','X','A','R'], ⟨['C','H','I','A'], ['A','U'], Segment, Active⟩),
  (['C','X','A','C'], ⟨['C','H','I','A'], ['A','U'], Segment, Active⟩),
  (['C','X','A','P'], ⟨['C','H','I','A'], ['A','U'], Segment, Active⟩),
  (['C','X','A','M'], ⟨['C','H','I','A'], ['A','U'], Segment, Active⟩),
  (['C','X','A','Q'], ⟨['C','H','I','A'], ['A','U'], Segment, Active⟩),
  (['C','X','A','V'], ⟨['C','H','I','A'], ['A','U'], Segment, Active⟩),
  (['C','X','A','F'], ⟨['C','H','I','A'], ['A','U'], Segment, Active⟩),
  (['C','X','A','N'], ⟨['C','H','I','A'], ['A','U'], Segment, Active⟩),
  (['C','X','A','W'], ⟨['C','H','I','A'], ['A','U'], Segment, Active⟩),
  (['C','H','I','A'], ⟨['C','H','I','A'], ['A','U'], Operating, Active⟩),
  (['X','C','X','2'], ⟨['C','H','I','C'], ['C','A'], Segment, Active⟩),
  (['C','H','I','C'], ⟨['C','H','I','C'], ['C','A'], Operating, Active⟩),
  (['C','H','I','E'], ⟨['C','H','I','E'], ['S','G'], Operating, Expired⟩),
  (['C','H','I','J'], ⟨['C','H','I','J'], ['J','P'], Operating, Active⟩),
  (['K','A','I','X'], ⟨['C','H','I','J'], ['J','P'], Segment, Active⟩),
  (['C','H','I','S'], ⟨['C','H','I','J'], ['J','P'], Segment, Active⟩),
  (['C','H','I','V'], ⟨['C','H','I','J'], ['J','P'], Segment, Active⟩),
  (['C','L','A','U'], ⟨['C','L','A','U'], ['A','U'], Operating, Active⟩),
  (['C','L','H','K'], ⟨['C','L','H','K'], ['H','K'], Operating, Active⟩),
  (['C','L','J','P'], ⟨['C','L','J','P'], ['J','P'], Operating, Active⟩),
  (['C','L','M','X'], ⟨['C','L','M','X'], ['N','L'], Operating, Active⟩),
  (['C','L','P','H'], ⟨['C','L','P','H'], ['P','H'], Operating, Active⟩),
  (['C','M','E','C'], ⟨['C','M','E','E'], ['G','B'], Segment, Expired⟩),
  (['C','M','E','E'], ⟨['C','M','E','E'], ['G','B'], Operating, Expired⟩),
  (['C','M','E','T'], ⟨['C','M','E','T'], ['J','P'], Operating, Active⟩),
  (['C','M','M','T'], ⟨['C','M','M','T'], ['G','B'], Operating, Active⟩),
  (['C','M','S','F'], ⟨['C','M','S','F'], ['U','S'], Operating, Active⟩),
  (['C','O','A','L'], ⟨['C','O','A','L'], ['F','R'], Operating, Active⟩),
  (['C','O','M','G'], ⟨['C','O','M','G'], ['M','T'], Operating, Active⟩),
  (['C','O','T','C'], ⟨['C','O','T','C'], ['C','A'], Operating, Active⟩),
  (['C','R','E','D'], ⟨['C','R','E','D'], ['U','S'], Operating, Active⟩),
  (['C','A','E','S'], ⟨['C','R','E','D'], ['U','S'], Segment, Active⟩),
  (['C','R','Y','D'], ⟨['C','R','Y','D'], ['S','E'], Operating, Active⟩),
  (['C','R','Y','P'], ⟨['C','R','Y','P'], ['G','B'], Operating, Active⟩),
  (['C','R','Y','X'], ⟨['C','R','Y','X'], ['S','E'], Operating, Active⟩),
  (['C','S','S','X'], ⟨['C','S','S','X'], ['C','N'], Operating, Active⟩),
  (['D','A','S','I'], ⟨['D','A','S','I'], ['D','K'], Operating, Active⟩),
  (['D','B','H','K'], ⟨['D','B','H','K'], ['H','K'], Operating, Active⟩),
  (['A','U','T','O'], ⟨['D','B','O','X'], ['D','E'], Segment, Active⟩),
  (['D','B','O','X'], ⟨['D','B','O','X'], ['D','E'], Operating, Active⟩),
  (['D','B','S','X'], ⟨['D','B','S','X'], ['U','S'], Operating, Expired⟩),
  (['D','C','S','X'], ⟨['D','C','S','X'], ['C','W'], Operating, Active⟩),
  (['D','E','A','L'], ⟨['D','E','A','L'], ['U','S'], Operating, Active⟩),
  (['D','G','C','X'], ⟨['D','G','C','X'], ['A','E'], Operating, Active⟩),
  (['D','K','T','C'], ⟨['D','K','T','C'], ['D','K'], Operating, Active⟩),
  (['D','O','T','S'], ⟨['D','O','T','S'], ['C','H'], Operating, Active⟩),
  (['D','S','M','D'], ⟨['D','S','M','D'], ['Q','A'], Operating, Active⟩),
  (['D','U','M','X'], ⟨['D','U','M','X'], ['A','E'], Operating, Active⟩),
  (['E','C','A','G'], ⟨['E','C','A','G'], ['D','E'], Operating, Active⟩),
  (['E','C','G','S'], ⟨['E','C','A','G'], ['D','E'], Segment, Active⟩),
  (['E','C','A','L'], ⟨['E','C','A','L'], ['S','G'], Operating, Active⟩),
  (['E','C','X','E'], ⟨['E','C','X','E'], ['N','L'], Operating, Expired⟩),
  (['E','E','A','L'], ⟨['E','E','A','L'], ['S','G'], Operating, Active⟩),
  (['E','E','S','E'], ⟨['E','E','S','E'], ['U','A'], Operating, Active⟩),
  (['E','F','T','P'], ⟨['E','F','T','P'], ['D','E'], Operating, Expired⟩),
  (['E','G','M','T'], ⟨['E','G','M','T'], ['U','S'], Operating, Active⟩),
  (['E','G','S','I'], ⟨['E','G','S','I'], ['A','T'], Operating, Active⟩),
  (['E','M','B','X'], ⟨['E','M','B','X'], ['G','B'], Operating, Active⟩),
  (['E','M','I','B'], ⟨['E','M','I','D'], ['I','T'], Segment, Expired⟩),
  (['E','M','I','D'], ⟨['E','M','I','D'], ['I','T'], Operating, Expired⟩),
  (['E','M','I','R'], ⟨['E','M','I','D'], ['I','T'], Segment, Expired⟩),
  (['E','M','D','R'], ⟨['E','M','I','D'], ['I','T'], Segment, Expired⟩),
  (['E','N','C','L'], ⟨['E','N','C','L'], ['G','B'], Operating, Active⟩),
  (['E','O','T','C'], ⟨['E','O','T','C'], ['H','K'], Operating, Active⟩),
  (['E','P','E','X'], ⟨['E','P','E','X'], ['F','R'], Operating, Active⟩),
  (['E','T','S','C'], ⟨['E','T','S','C'], ['K','Z'], Operating, Active⟩),
  (['E','X','O','R'], ⟨['E','X','E','U'], ['G','B'], Segment, Active⟩),
  (['E','X','V','P'], ⟨['E','X','E','U'], ['G','B'], Segment, Active⟩),
  (['E','X','M','P'], ⟨['E','X','E','U'], ['G','B'], Segment, Active⟩),
  (['E','X','L','P'], ⟨['E','X','E','U'], ['G','B'], Segment, Active⟩),
  (['E','X','E','U'], ⟨['E','X','E','U'], ['G','B'], Operating, Active⟩),
  (['E','X','C','P'], ⟨['E','X','E','U'], ['G','B'], Segment, Active⟩),
  (['E','X','B','O'], ⟨['E','X','E','U'], ['G','B'], Segment, Active⟩),
  (['E','X','D','C'], ⟨['E','X','E','U'], ['G','B'], Segment, Active⟩),
  (['E','X','G','M'], ⟨['X','M','I','L'], ['I','T'], Segment, Active⟩),
  (['X','E','D','A'], ⟨['E','X','T','R'], ['T','R'], Segment, Active⟩),
  (['X','E','I','D'], ⟨['E','X','T','R'], ['T','R'], Segment, Active⟩),
  (['E','X','T','R'], ⟨['E','X','T','R'], ['T','R'], Operating, Active⟩),
  (['F','A','I','R'], ⟨['F','A','I','R'], ['G','B'], Operating, Active⟩),
  (['F','G','E','X'], ⟨['F','G','E','X'], ['F','I'], Operating, Active⟩),
  (['X','A','D','F'], ⟨['F','I','N','R'], ['U','S'], Segment, Active⟩),
  (['F','I','N','C'], ⟨['F','I','N','R'], ['U','S'], Segment, Active⟩),
  (['F','I','N','O'], ⟨['F','I','N','R'], ['U','S'], Segment, Active⟩),
  (['F','I','N','R'], ⟨['F','I','N','R'], ['U','S'], Operating, Active⟩),
  (['F','I','N','Y'], ⟨['F','I','N','R'], ['U','S'], Segment, Active⟩),
  (['O','O','T','C'], ⟨['F','I','N','R'], ['U','S'], Segment, Active⟩),
  (['F','I','S','H'], ⟨['F','I','S','H'], ['N','O'], Operating, Active⟩),
  (['F','L','T','B'], ⟨['F','L','W','X'], ['N','L'], Segment, Active⟩),
  (['F','M','T','S'], ⟨['F','M','T','S'], ['F','R'], Operating, Active⟩),
  (['F','R','R','F'], ⟨['F','R','R','F'], ['B','E'], Operating, Expired⟩),
  (['F','S','E','F'], ⟨['F','S','E','F'], ['U','S'], Operating, Active⟩),
  (['F','S','H','X'], ⟨['F','S','H','X'], ['N','O'], Operating, Active⟩),
  (['F','X','A','L'], ⟨['F','X','A','L'], ['U','S'], Operating, Active⟩),
  (['F','X','C','M'], ⟨['F','X','C','M'], ['U','S'], Operating, Active⟩),
  (['G','1','X','X'], ⟨['G','1','X','X'], ['U','S'], Operating, Active⟩),
  (['G','E','M','X'], ⟨['G','E','M','X'], ['G','B'], Operating, Active⟩),
  (['G','E','T','B'], ⟨['G','E','T','B'], ['L','T'], Operating, Active⟩),
  (['G','F','I','A'], ⟨['G','F','I','A'], ['G','B'], Operating, Expired⟩),
  (['X','G','F','I'], ⟨['G','F','I','C'], ['G','B'], Segment, Expired⟩),
  (['G','F','I','M'], ⟨['G','F','I','C'], ['G','B'], Segment, Expired⟩)]

theorem mics15_eq : mics15 = micChars15.map MicChars.entry := (rfl)

/-- iso_10383.rs 1696-1795. -/
def mics16 : List (String × Mic) := [
  ("GLLC", ⟨"GLLC", "US", Operating, Active⟩),
  ("GLPS", ⟨"GLPS", "US", Operating, Active⟩),
  ("GLPX", ⟨"GLPX", "US", Operating, Active⟩),
  ("XGDX", ⟨"GMEG", "GB", Segment, Active⟩),
  ("XLDX", ⟨"GMEG", "GB", Segment, Active⟩),
  ("XGCX", ⟨"GMEG", "GB", Segment, Active⟩),
  ("GMEG", ⟨"GMEG", "GB", Operating, Active⟩),
  ("XGSX", ⟨"GMEG", "GB", Segment, Active⟩),
  ("GMEX", ⟨"GMEX", "DE", Operating, Expired⟩),
  ("GMTF", ⟨"GMTF", "FR", Operating, Active⟩),
  ("GOVX", ⟨"GOVX", "US", Operating, Active⟩),
  ("GREE", ⟨"GREE", "US", Operating, Active⟩),
  ("GRSE", ⟨"GRSE", "GB", Operating, Active⟩),
  ("GSCI", ⟨"GSCI", "GY", Operating, Active⟩),
  ("GSCO", ⟨"GSCO", "US", Operating, Active⟩),
  ("GSEF", ⟨"GSEF", "US", Operating, Active⟩),
  ("GSIL", ⟨"GSIL", "GB", Operating, Active⟩),
  ("GSSI", ⟨"GSIL", "GB", Segment, Active⟩),
  ("GSXL", ⟨"GSXL", "GI", Operating, Active⟩),
  ("GTCO", ⟨"GTCO", "US", Operating, Active⟩),
  ("GTSX", ⟨"GTSX", "US", Operating, Active⟩),
  ("GTXS", ⟨"GTXS", "US", Operating, Expired⟩),
  ("GXMA", ⟨"GXMA", "VU", Operating, Active⟩),
  ("HCHC", ⟨"HCHC", "NL", Operating, Active⟩),
  ("HDAT", ⟨"HDAT", "GR", Operating, Active⟩),
  ("HEGX", ⟨"HEGX", "US", Operating, Active⟩),
  ("HKME", ⟨"HKME", "HK", Operating, Expired⟩),
  ("HMOD", ⟨"HMTF", "IT", Segment, Active⟩),
  ("HMTF", ⟨"HMTF", "IT", Operating, Active⟩),
  ("HRFQ", ⟨"HMTF", "IT", Segment, Active⟩),
  ("HPPO", ⟨"HPPO", "US", Operating, Active⟩),
  ("HSFX", ⟨"HSFX", "US", Operating, Active⟩),
  ("HSTC", ⟨"HSTC", "VN", Operating, Active⟩),
  ("XHNX", ⟨"HSTC", "VN", Segment, Active⟩),
  ("HSXA", ⟨"HSXA", "HK", Operating, Active⟩),
  ("HUPX", ⟨"HUPX", "HU", Operating, Active⟩),
  ("IBAL", ⟨"IBAL", "GB", Operating, Active⟩),
  ("IBEX", ⟨"IBEX", "BG", Operating, Active⟩),
  ("WCLK", ⟨"ICAP", "GB", Segment, Expired⟩),
  ("ICAH", ⟨"ICAP", "GB", Segment, Expired⟩),
  ("ICSE", ⟨"ICAP", "GB", Segment, Expired⟩),
  ("ICTQ", ⟨"ICAP", "GB", Segment, Expired⟩),
  ("ICAP", ⟨"ICAP", "GB", Operating, Expired⟩),
  ("PLSX", ⟨"ICAP", "GB", Segment, Expired⟩),
  ("ICDX", ⟨"ICDX", "ID", Operating, Active⟩),
  ("ICEL", ⟨"ICEL", "US", Operating, Active⟩),
  ("ICXL", ⟨"ICXL", "IN", Operating, Active⟩),
  ("IFCA", ⟨"IFCA", "CA", Operating, Expired⟩),
  ("IFLX", ⟨"IFEU", "GB", Segment, Active⟩),
  ("IFLL", ⟨"IFEU", "GB", Segment, Active⟩),
  ("IFEN", ⟨"IFEU", "GB", Segment, Active⟩),
  ("IFLO", ⟨"IFEU", "GB", Segment, Active⟩),
  ("IFEU", ⟨"IFEU", "GB", Operating, Active⟩),
  ("IFUT", ⟨"IFEU", "GB", Segment, Active⟩),
  ("IFSG", ⟨"IFSG", "SG", Operating, Active⟩),
  ("IMFX", ⟨"IFUS", "US", Segment, Active⟩),
  ("IFED", ⟨"IFUS", "US", Segment, Active⟩),
  ("IFUS", ⟨"IFUS", "US", Operating, Active⟩),
  ("IEPA", ⟨"IFUS", "US", Segment, Active⟩),
  ("IMCG", ⟨"IFUS", "US", Segment, Active⟩),
  ("IMIR", ⟨"IFUS", "US", Segment, Active⟩),
  ("IMCR", ⟨"IFUS", "US", Segment, Active⟩),
  ("IMEN", ⟨"IFUS", "US", Segment, Active⟩),
  ("ICES", ⟨"IFUS", "US", Segment, Active⟩),
  ("IMAG", ⟨"IFUS", "US", Segment, Active⟩),
  ("IMBD", ⟨"IFUS", "US", Segment, Active⟩),
  ("IMEX", ⟨"IMEX", "IR", Operating, Active⟩),
  ("ISDA", ⟨"ISDA", "US", Operating, Active⟩),
  ("ISEX", ⟨"ISEX", "IN", Operating, Active⟩),
  ("ITGI", ⟨"ITGI", "US", Operating, Active⟩),
  ("IVZX", ⟨"IVZX", "CA", Operating, Active⟩),
  ("IXSP", ⟨"IXSP", "RU", Operating, Expired⟩),
  ("JADX", ⟨"JADX", "SG", Operating, Active⟩),
  ("JEFX", ⟨"JEFX", "US", Operating, Expired⟩),
  ("JNST", ⟨"JNST", "US", Operating, Active⟩),
  ("JPMI", ⟨"JPMI", "HK", Operating, Active⟩),
  ("JPMX", ⟨"JPMX", "US", Operating, Active⟩),
  ("JSES", ⟨"JSES", "US", Operating, Active⟩),
  ("JSJX", ⟨"JSJX", "US", Operating, Active⟩),
  ("VKAB", ⟨"KABU", "JP", Segment, Expired⟩),
  ("KABU", ⟨"KABU", "JP", Operating, Expired⟩),
  ("KCCP", ⟨"KCCP", "HU", Operating, Active⟩),
  ("KDPW", ⟨"KDPW", "PL", Operating, Expired⟩),
  ("KLEU", ⟨"KLEU", "GB", Operating, Active⟩),
  ("KNIG", ⟨"KNIG", "US", Operating, Active⟩),
  ("KNEM", ⟨"KNIG", "US", Segment, Active⟩),
  ("KNLI", ⟨"KNIG", "US", Segment, Active⟩),
  ("KNCM", ⟨"KNIG", "US", Segment, Active⟩),
  ("KOCN", ⟨"KOCN", "KR", Operating, Expired⟩),
  ("KRME", ⟨"KRME", "AE", Operating, Active⟩),
  ("LASF", ⟨"LASF", "US", Operating, Active⟩),
  ("LAFL", ⟨"LAVA", "US", Segment, Expired⟩),
  ("LAVA", ⟨"LAVA", "US", Operating, Expired⟩),
  ("LAFD", ⟨"LAVA", "US", Segment, Expired⟩),
  ("LCHC", ⟨"LCHC", "FR", Operating, Active⟩),
  ("LCUR", ⟨"LCUR", "GB", Operating, Active⟩),
  ("LICA", ⟨"LICA", "CA", Operating, Active⟩),
  ("LIQH", ⟨"LIQU", "GB", Segment, Active⟩),
  ("LIQU", ⟨"LIQU", "GB", Operating, Active⟩),
  ("LIQF", ⟨"LIQU", "GB", Segment, Active⟩)]

/-- The same entries with their strings spelt out. -/
def micChars16 : List (List Char × MicChars) := [
  (['G','L','L','C'], ⟨['G','L','L','C'], ['U','S'], Operating, Active⟩),
  (['G','L','P','S'], ⟨['G','L','P','S'], ['U','S'], Operating, Active⟩),
  (['G','L','P','X'], ⟨['G','L','P','X'], ['U','S'], Operating, Active⟩),
  (['X','G','D','X'], ⟨['G','M','E','G'], ['G','B'], Segment, Active⟩),
  (['X','L','D','X'], ⟨['G','M','E','G'], ['G','B'], Segment, Active⟩),
  (['X','G','C','X'], ⟨['G','M','E','G'], ['G','B'], Segment, Active⟩),
  (['G','M','E','G'], ⟨['G','M','E','G'], ['G','B'], Operating, Active⟩),
  (['X','G','S','X'], ⟨['G','M','E','G'], ['G','B'], Segment, Active⟩),
  (['G','M','E','X'], ⟨['G','M','E','X'], ['D','E'], Operating, Expired⟩),
  (['G','M','T','F'], ⟨['G','M','T','F'], ['F','R'], Operating, Active⟩),
  (['G','O','V','X'], ⟨['G','O','V','X'], ['U','S'], Operating, Active⟩),
  (['G','R','E','E'], ⟨['G','R','E','E'], ['U','S'], Operating, Active⟩),
  (['G','R','S','E'], ⟨['G','R','S','E'], ['G','B'], Operating, Active⟩),
  (['G','S','C','I'], ⟨['G','S','C','I'], ['G','Y'], Operating, Active⟩),
  (['G','S','C','O'], ⟨['G','S','C','O'], ['U','S'], Operating, Active⟩),
  (['G','S','E','F'], ⟨['G','S','E','F'], ['U','S'], Operating, Active⟩),
  (['G','S','I','L'], ⟨['G','S','I','L'], ['G','B'], Operating, Active⟩),
  (['G','S','S','I'], ⟨['G','S','I','L'], ['G','B'], Segment, Active⟩),
  (['G','S','X','L'], ⟨['G','S','X','L'], ['G','I'], Operating, Active⟩),
  (['G','T','C','O'], ⟨['G','T','C','O'], ['U','S'], Operating, Active⟩),
  (['G','T','S','X'], ⟨['G','T','S','X'], ['U','S'], Operating, Active⟩),
  (['G','T','X','S'], ⟨['G','T','X','S'], ['U','S'], Operating, Expired⟩),
  (['G','X','M','A'], ⟨['G','X','M','A'], ['V','U'], Operating, Active⟩),
  (['H','C','H','C'], ⟨['H','C','H','C'], ['N','L'], Operating, Active⟩),
  (['H','D','A','T'], ⟨['H','D','A','T'], ['G','R'], Operating, Active⟩),
  (['H','E','G','X'], ⟨['H','E','G','X'], ['U','S'], Operating, Active⟩),
  (['H','K','M','E'], ⟨['H','K','M','E'], ['H','K'], Operating, Expired⟩),
  (['H','M','O','D'], ⟨['H','M','T','F'], ['I','T'], Segment, Active⟩),
  (['H','M','T','F'], ⟨['H','M','T','F'], ['I','T'], Operating, Active⟩),
  (['H','R','F','Q'], ⟨['H','M','T','F'], ['I','T'], Segment, Active⟩),
  (['H','P','P','O'], ⟨['H','P','P','O'], ['U','S'], Operating, Active⟩),
  (['H','S','F','X'], ⟨['H','S','F','X'], ['U','S'], Operating, Active⟩),
  (['H','S','T','C'], ⟨['H','S','T','C'], ['V','N'], Operating, Active⟩),
  (['X','H','N','X'], ⟨['H','S','T','C'], ['V','N'], Segment, Active⟩),
  (['H','S','X','A'], ⟨['H','S','X','A'], ['H','K'], Operating, Active⟩),
  (['H','U','P','X'], ⟨['H','U','P','X'], ['H','U'], Operating, Active⟩),
  (['I','B','A','L'], ⟨['I','B','A','L'], ['G','B'], Operating, Active⟩),
  (['I','B','E','X'], ⟨['I','B','E','X'], ['B','G'], Operating, Active⟩),
  (['W','C','L','K'], ⟨['I','C','A','P'], ['G','B'], Segment, Expired⟩),
  (['I','C','A','H'], ⟨['I','C','A','P'], ['G','B'], Segment, Expired⟩),
  (['I','C','S','E'], ⟨['I','C','A','P'], ['G','B'], Segment, Expired⟩),
  (['I','C','T','Q'], ⟨['I','C','A','P'], ['G','B'], Segment, Expired⟩),
  (['I','C','A','P'], ⟨['I','C','A','P'], ['G','B'], Operating, Expired⟩),
  (['P','L','S','X'], ⟨['I','C','A','P'], ['G','B'], Segment, Expired⟩),
  (['I','C','D','X'], ⟨['I','C','D','X'], ['I','D'], Operating, Active⟩),
  (['I','C','E','L'], ⟨['I','C','E','L'], ['U','S'], Operating, Active⟩),
  (['I','C','X','L'], ⟨['I','C','X','L'], ['I','N'], Operating, Active⟩),
  (['I','F','C','A'], ⟨['I','F','C','A'], ['C','A'], Operating, Expired⟩),
  (['I','F','L','X'], ⟨['I','F','E','U'], ['G','B'], Segment, Active⟩),
  (['I','F','L','L'], ⟨['I','F','E','U'], ['G','B'], Segment, Active⟩),
  (['I','F','E','N'], ⟨['I','F','E','U'], ['G','B'], Segment, Active⟩),
  (['I','F','L','O'], ⟨['I','F','E','U'], ['G','B'], Segment, Active⟩),
  (['I','F','E','U'], ⟨['I','F','E','U'], ['G','B'], Operating, Active⟩),
  (['I','F','U','T'], ⟨['I','F','E','U'], ['G','B'], Segment, Active⟩),
  (['I','F','S','G'], ⟨['I','F','S','G'], ['S','G'], Operating, Active⟩),
  (['I','M','F','X'], ⟨['I','F','U','S'], ['U','S'], Segment, Active⟩),
  (['I','F','E','D'], ⟨['I','F','U','S'], ['U','S'], Segment, Active⟩),
  (['I','F','U','S'], ⟨['I','F','U','S'], ['U','S'], Operating, Active⟩),
  (['I','E','P','A'], ⟨['I','F','U','S'], ['U','S'], Segment, Active⟩),
  (['I','M','C','G'], ⟨['I','F','U','S'], ['U','S'], Segment, Active⟩),
  (['I','M','I','R'], ⟨['I','F','U','S'], ['U','S'], Segment, Active⟩),
  (['I','M','C','R'], ⟨['I','F','U','S'], ['U','S'], Segment, Active⟩),
  (['I','M','E','N'], ⟨['I','F','U','S'], ['U','S'], Segment, Active⟩),
  (['I','C','E','S'], ⟨['I','F','U','S'], ['U','S'], Segment, Active⟩),
  (['I','M','A','G'], ⟨['I','F','U','S'], ['U','S'], Segment, Active⟩),
  (['I','M','B','D'], ⟨['I','F','U','S'], ['U','S'], Segment, Active⟩),
  (['I','M','E','X'], ⟨['I','M','E','X'], ['I','R'], Operating, Active⟩),
  (['I','S','D','A'], ⟨['I','S','D','A'], ['U','S'], Operating, Active⟩),
  (['I','S','E','X'], ⟨['I','S','E','X'], ['I','N'], Operating, Active⟩),
  (['I','T','G','I'], ⟨['I','T','G','I'], ['U','S'], Operating, Active⟩),
  (['I','V','Z','X'], ⟨['I','V','Z','X'], ['C','A'], Operating, Active⟩),
  (['I','X','S','P'], ⟨['I','X','S','P'], ['R','U'], Operating, Expired⟩),
  (['J','A','D','X'], ⟨['J','A','D','X'], ['S','G'], Operating, Active⟩),
  (['J','E','F','X'], ⟨['J','E','F','X'], ['U','S'], Operating, Expired⟩),
  (['J','N','S','T'], ⟨['J','N','S','T'], ['U','S'], Operating, Active⟩),
  (['J','P','M','I'], ⟨['J','P','M','I'], ['H','K'], Operating, Active⟩),
  (['J','P','M','X'], ⟨['J','P','M','X'], ['U','S'], Operating, Active⟩),
  (['J','S','E','S'], ⟨['J','S','E','S'], ['U','S'], Operating, Active⟩),
  (['J','S','J','X'], ⟨['J','S','J','X'], ['U','S'], Operating, Active⟩),
  (['V','K','A','B'], ⟨['K','A','B','U'], ['J','P'], Segment, Expired⟩),
  (['K','A','B','U'], ⟨['K','A','B','U'], ['J','P'], Operating, Expired⟩),
  (['K','C','C','P'], ⟨['K','C','C','P'], ['H','U'], Operating, Active⟩),
  (['K','D','P','W'], ⟨['K','D','P','W'], ['P','L'], Operating, Expired⟩),
  (['K','L','E','U'], ⟨['K','L','E','U'], ['G','B'], Operating, Active⟩),
  (['K','N','I','G'], ⟨['K','N','I','G'], ['U','S'], Operating, Active⟩),
  (['K','N','E','M'], ⟨['K','N','I','G'], ['U','S'], Segment, Active⟩),
  (['K','N','L','I'], ⟨['K','N','I','G'], ['U','S'], Segment, Active⟩),
  (['K','N','C','M'], ⟨['K','N','I','G'], ['U','S'], Segment, Active⟩),
  (['K','O','C','N'], ⟨['K','O','C','N'], ['K','R'], Operating, Expired⟩),
  (['K','R','M','E'], ⟨['K','R','M','E'], ['A','E'], Operating, Active⟩),
  (['L','A','S','F'], ⟨['L','A','S','F'], ['U','S'], Operating, Active⟩),
  (['L','A','F','L'], ⟨['L','A','V','A'], ['U','S'], Segment, Expired⟩),
  (['L','A','V','A'], ⟨['L','A','V','A'], ['U','S'], Operating, Expired⟩),
  (['L','A','F','D'], ⟨['L','A','V','A'], ['U','S'], Segment, Expired⟩),
  (['L','C','H','C'], ⟨['L','C','H','C'], ['F','R'], Operating, Active⟩),
  (['L','C','U','R'], ⟨['L','C','U','R'], ['G','B'], Operating, Active⟩),
  (['L','I','C','A'], ⟨['L','I','C','A'], ['C','A'], Operating, Active⟩),
  (['L','I','Q','H'], ⟨['L','I','Q','U'], ['G','B'], Segment, Active⟩),
  (['L','I','Q','U'], ⟨['L','I','Q','U'], ['G','B'], Operating, Active⟩),
  (['L','I','Q','F'], ⟨['L','I','Q','U'], ['G','B'], Segment, Active⟩)]

theorem mics16_eq : mics16 = micChars16.map MicChars.entry := (rfl)

/-- iso_10383.rs 1796-1895. -/
def mics17 : List (String × Mic) := [
  ("LIUS", ⟨"LIUS", "US", Operating, Active⟩),
  ("LIUH", ⟨"LIUS", "US", Segment, Active⟩),
  ("LIFI", ⟨"LIUS", "US", Segment, Active⟩),
  ("LMAD", ⟨"LMAX", "GB", Segment, Updated⟩),
  ("LMAX", ⟨"LMAX", "GB", Operating, Updated⟩),
  ("LOTC", ⟨"LOTC", "GB", Operating, Active⟩),
  ("PLDX", ⟨"LOTC", "GB", Segment, Active⟩),
  ("LPPM", ⟨"LPPM", "GB", Operating, Active⟩),
  ("LMNX", ⟨"LTAA", "US", Segment, Active⟩),
  ("LTAA", ⟨"LTAA", "US", Operating, Active⟩),
  ("LXJP", ⟨"LXJP", "JP", Operating, Active⟩),
  ("MAEL", ⟨"MAEL", "GB", Operating, Active⟩),
  ("MXLM", ⟨"MAEL", "GB", Segment, Active⟩),
  ("MALX", ⟨"MALX", "MV", Operating, Active⟩),
  ("MXNL", ⟨"MANL", "NL", Segment, Active⟩),
  ("MAQH", ⟨"MAQH", "HK", Operating, Active⟩),
  ("MAQJ", ⟨"MAQJ", "JP", Operating, Active⟩),
  ("MAQX", ⟨"MAQX", "AU", Operating, Active⟩),
  ("MATN", ⟨"MATN", "CA", Operating, Active⟩),
  ("MATX", ⟨"MATX", "AE", Operating, Active⟩),
  ("MBUL", ⟨"MBUL", "BG", Operating, Active⟩),
  ("MCXR", ⟨"MCUR", "GB", Segment, Expired⟩),
  ("MCXS", ⟨"MCUR", "GB", Segment, Expired⟩),
  ("MCUR", ⟨"MCUR", "GB", Operating, Expired⟩),
  ("MDIP", ⟨"MDIP", "PT", Operating, Expired⟩),
  ("MEAU", ⟨"MEAU", "AU", Operating, Expired⟩),
  ("MEHK", ⟨"MEHK", "HK", Operating, Expired⟩),
  ("MFGL", ⟨"MFGL", "GB", Operating, Active⟩),
  ("MIBG", ⟨"MIBG", "ES", Operating, Active⟩),
  ("EPRL", ⟨"MIHI", "US", Segment, Active⟩),
  ("MPRL", ⟨"MIHI", "US", Segment, Active⟩),
  ("MIHI", ⟨"MIHI", "US", Operating, Active⟩),
  ("XMIO", ⟨"MIHI", "US", Segment, Active⟩),
  ("MIZX", ⟨"MIZX", "JP", Operating, Active⟩),
  ("MLVE", ⟨"MLXN", "GB", Segment, Expired⟩),
  ("MLEU", ⟨"MLXN", "GB", Segment, Expired⟩),
  ("MSAL", ⟨"MSAL", "AU", Operating, Active⟩),
  ("MSPL", ⟨"MSCO", "US", Segment, Active⟩),
  ("MSTC", ⟨"MSCO", "US", Segment, Expired⟩),
  ("MSCO", ⟨"MSCO", "US", Operating, Active⟩),
  ("MSTX", ⟨"MSCO", "US", Segment, Active⟩),
  ("MSLP", ⟨"MSCO", "US", Segment, Expired⟩),
  ("MSIP", ⟨"MSIP", "GB", Operating, Active⟩),
  ("MSMS", ⟨"MSMS", "JP", Operating, Active⟩),
  ("BVUS", ⟨"MTUS", "US", Segment, Expired⟩),
  ("MTSB", ⟨"MTUS", "US", Segment, Expired⟩),
  ("MTXS", ⟨"MTXX", "US", Segment, Active⟩),
  ("MTXC", ⟨"MTXX", "US", Segment, Active⟩),
  ("MTXM", ⟨"MTXX", "US", Segment, Active⟩),
  ("MYTR", ⟨"MYTR", "GB", Operating, Active⟩),
  ("N2EX", ⟨"N2EX", "GB", Operating, Active⟩),
  ("NAMX", ⟨"NAMX", "RU", Operating, Active⟩),
  ("NASB", ⟨"NASB", "LT", Operating, Expired⟩),
  ("NASX", ⟨"NASX", "NG", Operating, Active⟩),
  ("NBLX", ⟨"NBLX", "US", Operating, Active⟩),
  ("NBOT", ⟨"NBOT", "IN", Operating, Active⟩),
  ("NCEL", ⟨"NCEL", "PK", Operating, Active⟩),
  ("NFSD", ⟨"NFSC", "US", Segment, Active⟩),
  ("XSTM", ⟨"NFSC", "US", Segment, Active⟩),
  ("NFSA", ⟨"NFSC", "US", Segment, Active⟩),
  ("NFSC", ⟨"NFSC", "US", Operating, Active⟩),
  ("NGXC", ⟨"NGXC", "CA", Operating, Active⟩),
  ("NILX", ⟨"NILX", "EG", Operating, Active⟩),
  ("NLPX", ⟨"NLPX", "NL", Operating, Active⟩),
  ("NMCE", ⟨"NMCE", "IN", Operating, Active⟩),
  ("NMRA", ⟨"NMRA", "US", Operating, Active⟩),
  ("ICSH", ⟨"NMRJ", "JP", Segment, Active⟩),
  ("ICSZ", ⟨"NMRJ", "JP", Segment, Active⟩),
  ("ICKR", ⟨"NMRJ", "JP", Segment, Active⟩),
  ("ICHK", ⟨"NMRJ", "JP", Segment, Active⟩),
  ("NXSE", ⟨"NMRJ", "JP", Segment, Active⟩),
  ("ICTW", ⟨"NMRJ", "JP", Segment, Active⟩),
  ("NNCS", ⟨"NNCS", "RU", Operating, Expired⟩),
  ("NODX", ⟨"NODX", "US", Operating, Active⟩),
  ("NOFF", ⟨"NOFF", "GB", Operating, Active⟩),
  ("NOPS", ⟨"NOPS", "NO", Operating, Active⟩),
  ("NOSC", ⟨"NOSC", "NO", Operating, Active⟩),
  ("NOTC", ⟨"NOTC", "NO", Operating, Active⟩),
  ("NPGA", ⟨"NPGA", "DK", Operating, Active⟩),
  ("NSXB", ⟨"NSXB", "AU", Operating, Active⟩),
  ("NXEU", ⟨"NXEU", "GB", Operating, Active⟩),
  ("NXUS", ⟨"NXUS", "US", Operating, Active⟩),
  ("NYMX", ⟨"NYMX", "GB", Operating, Expired⟩),
  ("NYPC", ⟨"NYPC", "US", Operating, Active⟩),
  ("OFEX", ⟨"OFEX", "GB", Operating, Expired⟩),
  ("OLLC", ⟨"OLLC", "US", Operating, Active⟩),
  ("OMEL", ⟨"OMEL", "ES", Operating, Active⟩),
  ("OMGA", ⟨"OMGA", "CA", Operating, Active⟩),
  ("LYNX", ⟨"OMGA", "CA", Segment, Active⟩),
  ("OMIC", ⟨"OMIC", "PT", Operating, Active⟩),
  ("OPEX", ⟨"OPEX", "PT", Operating, Expired⟩),
  ("OPRA", ⟨"OPRA", "US", Operating, Active⟩),
  ("OSLC", ⟨"OSLC", "NO", Operating, Active⟩),
  ("OTCE", ⟨"OTCE", "GB", Operating, Active⟩),
  ("OTCX", ⟨"OTCX", "IN", Operating, Active⟩),
  ("PAVE", ⟨"PAVE", "ES", Operating, Active⟩),
  ("PDEX", ⟨"PDEX", "PH", Operating, Active⟩),
  ("PFTS", ⟨"PFTS", "UA", Operating, Active⟩),
  ("PFTQ", ⟨"PFTS", "UA", Segment, Active⟩),
  ("PIEU", ⟨"PIEU", "GB", Operating, Active⟩)]

/-- The same entries with their strings spelt out. -/
def micChars17 : List (List Char × MicChars) := [
  (['L','I','U','S'], ⟨['L','I','U','S'], ['U','S'], Operating, Active⟩),
  (['L','I','U','H'], ⟨['L','I','U','S'], ['U','S'], Segment, Active⟩),
  (['L','I','F','I'], ⟨['L','I','U','S'], ['U','S'], Segment, Active⟩),
  (['L','M','A','D'], ⟨['L','M','A','X'], ['G','B'], Segment, Updated⟩),
  (['L','M','A','X'], ⟨['L','M','A','X'], ['G','B'], Operating, Updated⟩),
  (['L','O','T','C'], ⟨['L','O','T','C'], ['G','B'], Operating, Active⟩),
  (['P','L','D','X'], ⟨['L','O','T','C'], ['G','B'], Segment, Active⟩),
  (['L','P','P','M'], ⟨['L','P','P','M'], ['G','B'], Operating, Active⟩),
  (['L','M','N','X'], ⟨['L','T','A','A'], ['U','S'], Segment, Active⟩),
  (['L','T','A','A'], ⟨['L','T','A','A'], ['U','S'], Operating, Active⟩),
  (['L','X','J','P'], ⟨['L','X','J','P'], ['J','P'], Operating, Active⟩),
  (['M','A','E','L'], ⟨['M','A','E','L'], ['G','B'], Operating, Active⟩),
  (['M','X','L','M'], ⟨['M','A','E','L'], ['G','B'], Segment, Active⟩),
  (['M','A','L','X'], ⟨['M','A','L','X'], ['M','V'], Operating, Active⟩),
  (['M','X','N','L'], ⟨['M','A','N','L'], ['N','L'], Segment, Active⟩),
  (['M','A','Q','H'], ⟨['M','A','Q','H'], ['H','K'], Operating, Active⟩),
  (['M','A','Q','J'], ⟨['M','A','Q','J'], ['J','P'], Operating, Active⟩),
  (['M','A','Q','X'], ⟨['M','A','Q','X'], ['A','U'], Operating, Active⟩),
  (['M','A','T','N'], ⟨['M','A','T','N'], ['C','A'], Operating, Active⟩),
  (['M','A','T','X'], ⟨['M','A','T','X'], ['A','E'], Operating, Active⟩),
  (['M','B','U','L'], ⟨['M','B','U','L'], ['B','G'], Operating, Active⟩),
  (['M','C','X','R'], ⟨['M','C','U','R'], ['G','B'], Segment, Expired⟩),
  (['M','C','X','S'], ⟨['M','C','U','R'], ['G','B'], Segment, Expired⟩),
  (['M','C','U','R'], ⟨['M','C','U','R'], ['G','B'], Operating, Expired⟩),
  (['M','D','I','P'], ⟨['M','D','I','P'], ['P','T'], Operating, Expired⟩),
  (['M','E','A','U'], ⟨['M','E','A','U'], ['A','U'], Operating, Expired⟩),
  (['M','E','H','K'], ⟨['M','E','H','K'], ['H','K'], Operating, Expired⟩),
  (['M','F','G','L'], ⟨['M','F','G','L'], ['G','B'], Operating, Active⟩),
  (['M','I','B','G'], ⟨['M','I','B','G'], ['E','S'], Operating, Active⟩),
  (['E','P','R','L'], ⟨['M','I','H','I'], ['U','S'], Segment, Active⟩),
  (['M','P','R','L'], ⟨['M','I','H','I'], ['U','S'], Segment, Active⟩),
  (['M','I','H','I'], ⟨['M','I','H','I'], ['U','S'], Operating, Active⟩),
  (['X','M','I','O'], ⟨['M','I','H','I'], ['U','S'], Segment, Active⟩),
  (['M','I','Z','X'], ⟨['M','I','Z','X'], ['J','P'], Operating, Active⟩),
  (['M','L','V','E'], ⟨['M','L','X','N'], ['G','B'], Segment, Expired⟩),
  (['M','L','E','U'], ⟨['M','L','X','N'], ['G','B'], Segment, Expired⟩),
  (['M','S','A','L'], ⟨['M','S','A','L'], ['A','U'], Operating, Active⟩),
  (['M','S','P','L'], ⟨['M','S','C','O'], ['U','S'], Segment, Active⟩),
  (['M','S','T','C'], ⟨['M','S','C','O'], ['U','S'], Segment, Expired⟩),
  (['M','S','C','O'], ⟨['M','S','C','O'], ['U','S'], Operating, Active⟩),
  (['M','S','T','X'], ⟨['M','S','C','O'], ['U','S'], Segment, Active⟩),
  (['M','S','L','P'], ⟨['M','S','C','O'], ['U','S'], Segment, Expired⟩),
  (['M','S','I','P'], ⟨['M','S','I','P'], ['G','B'], Operating, Active⟩),
  (['M','S','M','S'], ⟨['M','S','M','S'], ['J','P'], Operating, Active⟩),
  (['B','V','U','S'], ⟨['M','T','U','S'], ['U','S'], Segment, Expired⟩),
  (['M','T','S','B'], ⟨['M','T','U','S'], ['U','S'], Segment, Expired⟩),
  (['M','T','X','S'], ⟨['M','T','X','X'], ['U','S'], Segment, Active⟩),
  (['M','T','X','C'], ⟨['M','T','X','X'], ['U','S'], Segment, Active⟩),
  (['M','T','X','M'], ⟨['M','T','X','X'], ['U','S'], Segment, Active⟩),
  (['M','Y','T','R'], ⟨['M','Y','T','R'], ['G','B'], Operating, Active⟩),
  (['N','2','E','X'], ⟨['N','2','E','X'], ['G','B'], Operating, Active⟩),
  (['N','A','M','X'], ⟨['N','A','M','X'], ['R','U'], Operating, Active⟩),
  (['N','A','S','B'], ⟨['N','A','S','B'], ['L','T'], Operating, Expired⟩),
  (['N','A','S','X'], ⟨['N','A','S','X'], ['N','G'], Operating, Active⟩),
  (['N','B','L','X'], ⟨['N','B','L','X'], ['U','S'], Operating, Active⟩),
  (['N','B','O','T'], ⟨['N','B','O','T'], ['I','N'], Operating, Active⟩),
  (['N','C','E','L'], ⟨['N','C','E','L'], ['P','K'], Operating, Active⟩),
  (['N','F','S','D'], ⟨['N','F','S','C'], ['U','S'], Segment, Active⟩),
  (['X','S','T','M'], ⟨['N','F','S','C'], ['U','S'], Segment, Active⟩),
  (['N','F','S','A'], ⟨['N','F','S','C'], ['U','S'], Segment, Active⟩),
  (['N','F','S','C'], ⟨['N','F','S','C'], ['U','S'], Operating, Active⟩),
  (['N','G','X','C'], ⟨['N','G','X','C'], ['C','A'], Operating, Active⟩),
  (['N','I','L','X'], ⟨['N','I','L','X'], ['E','G'], Operating, Active⟩),
  (['N','L','P','X'], ⟨['N','L','P','X'], ['N','L'], Operating, Active⟩),
  (['N','M','C','E'], ⟨['N','M','C','E'], ['I','N'], Operating, Active⟩),
  (['N','M','R','A'], ⟨['N','M','R','A'], ['U','S'], Operating, Active⟩),
  (['I','C','S','H'], ⟨['N','M','R','J'], ['J','P'], Segment, Active⟩),
  (['I','C','S','Z'], ⟨['N','M','R','J'], ['J','P'], Segment, Active⟩),
  (['I','C','K','R'], ⟨['N','M','R','J'], ['J','P'], Segment, Active⟩),
  (['I','C','H','K'], ⟨['N','M','R','J'], ['J','P'], Segment, Active⟩),
  (['N','X','S','E'], ⟨['N','M','R','J'], ['J','P'], Segment, Active⟩),
  (['I','C','T','W'], ⟨['N','M','R','J'], ['J','P'], Segment, Active⟩),
  (['N','N','C','S'], ⟨['N','N','C','S'], ['R','U'], Operating, Expired⟩),
  (['N','O','D','X'], ⟨['N','O','D','X'], ['U','S'], Operating, Active⟩),
  (['N','O','F','F'], ⟨['N','O','F','F'], ['G','B'], Operating, Active⟩),
  (['N','O','P','S'], ⟨['N','O','P','S'], ['N','O'], Operating, Active⟩),
  (['N','O','S','C'], ⟨['N','O','S','C'], ['N','O'], Operating, Active⟩),
  (['N','O','T','C'], ⟨['N','O','T','C'], ['N','O'], Operating, Active⟩),
  (['N','P','G','A'], ⟨['N','P','G','A'], ['D','K'], Operating, Active⟩),
  (['N','S','X','B'], ⟨['N','S','X','B'], ['A','U'], Operating, Active⟩),
  (['N','X','E','U'], ⟨['N','X','E','U'], ['G','B'], Operating, Active⟩),
  (['N','X','U','S'], ⟨['N','X','U','S'], ['U','S'], Operating, Active⟩),
  (['N','Y','M','X'], ⟨['N','Y','M','X'], ['G','B'], Operating, Expired⟩),
  (['N','Y','P','C'], ⟨['N','Y','P','C'], ['U','S'], Operating, Active⟩),
  (['O','F','E','X'], ⟨['O','F','E','X'], ['G','B'], Operating, Expired⟩),
  (['O','L','L','C'], ⟨['O','L','L','C'], ['U','S'], Operating, Active⟩),
  (['O','M','E','L'], ⟨['O','M','E','L'], ['E','S'], Operating, Active⟩),
  (['O','M','G','A'], ⟨['O','M','G','A'], ['C','A'], Operating, Active⟩),
  (['L','Y','N','X'], ⟨['O','M','G','A'], ['C','A'], Segment, Active⟩),
  (['O','M','I','C'], ⟨['O','M','I','C'], ['P','T'], Operating, Active⟩),
  (['O','P','E','X'], ⟨['O','P','E','X'], ['P','T'], Operating, Expired⟩),
  (['O','P','R','A'], ⟨['O','P','R','A'], ['U','S'], Operating, Active⟩),
  (['O','S','L','C'], ⟨['O','S','L','C'], ['N','O'], Operating, Active⟩),
  (['O','T','C','E'], ⟨['O','T','C','E'], ['G','B'], Operating, Active⟩),
  (['O','T','C','X'], ⟨['O','T','C','X'], ['I','N'], Operating, Active⟩),
  (['P','A','V','E'], ⟨['P','A','V','E'], ['E','S'], Operating, Active⟩),
  (['P','D','E','X'], ⟨['P','D','E','X'], ['P','H'], Operating, Active⟩),
  (['P','F','T','S'], ⟨['P','F','T','S'], ['U','A'], Operating, Active⟩),
  (['P','F','T','Q'], ⟨['P','F','T','S'], ['U','A'], Segment, Active⟩),
  (['P','I','E','U'], ⟨['P','I','E','U'], ['G','B'], Operating, Active⟩)]

theorem mics17_eq : mics17 = micChars17.map MicChars.entry := (rfl)

/-- iso_10383.rs 1896-1995. -/
def mics18 : List (String × Mic) := [
  ("PIPE", ⟨"PIPE", "US", Operating, Active⟩),
  ("PIRM", ⟨"PIRM", "GB", Operating, Active⟩),
  ("PMTS", ⟨"PMTS", "PT", Operating, Expired⟩),
  ("PRSE", ⟨"PRSE", "US", Operating, Active⟩),
  ("PVMF", ⟨"TPEO", "GB", Segment, Active⟩),
  ("PXIL", ⟨"PXIL", "IN", Operating, Active⟩),
  ("XQLX", ⟨"QMTF", "HU", Segment, Expired⟩),
  ("QMTF", ⟨"QMTF", "HU", Operating, Expired⟩),
  ("QWIX", ⟨"QWIX", "GB", Operating, Active⟩),
  ("RBSX", ⟨"RBSX", "GB", Operating, Active⟩),
  ("RICX", ⟨"RICX", "US", Operating, Expired⟩),
  ("RICD", ⟨"RICX", "US", Segment, Expired⟩),
  ("ROCO", ⟨"ROCO", "TW", Operating, Active⟩),
  ("ROFX", ⟨"ROFX", "AR", Operating, Active⟩),
  ("ROTC", ⟨"ROTC", "RW", Operating, Active⟩),
  ("RPDX", ⟨"RPDX", "RU", Operating, Active⟩),
  ("RSEX", ⟨"RSEX", "RW", Operating, Active⟩),
  ("RTSP", ⟨"RTSP", "SG", Operating, Active⟩),
  ("S3FM", ⟨"S3FM", "CH", Operating, Active⟩),
  ("SECC", ⟨"SECC", "SC", Operating, Active⟩),
  ("SECD", ⟨"SECD", "SC", Operating, Active⟩),
  ("SECE", ⟨"SECE", "SC", Operating, Active⟩),
  ("SECF", ⟨"SECF", "GB", Operating, Active⟩),
  ("SEDC", ⟨"SEDC", "SC", Operating, Active⟩),
  ("SELC", ⟨"SELC", "BR", Operating, Active⟩),
  ("SEPE", ⟨"SEPE", "UA", Operating, Active⟩),
  ("SGEX", ⟨"SGEX", "CN", Operating, Active⟩),
  ("SGMA", ⟨"SGMA", "US", Operating, Active⟩),
  ("SHAR", ⟨"SHAR", "GB", Operating, Active⟩),
  ("SHAW", ⟨"SHAW", "US", Operating, Active⟩),
  ("SHAD", ⟨"SHAW", "US", Segment, Active⟩),
  ("SIGA", ⟨"SIGA", "AU", Operating, Active⟩),
  ("SIGJ", ⟨"SIGJ", "JP", Operating, Active⟩),
  ("SIGX", ⟨"SIGX", "US", Operating, Expired⟩),
  ("SIMV", ⟨"SIMV", "AU", Operating, Active⟩),
  ("SLXT", ⟨"SLXT", "GB", Operating, Expired⟩),
  ("SMEX", ⟨"SMEX", "SG", Operating, Active⟩),
  ("SOHO", ⟨"SOHO", "US", Operating, Active⟩),
  ("SPIM", ⟨"SPIM", "RU", Operating, Active⟩),
  ("SPRZ", ⟨"SPRZ", "GB", Operating, Active⟩),
  ("SPXE", ⟨"SPXE", "SK", Operating, Active⟩),
  ("SSEX", ⟨"SSEX", "GB", Operating, Active⟩),
  ("SSTX", ⟨"SSTX", "US", Operating, Active⟩),
  ("XSTV", ⟨"STOX", "CH", Segment, Active⟩),
  ("STOX", ⟨"STOX", "CH", Operating, Active⟩),
  ("XSCU", ⟨"STOX", "CH", Segment, Active⟩),
  ("XSTX", ⟨"STOX", "CH", Segment, Active⟩),
  ("SWAP", ⟨"SWAP", "GB", Operating, Active⟩),
  ("SXSI", ⟨"SXSI", "DK", Operating, Active⟩),
  ("TERA", ⟨"TERA", "US", Operating, Active⟩),
  ("TFEX", ⟨"TFEX", "TH", Operating, Active⟩),
  ("TFSA", ⟨"TFSA", "SG", Operating, Active⟩),
  ("TFSU", ⟨"TFSU", "US", Operating, Active⟩),
  ("TFSV", ⟨"TFSV", "GB", Operating, Expired⟩),
  ("TLAB", ⟨"TLAB", "IT", Operating, Expired⟩),
  ("TMID", ⟨"TMID", "US", Operating, Active⟩),
  ("TOCP", ⟨"TOCP", "HK", Operating, Active⟩),
  ("TPIE", ⟨"TPIE", "GB", Operating, Active⟩),
  ("TPIM", ⟨"TPIM", "GB", Operating, Expired⟩),
  ("TPSE", ⟨"TPSE", "US", Operating, Active⟩),
  ("TPSV", ⟨"TPSE", "US", Segment, Active⟩),
  ("TRCK", ⟨"TRCK", "US", Operating, Active⟩),
  ("TFSS", ⟨"TRDE", "GB", Segment, Expired⟩),
  ("DBVX", ⟨"TRDE", "GB", Segment, Expired⟩),
  ("TFSC", ⟨"TRDE", "GB", Segment, Expired⟩),
  ("OILX", ⟨"TRDE", "GB", Segment, Expired⟩),
  ("TCME", ⟨"TRDE", "GB", Segment, Expired⟩),
  ("TFSE", ⟨"TRDE", "GB", Segment, Expired⟩),
  ("TREU", ⟨"TREU", "GB", Operating, Active⟩),
  ("TRQX", ⟨"TRQX", "GB", Operating, Active⟩),
  ("TRQD", ⟨"TRQX", "GB", Segment, Expired⟩),
  ("TRU2", ⟨"TRUX", "US", Segment, Active⟩),
  ("TRU1", ⟨"TRUX", "US", Segment, Active⟩),
  ("TRUX", ⟨"TRUX", "US", Operating, Active⟩),
  ("BNDD", ⟨"TRWB", "US", Segment, Active⟩),
  ("TRWB", ⟨"TRWB", "US", Operating, Active⟩),
  ("TWSF", ⟨"TRWB", "US", Segment, Active⟩),
  ("DWSF", ⟨"TRWB", "US", Segment, Active⟩),
  ("TRFX", ⟨"TRWB", "US", Segment, Expired⟩),
  ("TSEF", ⟨"TSEF", "US", Operating, Active⟩),
  ("TWEU", ⟨"TWEU", "NL", Operating, Active⟩),
  ("TWEM", ⟨"TWEU", "NL", Segment, Active⟩),
  ("TWEA", ⟨"TWEU", "NL", Segment, Active⟩),
  ("TWEO", ⟨"TWEU", "NL", Segment, Active⟩),
  ("UBSP", ⟨"UBSA", "US", Segment, Active⟩),
  ("UBSC", ⟨"UBSG", "CH", Segment, Active⟩),
  ("UBSG", ⟨"UBSG", "CH", Operating, Active⟩),
  ("UBSF", ⟨"UBSG", "CH", Segment, Active⟩),
  ("UBST", ⟨"UBST", "CH", Operating, Expired⟩),
  ("UBSX", ⟨"UBSX", "HK", Operating, Active⟩),
  ("UKEX", ⟨"UKEX", "UA", Operating, Active⟩),
  ("UKPX", ⟨"UKPX", "GB", Operating, Active⟩),
  ("ULTX", ⟨"ULTX", "UG", Operating, Active⟩),
  ("VEGA", ⟨"VEGA", "GB", Operating, Active⟩),
  ("VFCM", ⟨"VFCM", "US", Operating, Active⟩),
  ("VMFX", ⟨"VMFX", "FO", Operating, Active⟩),
  ("WSAG", ⟨"WSAG", "US", Operating, Active⟩),
  ("XABJ", ⟨"XABJ", "CI", Operating, Expired⟩),
  ("XACE", ⟨"XACE", "NL", Operating, Expired⟩),
  ("XADS", ⟨"XADS", "AE", Operating, Active⟩)]

/-- The same entries with their strings spelt out. -/
def micChars18 : List (List Char × MicChars) := [
  (['P','I','P','E'], ⟨['P','I','P','E'], ['U','S'], Operating, Active⟩),
  (['P','I','R','M'], ⟨['P','I','R','M'], ['G','B'], Operating, Active⟩),
  (['P','M','T','S'], ⟨['P','M','T','S'], ['P','T'], Operating, Expired⟩),
  (['P','R','S','E'], ⟨['P','R','S','E'], ['U','S'], Operating, Active⟩),
  (['P','V','M','F'], ⟨['T','P','E','O'], ['G','B'], Segment, Active⟩),
  (['P','X','I','L'], ⟨['P','X','I','L'], ['I','N'], Operating, Active⟩),
  (['X','Q','L','X'], ⟨['Q','M','T','F'], ['H','U'], Segment, Expired⟩),
  (['Q','M','T','F'], ⟨['Q','M','T','F'], ['H','U'], Operating, Expired⟩),
  (['Q','W','I','X'], ⟨['Q','W','I','X'], ['G','B'], Operating, Active⟩),
  (['R','B','S','X'], ⟨['R','B','S','X'], ['G','B'], Operating, Active⟩),
  (['R','I','C','X'], ⟨['R','I','C','X'], ['U','S'], Operating, Expired⟩),
  (['R','I','C','D'], ⟨['R','I','C','X'], ['U','S'], Segment, Expired⟩),
  (['R','O','C','O'], ⟨['R','O','C','O'], ['T','W'], Operating, Active⟩),
  (['R','O','F','X'], ⟨['R','O','F','X'], ['A','R'], Operating, Active⟩),
  (['R','O','T','C'], ⟨['R','O','T','C'], ['R','W'], Operating, Active⟩),
  (['R','P','D','X'], ⟨['R','P','D','X'], ['R','U'], Operating, Active⟩),
  (['R','S','E','X'], ⟨['R','S','E','X'], ['R','W'], Operating, Active⟩),
  (['R','T','S','P'], ⟨['R','T','S','P'], ['S','G'], Operating, Active⟩),
  (['S','3','F','M'], ⟨['S','3','F','M'], ['C','H'], Operating, Active⟩),
  (['S','E','C','C'], ⟨['S','E','C','C'], ['S','C'], Operating, Active⟩),
  (['S','E','C','D'], ⟨['S','E','C','D'], ['S','C'], Operating, Active⟩),
  (['S','E','C','E'], ⟨['S','E','C','E'], ['S','C'], Operating, Active⟩),
  (['S','E','C','F'], ⟨['S','E','C','F'], ['G','B'], Operating, Active⟩),
  (['S','E','D','C'], ⟨['S','E','D','C'], ['S','C'], Operating, Active⟩),
  (['S','E','L','C'], ⟨['S','E','L','C'], ['B','R'], Operating, Active⟩),
  (['S','E','P','E'], ⟨['S','E','P','E'], ['U','A'], Operating, Active⟩),
  (['S','G','E','X'], ⟨['S','G','E','X'], ['C','N'], Operating, Active⟩),
  (['S','G','M','A'], ⟨['S','G','M','A'], ['U','S'], Operating, Active⟩),
  (['S','H','A','R'], ⟨['S','H','A','R'], ['G','B'], Operating, Active⟩),
  (['S','H','A','W'], ⟨['S','H','A','W'], ['U','S'], Operating, Active⟩),
  (['S','H','A','D'], ⟨['S','H','A','W'], ['U','S'], Segment, Active⟩),
  (['S','I','G','A'], ⟨['S','I','G','A'], ['A','U'], Operating, Active⟩),
  (['S','I','G','J'], ⟨['S','I','G','J'], ['J','P'], Operating, Active⟩),
  (['S','I','G','X'], ⟨['S','I','G','X'], ['U','S'], Operating, Expired⟩),
  (['S','I','M','V'], ⟨['S','I','M','V'], ['A','U'], Operating, Active⟩),
  (['S','L','X','T'], ⟨['S','L','X','T'], ['G','B'], Operating, Expired⟩),
  (['S','M','E','X'], ⟨['S','M','E','X'], ['S','G'], Operating, Active⟩),
  (['S','O','H','O'], ⟨['S','O','H','O'], ['U','S'], Operating, Active⟩),
  (['S','P','I','M'], ⟨['S','P','I','M'], ['R','U'], Operating, Active⟩),
  (['S','P','R','Z'], ⟨['S','P','R','Z'], ['G','B'], Operating, Active⟩),
  (['S','P','X','E'], ⟨['S','P','X','E'], ['S','K'], Operating, Active⟩),
  (['S','S','E','X'], ⟨['S','S','E','X'], ['G','B'], Operating, Active⟩),
  (['S','S','T','X'], ⟨['S','S','T','X'], ['U','S'], Operating, Active⟩),
  (['X','S','T','V'], ⟨['S','T','O','X'], ['C','H'], Segment, Active⟩),
  (['S','T','O','X'], ⟨['S','T','O','X'], ['C','H'], Operating, Active⟩),
  (['X','S','C','U'], ⟨['S','T','O','X'], ['C','H'], Segment, Active⟩),
  (['X','S','T','X'], ⟨['S','T','O','X'], ['C','H'], Segment, Active⟩),
  (['S','W','A','P'], ⟨['S','W','A','P'], ['G','B'], Operating, Active⟩),
  (['S','X','S','I'], ⟨['S','X','S','I'], ['D','K'], Operating, Active⟩),
  (['T','E','R','A'], ⟨['T','E','R','A'], ['U','S'], Operating, Active⟩),
  (['T','F','E','X'], ⟨['T','F','E','X'], ['T','H'], Operating, Active⟩),
  (['T','F','S','A'], ⟨['T','F','S','A'], ['S','G'], Operating, Active⟩),
  (['T','F','S','U'], ⟨['T','F','S','U'], ['U','S'], Operating, Active⟩),
  (['T','F','S','V'], ⟨['T','F','S','V'], ['G','B'], Operating, Expired⟩),
  (['T','L','A','B'], ⟨['T','L','A','B'], ['I','T'], Operating, Expired⟩),
  (['T','M','I','D'], ⟨['T','M','I','D'], ['U','S'], Operating, Active⟩),
  (['T','O','C','P'], ⟨['T','O','C','P'], ['H','K'], Operating, Active⟩),
  (['T','P','I','E'], ⟨['T','P','I','E'], ['G','B'], Operating, Active⟩),
  (['T','P','I','M'], ⟨['T','P','I','M'], ['G','B'], Operating, Expired⟩),
  (['T','P','S','E'], ⟨['T','P','S','E'], ['U','S'], Operating, Active⟩),
  (['T','P','S','V'], ⟨['T','P','S','E'], ['U','S'], Segment, Active⟩),
  (['T','R','C','K'], ⟨['T','R','C','K'], ['U','S'], Operating, Active⟩),
  (['T','F','S','S'], ⟨['T','R','D','E'], ['G','B'], Segment, Expired⟩),
  (['D','B','V','X'], ⟨['T','R','D','E'], ['G','B'], Segment, Expired⟩),
  (['T','F','S','C'], ⟨['T','R','D','E'], ['G','B'], Segment, Expired⟩),
  (['O','I','L','X'], ⟨['T','R','D','E'], ['G','B'], Segment, Expired⟩),
  (['T','C','M','E'], ⟨['T','R','D','E'], ['G','B'], Segment, Expired⟩),
  (['T','F','S','E'], ⟨['T','R','D','E'], ['G','B'], Segment, Expired⟩),
  (['T','R','E','U'], ⟨['T','R','E','U'], ['G','B'], Operating, Active⟩),
  (['T','R','Q','X'], ⟨['T','R','Q','X'], ['G','B'], Operating, Active⟩),
  (['T','R','Q','D'], ⟨['T','R','Q','X'], ['G','B'], Segment, Expired⟩),
  (['T','R','U','2'], ⟨['T','R','U','X'], ['U','S'], Segment, Active⟩),
  (['T','R','U','1'], ⟨['T','R','U','X'], ['U','S'], Segment, Active⟩),
  (['T','R','U','X'], ⟨['T','R','U','X'], ['U','S'], Operating, Active⟩),
  (['B','N','D','D'], ⟨['T','R','W','B'], ['U','S'], Segment, Active⟩),
  (['T','R','W','B'], ⟨['T','R','W','B'], ['U','S'], Operating, Active⟩),
  (['T','W','S','F'], ⟨['T','R','W','B'], ['U','S'], Segment, Active⟩),
  (['D','W','S','F'], ⟨['T','R','W','B'], ['U','S'], Segment, Active⟩),
  (['T','R','F','X'], ⟨['T','R','W','B'], ['U','S'], Segment, Expired⟩),
  (['T','S','E','F'], ⟨['T','S','E','F'], ['U','S'], Operating, Active⟩),
  (['T','W','E','U'], ⟨['T','W','E','U'], ['N','L'], Operating, Active⟩),
  (['T','W','E','M'], ⟨['T','W','E','U'], ['N','L'], Segment, Active⟩),
  (['T','W','E','A'], ⟨['T','W','E','U'], ['N','L'], Segment, Active⟩),
  (['T','W','E','O'], ⟨['T','W','E','U'], ['N','L'], Segment, Active⟩),
  (['U','B','S','P'], ⟨['U','B','S','A'], ['U','S'], Segment, Active⟩),
  (['U','B','S','C'], ⟨['U','B','S','G'], ['C','H'], Segment, Active⟩),
  (['U','B','S','G'], ⟨['U','B','S','G'], ['C','H'], Operating, Active⟩),
  (['U','B','S','F'], ⟨['U','B','S','G'], ['C','H'], Segment, Active⟩),
  (['U','B','S','T'], ⟨['U','B','S','T'], ['C','H'], Operating, Expired⟩),
  (['U','B','S','X'], ⟨['U','B','S','X'], ['H','K'], Operating, Active⟩),
  (['U','K','E','X'], ⟨['U','K','E','X'], ['U','A'], Operating, Active⟩),
  (['U','K','P','X'], ⟨['U','K','P','X'], ['G','B'], Operating, Active⟩),
  (['U','L','T','X'], ⟨['U','L','T','X'], ['U','G'], Operating, Active⟩),
  (['V','E','G','A'], ⟨['V','E','G','A'], ['G','B'], Operating, Active⟩),
  (['V','F','C','M'], ⟨['V','F','C','M'], ['U','S'], Operating, Active⟩),
  (['V','M','F','X'], ⟨['V','M','F','X'], ['F','O'], Operating, Active⟩),
  (['W','S','A','G'], ⟨['W','S','A','G'], ['U','S'], Operating, Active⟩),
  (['X','A','B','J'], ⟨['X','A','B','J'], ['C','I'], Operating, Expired⟩),
  (['X','A','C','E'], ⟨['X','A','C','E'], ['N','L'], Operating, Expired⟩),
  (['X','A','D','S'], ⟨['X','A','D','S'], ['A','E'], Operating, Active⟩)]

theorem mics18_eq : mics18 = micChars18.map MicChars.entry := (rfl)

/-- iso_10383.rs 1996-2095. -/
def mics19 : List (String × Mic) := [
  ("XAEX", ⟨"XAEX", "NL", Operating, Expired⟩),
  ("XAFR", ⟨"XAFR", "FR", Operating, Active⟩),
  ("XAFX", ⟨"XAFX", "MU", Operating, Active⟩),
  ("XALB", ⟨"XALB", "CA", Operating, Expired⟩),
  ("XALG", ⟨"XALG", "DZ", Operating, Active⟩),
  ("XEUC", ⟨"XAMS", "NL", Segment, Active⟩),
  ("XAMS", ⟨"XAMS", "NL", Operating, Active⟩),
  ("XEUI", ⟨"XAMS", "NL", Segment, Active⟩),
  ("TNLA", ⟨"XAMS", "NL", Segment, Active⟩),
  ("XHFT", ⟨"XAMS", "NL", Segment, Expired⟩),
  ("XEUE", ⟨"XAMS", "NL", Segment, Active⟩),
  ("XANT", ⟨"XANT", "BE", Operating, Expired⟩),
  ("XAOM", ⟨"XAOM", "AU", Operating, Expired⟩),
  ("XAPI", ⟨"XAPI", "RU", Operating, Expired⟩),
  ("XAQS", ⟨"XAQS", "US", Operating, Active⟩),
  ("XARC", ⟨"XARC", "US", Operating, Expired⟩),
  ("XARM", ⟨"XARM", "AM", Operating, Active⟩),
  ("XASX", ⟨"XASX", "AU", Operating, Active⟩),
  ("ASXT", ⟨"XASX", "AU", Segment, Active⟩),
  ("ASXB", ⟨"XASX", "AU", Segment, Active⟩),
  ("ASXV", ⟨"XASX", "AU", Segment, Active⟩),
  ("ASXP", ⟨"XASX", "AU", Segment, Active⟩),
  ("XSFE", ⟨"XASX", "AU", Segment, Active⟩),
  ("XATS", ⟨"XATS", "CA", Operating, Active⟩),
  ("XAUK", ⟨"XAUK", "NZ", Operating, Expired⟩),
  ("XAZX", ⟨"XAZX", "US", Operating, Expired⟩),
  ("XBAA", ⟨"XBAA", "BS", Operating, Active⟩),
  ("XBAB", ⟨"XBAB", "BB", Operating, Active⟩),
  ("BAJM", ⟨"XBAB", "BB", Segment, Active⟩),
  ("XBAH", ⟨"XBAH", "BH", Operating, Active⟩),
  ("XBAN", ⟨"XBAN", "IN", Operating, Active⟩),
  ("XBAV", ⟨"XBAV", "ES", Operating, Expired⟩),
  ("XBBF", ⟨"XBBF", "BR", Operating, Expired⟩),
  ("XBBJ", ⟨"XBBJ", "ID", Operating, Active⟩),
  ("XBBK", ⟨"XBBK", "CA", Operating, Active⟩),
  ("XBCC", ⟨"XBCC", "AR", Operating, Active⟩),
  ("MVCX", ⟨"XBCC", "AR", Segment, Active⟩),
  ("XBCE", ⟨"XBCE", "HU", Operating, Expired⟩),
  ("XBCL", ⟨"XBCL", "CL", Operating, Active⟩),
  ("XBCM", ⟨"XBCM", "AR", Operating, Active⟩),
  ("XBCX", ⟨"XBCM", "AR", Segment, Active⟩),
  ("XBCV", ⟨"XBCV", "HN", Operating, Active⟩),
  ("XBDA", ⟨"XBDA", "BM", Operating, Active⟩),
  ("BERA", ⟨"XBER", "DE", Segment, Active⟩),
  ("BERB", ⟨"XBER", "DE", Segment, Active⟩),
  ("BERC", ⟨"XBER", "DE", Segment, Active⟩),
  ("XBER", ⟨"XBER", "DE", Operating, Active⟩),
  ("ZOBX", ⟨"XBER", "DE", Segment, Active⟩),
  ("EQTA", ⟨"XBER", "DE", Segment, Active⟩),
  ("EQTB", ⟨"XBER", "DE", Segment, Active⟩),
  ("EQTC", ⟨"XBER", "DE", Segment, Active⟩),
  ("EQTD", ⟨"XBER", "DE", Segment, Active⟩),
  ("XEQT", ⟨"XBER", "DE", Segment, Active⟩),
  ("XBEY", ⟨"XBEY", "LB", Operating, Active⟩),
  ("XBFO", ⟨"XBFO", "BE", Operating, Expired⟩),
  ("XMAI", ⟨"XBKK", "TH", Segment, Active⟩),
  ("XBKK", ⟨"XBKK", "TH", Operating, Active⟩),
  ("XBKF", ⟨"XBKK", "TH", Segment, Active⟩),
  ("XBLN", ⟨"XBLN", "FR", Operating, Active⟩),
  ("XBNV", ⟨"XBNV", "CR", Operating, Active⟩),
  ("XBOG", ⟨"XBOG", "CO", Operating, Active⟩),
  ("XBOL", ⟨"XBOL", "BO", Operating, Active⟩),
  ("XBOM", ⟨"XBOM", "IN", Operating, Active⟩),
  ("BSME", ⟨"XBOM", "IN", Segment, Active⟩),
  ("BOTE", ⟨"XBOT", "BW", Segment, Active⟩),
  ("XBOT", ⟨"XBOT", "BW", Operating, Active⟩),
  ("BOTV", ⟨"XBOT", "BW", Segment, Active⟩),
  ("XBRA", ⟨"XBRA", "SK", Operating, Active⟩),
  ("XBRE", ⟨"XBRE", "DE", Operating, Expired⟩),
  ("XBRM", ⟨"XBRM", "RO", Operating, Active⟩),
  ("EQWB", ⟨"XBRN", "CH", Segment, Expired⟩),
  ("XBRN", ⟨"XBRN", "CH", Operating, Active⟩),
  ("VPXB", ⟨"XBRU", "BE", Segment, Active⟩),
  ("TNLB", ⟨"XBRU", "BE", Segment, Active⟩),
  ("XBRU", ⟨"XBRU", "BE", Operating, Active⟩),
  ("XBRD", ⟨"XBRU", "BE", Segment, Active⟩),
  ("XBRV", ⟨"XBRV", "CI", Operating, Active⟩),
  ("XRAS", ⟨"XBSE", "RO", Segment, Active⟩),
  ("XBSE", ⟨"XBSE", "RO", Operating, Active⟩),
  ("XBSD", ⟨"XBSE", "RO", Segment, Active⟩),
  ("XBTF", ⟨"XBTF", "US", Operating, Expired⟩),
  ("XBUD", ⟨"XBUD", "HU", Operating, Active⟩),
  ("XTND", ⟨"XBUD", "HU", Segment, Active⟩),
  ("XBUE", ⟨"XBUE", "AR", Operating, Active⟩),
  ("XMEV", ⟨"XBUE", "AR", Segment, Active⟩),
  ("XBUL", ⟨"XBUL", "BG", Operating, Active⟩),
  ("ABUL", ⟨"XBUL", "BG", Segment, Active⟩),
  ("XBVC", ⟨"XBVC", "CV", Operating, Active⟩),
  ("XBVP", ⟨"XBVP", "BR", Operating, Expired⟩),
  ("XBVR", ⟨"XBVR", "DO", Operating, Active⟩),
  ("XCAI", ⟨"XCAI", "EG", Operating, Active⟩),
  ("XCAL", ⟨"XCAL", "IN", Operating, Active⟩),
  ("XCAS", ⟨"XCAS", "MA", Operating, Active⟩),
  ("XCAY", ⟨"XCAY", "KY", Operating, Active⟩),
  ("CBSX", ⟨"XCBO", "US", Segment, Active⟩),
  ("XCBF", ⟨"XCBO", "US", Segment, Active⟩),
  ("XCBT", ⟨"XCBT", "US", Operating, Active⟩),
  ("FCBT", ⟨"XCBT", "US", Segment, Active⟩),
  ("XKBT", ⟨"XCBT", "US", Segment, Active⟩),
  ("XCCE", ⟨"XCCE", "JP", Operating, Expired⟩)]

/-- The same entries with their strings spelt out. -/
def micChars19 : List (List Char × MicChars) := [
  (['X','A','E','X'], ⟨['X','A','E','X'], ['N','L'], Operating, Expired⟩),
  (['X','A','F','R'], ⟨['X','A','F','R'], ['F','R'], Operating, Active⟩),
  (['X','A','F','X'], ⟨['X','A','F','X'], ['M','U'], Operating, Active⟩),
  (['X','A','L','B'], ⟨['X','A','L','B'], ['C','A'], Operating, Expired⟩),
  (['X','A','L','G'], ⟨['X','A','L','G'], ['D','Z'], Operating, Active⟩),
  (['X','E','U','C'], ⟨['X','A','M','S'], ['N','L'], Segment, Active⟩),
  (['X','A','M','S'], ⟨['X','A','M','S'], ['N','L'], Operating, Active⟩),
  (['X','E','U','I'], ⟨['X','A','M','S'], ['N','L'], Segment, Active⟩),
  (['T','N','L','A'], ⟨['X','A','M','S'], ['N','L'], Segment, Active⟩),
  (['X','H','F','T'], ⟨['X','A','M','S'], ['N','L'], Segment, Expired⟩),
  (['X','E','U','E'], ⟨['X','A','M','S'], ['N','L'], Segment, Active⟩),
  (['X','A','N','T'], ⟨['X','A','N','T'], ['B','E'], Operating, Expired⟩),
  (['X','A','O','M'], ⟨['X','A','O','M'], ['A','U'], Operating, Expired⟩),
  (['X','A','P','I'], ⟨['X','A','P','I'], ['R','U'], Operating, Expired⟩),
  (['X','A','Q','S'], ⟨['X','A','Q','S'], ['U','S'], Operating, Active⟩),
  (['X','A','R','C'], ⟨['X','A','R','C'], ['U','S'], Operating, Expired⟩),
  (['X','A','R','M'], ⟨['X','A','R','M'], ['A','M'], Operating, Active⟩),
  (['X','A','S','X'], ⟨['X','A','S','X'], ['A','U'], Operating, Active⟩),
  (['A','S','X','T'], ⟨['X','A','S','X'], ['A','U'], Segment, Active⟩),
  (['A','S','X','B'], ⟨['X','A','S','X'], ['A','U'], Segment, Active⟩),
  (['A','S','X','V'], ⟨['X','A','S','X'], ['A','U'], Segment, Active⟩),
  (['A','S','X','P'], ⟨['X','A','S','X'], ['A','U'], Segment, Active⟩),
  (['X','S','F','E'], ⟨['X','A','S','X'], ['A','U'], Segment, Active⟩),
  (['X','A','T','S'], ⟨['X','A','T','S'], ['C','A'], Operating, Active⟩),
  (['X','A','U','K'], ⟨['X','A','U','K'], ['N','Z'], Operating, Expired⟩),
  (['X','A','Z','X'], ⟨['X','A','Z','X'], ['U','S'], Operating, Expired⟩),
  (['X','B','A','A'], ⟨['X','B','A','A'], ['B','S'], Operating, Active⟩),
  (['X','B','A','B'], ⟨['X','B','A','B'], ['B','B'], Operating, Active⟩),
  (['B','A','J','M'], ⟨['X','B','A','B'], ['B','B'], Segment, Active⟩),
  (['X','B','A','H'], ⟨['X','B','A','H'], ['B','H'], Operating, Active⟩),
  (['X','B','A','N'], ⟨['X','B','A','N'], ['I','N'], Operating, Active⟩),
  (['X','B','A','V'], ⟨['X','B','A','V'], ['E','S'], Operating, Expired⟩),
  (['X','B','B','F'], ⟨['X','B','B','F'], ['B','R'], Operating, Expired⟩),
  (['X','B','B','J'], ⟨['X','B','B','J'], ['I','D'], Operating, Active⟩),
  (['X','B','B','K'], ⟨['X','B','B','K'], ['C','A'], Operating, Active⟩),
  (['X','B','C','C'], ⟨['X','B','C','C'], ['A','R'], Operating, Active⟩),
  (['M','V','C','X'], ⟨['X','B','C','C'], ['A','R'], Segment, Active⟩),
  (['X','B','C','E'], ⟨['X','B','C','E'], ['H','U'], Operating, Expired⟩),
  (['X','B','C','L'], ⟨['X','B','C','L'], ['C','L'], Operating, Active⟩),
  (['X','B','C','M'], ⟨['X','B','C','M'], ['A','R'], Operating, Active⟩),
  (['X','B','C','X'], ⟨['X','B','C','M'], ['A','R'], Segment, Active⟩),
  (['X','B','C','V'], ⟨['X','B','C','V'], ['H','N'], Operating, Active⟩),
  (['X','B','D','A'], ⟨['X','B','D','A'], ['B','M'], Operating, Active⟩),
  (['B','E','R','A'], ⟨['X','B','E','R'], ['D','E'], Segment, Active⟩),
  (['B','E','R','B'], ⟨['X','B','E','R'], ['D','E'], Segment, Active⟩),
  (['B','E','R','C'], ⟨['X','B','E','R'], ['D','E'], Segment, Active⟩),
  (['X','B','E','R'], ⟨['X','B','E','R'], ['D','E'], Operating, Active⟩),
  (['Z','O','B','X'], ⟨['X','B','E','R'], ['D','E'], Segment, Active⟩),
  (['E','Q','T','A'], ⟨['X','B','E','R'], ['D','E'], Segment, Active⟩),
  (['E','Q','T','B'], ⟨['X','B','E','R'], ['D','E'], Segment, Active⟩),
  (['E','Q','T','C'], ⟨['X','B','E','R'], ['D','E'], Segment, Active⟩),
  (['E','Q','T','D'], ⟨['X','B','E','R'], ['D','E'], Segment, Active⟩),
  (['X','E','Q','T'], ⟨['X','B','E','R'], ['D','E'], Segment, Active⟩),
  (['X','B','E','Y'], ⟨['X','B','E','Y'], ['L','B'], Operating, Active⟩),
  (['X','B','F','O'], ⟨['X','B','F','O'], ['B','E'], Operating, Expired⟩),
  (['X','M','A','I'], ⟨['X','B','K','K'], ['T','H'], Segment, Active⟩),
  (['X','B','K','K'], ⟨['X','B','K','K'], ['T','H'], Operating, Active⟩),
  (['X','B','K','F'], ⟨['X','B','K','K'], ['T','H'], Segment, Active⟩),
  (['X','B','L','N'], ⟨['X','B','L','N'], ['F','R'], Operating, Active⟩),
  (['X','B','N','V'], ⟨['X','B','N','V'], ['C','R'], Operating, Active⟩),
  (['X','B','O','G'], ⟨['X','B','O','G'], ['C','O'], Operating, Active⟩),
  (['X','B','O','L'], ⟨['X','B','O','L'], ['B','O'], Operating, Active⟩),
  (['X','B','O','M'], ⟨['X','B','O','M'], ['I','N'], Operating, Active⟩),
  (['B','S','M','E'], ⟨['X','B','O','M'], ['I','N'], Segment, Active⟩),
  (['B','O','T','E'], ⟨['X','B','O','T'], ['B','W'], Segment, Active⟩),
  (['X','B','O','T'], ⟨['X','B','O','T'], ['B','W'], Operating, Active⟩),
  (['B','O','T','V'], ⟨['X','B','O','T'], ['B','W'], Segment, Active⟩),
  (['X','B','R','A'], ⟨['X','B','R','A'], ['S','K'], Operating, Active⟩),
  (['X','B','R','E'], ⟨['X','B','R','E'], ['D','E'], Operating, Expired⟩),
  (['X','B','R','M'], ⟨['X','B','R','M'], ['R','O'], Operating, Active⟩),
  (['E','Q','W','B'], ⟨['X','B','R','N'], ['C','H'], Segment, Expired⟩),
  (['X','B','R','N'], ⟨['X','B','R','N'], ['C','H'], Operating, Active⟩),
  (['V','P','X','B'], ⟨['X','B','R','U'], ['B','E'], Segment, Active⟩),
  (['T','N','L','B'], ⟨['X','B','R','U'], ['B','E'], Segment, Active⟩),
  (['X','B','R','U'], ⟨['X','B','R','U'], ['B','E'], Operating, Active⟩),
  (['X','B','R','D'], ⟨['X','B','R','U'], ['B','E'], Segment, Active⟩),
  (['X','B','R','V'], ⟨['X','B','R','V'], ['C','I'], Operating, Active⟩),
  (['X','R','A','S'], ⟨['X','B','S','E'], ['R','O'], Segment, Active⟩),
  (['X','B','S','E'], ⟨['X','B','S','E'], ['R','O'], Operating, Active⟩),
  (['X','B','S','D'], ⟨['X','B','S','E'], ['R','O'], Segment, Active⟩),
  (['X','B','T','F'], ⟨['X','B','T','F'], ['U','S'], Operating, Expired⟩),
  (['X','B','U','D'], ⟨['X','B','U','D'], ['H','U'], Operating, Active⟩),
  (['X','T','N','D'], ⟨['X','B','U','D'], ['H','U'], Segment, Active⟩),
  (['X','B','U','E'], ⟨['X','B','U','E'], ['A','R'], Operating, Active⟩),
  (['X','M','E','V'], ⟨['X','B','U','E'], ['A','R'], Segment, Active⟩),
  (['X','B','U','L'], ⟨['X','B','U','L'], ['B','G'], Operating, Active⟩),
  (['A','B','U','L'], ⟨['X','B','U','L'], ['B','G'], Segment, Active⟩),
  (['X','B','V','C'], ⟨['X','B','V','C'], ['C','V'], Operating, Active⟩),
  (['X','B','V','P'], ⟨['X','B','V','P'], ['B','R'], Operating, Expired⟩),
  (['X','B','V','R'], ⟨['X','B','V','R'], ['D','O'], Operating, Active⟩),
  (['X','C','A','I'], ⟨['X','C','A','I'], ['E','G'], Operating, Active⟩),
  (['X','C','A','L'], ⟨['X','C','A','L'], ['I','N'], Operating, Active⟩),
  (['X','C','A','S'], ⟨['X','C','A','S'], ['M','A'], Operating, Active⟩),
  (['X','C','A','Y'], ⟨['X','C','A','Y'], ['K','Y'], Operating, Active⟩),
  (['C','B','S','X'], ⟨['X','C','B','O'], ['U','S'], Segment, Active⟩),
  (['X','C','B','F'], ⟨['X','C','B','O'], ['U','S'], Segment, Active⟩),
  (['X','C','B','T'], ⟨['X','C','B','T'], ['U','S'], Operating, Active⟩),
  (['F','C','B','T'], ⟨['X','C','B','T'], ['U','S'], Segment, Active⟩),
  (['X','K','B','T'], ⟨['X','C','B','T'], ['U','S'], Segment, Active⟩),
  (['X','C','C','E'], ⟨['X','C','C','E'], ['J','P'], Operating, Expired⟩)]

theorem mics19_eq : mics19 = micChars19.map MicChars.entry := (rfl)

/-- iso_10383.rs 2096-2195. -/
def mics20 : List (String × Mic) := [
  ("XCCX", ⟨"XCCX", "US", Operating, Expired⟩),
  ("XCDE", ⟨"XCDE", "IE", Operating, Active⟩),
  ("XCET", ⟨"XCET", "UZ", Operating, Active⟩),
  ("XCFE", ⟨"XCFE", "CN", Operating, Active⟩),
  ("XCFF", ⟨"XCFF", "US", Operating, Active⟩),
  ("XCGS", ⟨"XCGS", "HK", Operating, Active⟩),
  ("XCHG", ⟨"XCHG", "BD", Operating, Active⟩),
  ("XCIE", ⟨"XCIE", "GG", Operating, Active⟩),
  ("FCME", ⟨"XCME", "US", Segment, Active⟩),
  ("XIMM", ⟨"XCME", "US", Segment, Active⟩),
  ("XCME", ⟨"XCME", "US", Operating, Active⟩),
  ("GLBX", ⟨"XCME", "US", Segment, Active⟩),
  ("XIOM", ⟨"XCME", "US", Segment, Active⟩),
  ("CMES", ⟨"XCME", "US", Segment, Active⟩),
  ("CBTS", ⟨"XCME", "US", Segment, Active⟩),
  ("NYMS", ⟨"XCME", "US", Segment, Active⟩),
  ("CECS", ⟨"XCME", "US", Segment, Active⟩),
  ("XCNF", ⟨"XCNF", "AR", Operating, Active⟩),
  ("XCOL", ⟨"XCOL", "LK", Operating, Active⟩),
  ("XCOR", ⟨"XCOR", "GB", Operating, Active⟩),
  ("XCRC", ⟨"XCRC", "US", Operating, Expired⟩),
  ("XCRO", ⟨"XCRO", "HR", Operating, Active⟩),
  ("XCSC", ⟨"XCSC", "US", Operating, Expired⟩),
  ("DCSE", ⟨"XCSE", "DK", Segment, Active⟩),
  ("XCSE", ⟨"XCSE", "DK", Operating, Active⟩),
  ("MNDK", ⟨"XCSE", "DK", Segment, Active⟩),
  ("FNDK", ⟨"XCSE", "DK", Segment, Active⟩),
  ("DNDK", ⟨"XCSE", "DK", Segment, Active⟩),
  ("MCSE", ⟨"XCSE", "DK", Segment, Active⟩),
  ("XFND", ⟨"XCSE", "DK", Segment, Expired⟩),
  ("XCSX", ⟨"XCSX", "KH", Operating, Active⟩),
  ("XCUE", ⟨"XCUE", "UZ", Operating, Active⟩),
  ("XCUR", ⟨"XCUR", "US", Operating, Active⟩),
  ("XCXD", ⟨"XCXD", "CA", Operating, Active⟩),
  ("XCYO", ⟨"XCYS", "CY", Segment, Active⟩),
  ("XCYS", ⟨"XCYS", "CY", Operating, Active⟩),
  ("XECM", ⟨"XCYS", "CY", Segment, Active⟩),
  ("XDAR", ⟨"XDAR", "TZ", Operating, Active⟩),
  ("XDCE", ⟨"XDCE", "CN", Operating, Active⟩),
  ("XDES", ⟨"XDES", "IN", Operating, Active⟩),
  ("XDFB", ⟨"XDFB", "UA", Operating, Active⟩),
  ("XDFM", ⟨"XDFM", "AE", Operating, Active⟩),
  ("XDHA", ⟨"XDHA", "BD", Operating, Active⟩),
  ("XDPA", ⟨"XDPA", "ES", Operating, Active⟩),
  ("XDSE", ⟨"XDSE", "SY", Operating, Active⟩),
  ("XDSX", ⟨"XDSX", "CM", Operating, Active⟩),
  ("XDTB", ⟨"XDTB", "DE", Operating, Expired⟩),
  ("DUSA", ⟨"XDUS", "DE", Segment, Active⟩),
  ("DUSB", ⟨"XDUS", "DE", Segment, Active⟩),
  ("DUSC", ⟨"XDUS", "DE", Segment, Active⟩),
  ("DUSD", ⟨"XDUS", "DE", Segment, Active⟩),
  ("XDUS", ⟨"XDUS", "DE", Operating, Active⟩),
  ("XQTX", ⟨"XDUS", "DE", Segment, Active⟩),
  ("XDWZ", ⟨"XDWZ", "DE", Operating, Expired⟩),
  ("XEBI", ⟨"XEBI", "IE", Operating, Active⟩),
  ("XECB", ⟨"XECB", "DE", Operating, Active⟩),
  ("XECC", ⟨"XECC", "DE", Operating, Active⟩),
  ("XECS", ⟨"XECS", "KN", Operating, Active⟩),
  ("XELX", ⟨"XELX", "US", Operating, Active⟩),
  ("XEMD", ⟨"XEMD", "MX", Operating, Active⟩),
  ("XEMS", ⟨"XEMS", "NL", Operating, Active⟩),
  ("XETD", ⟨"XETI", "DE", Segment, Expired⟩),
  ("XETI", ⟨"XETI", "DE", Operating, Expired⟩),
  ("XETC", ⟨"XETI", "DE", Segment, Expired⟩),
  ("XETR", ⟨"XETR", "DE", Operating, Active⟩),
  ("XETB", ⟨"XETR", "DE", Segment, Active⟩),
  ("XETA", ⟨"XETR", "DE", Segment, Active⟩),
  ("XERT", ⟨"XEUP", "DE", Segment, Active⟩),
  ("XERE", ⟨"XEUP", "DE", Segment, Active⟩),
  ("XEUM", ⟨"XEUP", "DE", Segment, Active⟩),
  ("XEUP", ⟨"XEUP", "DE", Operating, Active⟩),
  ("XEUR", ⟨"XEUR", "DE", Operating, Active⟩),
  ("XFCM", ⟨"XFCM", "ES", Operating, Expired⟩),
  ("XFFE", ⟨"XFFE", "JP", Operating, Expired⟩),
  ("XFKA", ⟨"XFKA", "JP", Operating, Active⟩),
  ("XFMN", ⟨"XFMN", "FR", Operating, Expired⟩),
  ("XFOM", ⟨"XFOM", "FI", Operating, Expired⟩),
  ("XDBC", ⟨"XFRA", "DE", Segment, Expired⟩),
  ("XFRA", ⟨"XFRA", "DE", Operating, Active⟩),
  ("XDBV", ⟨"XFRA", "DE", Segment, Expired⟩),
  ("FRAA", ⟨"XFRA", "DE", Segment, Active⟩),
  ("FRAD", ⟨"XFRA", "DE", Segment, Expired⟩),
  ("FRAB", ⟨"XFRA", "DE", Segment, Active⟩),
  ("XDBX", ⟨"XFRA", "DE", Segment, Expired⟩),
  ("XNEW", ⟨"XFRA", "DE", Segment, Expired⟩),
  ("XFTA", ⟨"XFTA", "NL", Operating, Expired⟩),
  ("XGAS", ⟨"XGAS", "HU", Operating, Active⟩),
  ("XGCL", ⟨"XGCL", "GB", Operating, Active⟩),
  ("XGHA", ⟨"XGHA", "GH", Operating, Active⟩),
  ("XGME", ⟨"XGME", "IT", Operating, Active⟩),
  ("XGMX", ⟨"XGMX", "US", Operating, Active⟩),
  ("XGSE", ⟨"XGSE", "GE", Operating, Active⟩),
  ("XGTG", ⟨"XGTG", "GT", Operating, Active⟩),
  ("XGUA", ⟨"XGUA", "EC", Operating, Active⟩),
  ("HAMA", ⟨"XHAM", "DE", Segment, Active⟩),
  ("HAMB", ⟨"XHAM", "DE", Segment, Active⟩),
  ("XHAM", ⟨"XHAM", "DE", Operating, Active⟩),
  ("HAMM", ⟨"XHAM", "DE", Segment, Active⟩),
  ("HAML", ⟨"XHAM", "DE", Segment, Expired⟩),
  ("HAMN", ⟨"XHAM", "DE", Segment, Active⟩)]

/-- The same entries with their strings spelt out. -/
def micChars20 : List (List Char × MicChars) := [
  (['X','C','C','X'], ⟨['X','C','C','X'], ['U','S'], Operating, Expired⟩),
  (['X','C','D','E'], ⟨['X','C','D','E'], ['I','E'], Operating, Active⟩),
  (['X','C','E','T'], ⟨['X','C','E','T'], ['U','Z'], Operating, Active⟩),
  (['X','C','F','E'], ⟨['X','C','F','E'], ['C','N'], Operating, Active⟩),
  (['X','C','F','F'], ⟨['X','C','F','F'], ['U','S'], Operating, Active⟩),
  (['X','C','G','S'], ⟨['X','C','G','S'], ['H','K'], Operating, Active⟩),
  (['X','C','H','G'], ⟨['X','C','H','G'], ['B','D'], Operating, Active⟩),
  (['X','C','I','E'], ⟨['X','C','I','E'], ['G','G'], Operating, Active⟩),
  (['F','C','M','E'], ⟨['X','C','M','E'], ['U','S'], Segment, Active⟩),
  (['X','I','M','M'], ⟨['X','C','M','E'], ['U','S'], Segment, Active⟩),
  (['X','C','M','E'], ⟨['X','C','M','E'], ['U','S'], Operating, Active⟩),
  (['G','L','B','X'], ⟨['X','C','M','E'], ['U','S'], Segment, Active⟩),
  (['X','I','O','M'], ⟨['X','C','M','E'], ['U','S'], Segment, Active⟩),
  (['C','M','E','S'], ⟨['X','C','M','E'], ['U','S'], Segment, Active⟩),
  (['C','B','T','S'], ⟨['X','C','M','E'], ['U','S'], Segment, Active⟩),
  (['N','Y','M','S'], ⟨['X','C','M','E'], ['U','S'], Segment, Active⟩),
  (['C','E','C','S'], ⟨['X','C','M','E'], ['U','S'], Segment, Active⟩),
  (['X','C','N','F'], ⟨['X','C','N','F'], ['A','R'], Operating, Active⟩),
  (['X','C','O','L'], ⟨['X','C','O','L'], ['L','K'], Operating, Active⟩),
  (['X','C','O','R'], ⟨['X','C','O','R'], ['G','B'], Operating, Active⟩),
  (['X','C','R','C'], ⟨['X','C','R','C'], ['U','S'], Operating, Expired⟩),
  (['X','C','R','O'], ⟨['X','C','R','O'], ['H','R'], Operating, Active⟩),
  (['X','C','S','C'], ⟨['X','C','S','C'], ['U','S'], Operating, Expired⟩),
  (['D','C','S','E'], ⟨['X','C','S','E'], ['D','K'], Segment, Active⟩),
  (['X','C','S','E'], ⟨['X','C','S','E'], ['D','K'], Operating, Active⟩),
  (['M','N','D','K'], ⟨['X','C','S','E'], ['D','K'], Segment, Active⟩),
  (['F','N','D','K'], ⟨['X','C','S','E'], ['D','K'], Segment, Active⟩),
  (['D','N','D','K'], ⟨['X','C','S','E'], ['D','K'], Segment, Active⟩),
  (['M','C','S','E'], ⟨['X','C','S','E'], ['D','K'], Segment, Active⟩),
  (['X','F','N','D'], ⟨['X','C','S','E'], ['D','K'], Segment, Expired⟩),
  (['X','C','S','X'], ⟨['X','C','S','X'], ['K','H'], Operating, Active⟩),
  (['X','C','U','E'], ⟨['X','C','U','E'], ['U','Z'], Operating, Active⟩),
  (['X','C','U','R'], ⟨['X','C','U','R'], ['U','S'], Operating, Active⟩),
  (['X','C','X','D'], ⟨['X','C','X','D'], ['C','A'], Operating, Active⟩),
  (['X','C','Y','O'], ⟨['X','C','Y','S'], ['C','Y'], Segment, Active⟩),
  (['X','C','Y','S'], ⟨['X','C','Y','S'], ['C','Y'], Operating, Active⟩),
  (['X','E','C','M'], ⟨['X','C','Y','S'], ['C','Y'], Segment, Active⟩),
  (['X','D','A','R'], ⟨['X','D','A','R'], ['T','Z'], Operating, Active⟩),
  (['X','D','C','E'], ⟨['X','D','C','E'], ['C','N'], Operating, Active⟩),
  (['X','D','E','S'], ⟨['X','D','E','S'], ['I','N'], Operating, Active⟩),
  (['X','D','F','B'], ⟨['X','D','F','B'], ['U','A'], Operating, Active⟩),
  (['X','D','F','M'], ⟨['X','D','F','M'], ['A','E'], Operating, Active⟩),
  (['X','D','H','A'], ⟨['X','D','H','A'], ['B','D'], Operating, Active⟩),
  (['X','D','P','A'], ⟨['X','D','P','A'], ['E','S'], Operating, Active⟩),
  (['X','D','S','E'], ⟨['X','D','S','E'], ['S','Y'], Operating, Active⟩),
  (['X','D','S','X'], ⟨['X','D','S','X'], ['C','M'], Operating, Active⟩),
  (['X','D','T','B'], ⟨['X','D','T','B'], ['D','E'], Operating, Expired⟩),
  (['D','U','S','A'], ⟨['X','D','U','S'], ['D','E'], Segment, Active⟩),
  (['D','U','S','B'], ⟨['X','D','U','S'], ['D','E'], Segment, Active⟩),
  (['D','U','S','C'], ⟨['X','D','U','S'], ['D','E'], Segment, Active⟩),
  (['D','U','S','D'], ⟨['X','D','U','S'], ['D','E'], Segment, Active⟩),
  (['X','D','U','S'], ⟨['X','D','U','S'], ['D','E'], Operating, Active⟩),
  (['X','Q','T','X'], ⟨['X','D','U','S'], ['D','E'], Segment, Active⟩),
  (['X','D','W','Z'], ⟨['X','D','W','Z'], ['D','E'], Operating, Expired⟩),
  (['X','E','B','I'], ⟨['X','E','B','I'], ['I','E'], Operating, Active⟩),
  (['X','E','C','B'], ⟨['X','E','C','B'], ['D','E'], Operating, Active⟩),
  (['X','E','C','C'], ⟨['X','E','C','C'], ['D','E'], Operating, Active⟩),
  (['X','E','C','S'], ⟨['X','E','C','S'], ['K','N'], Operating, Active⟩),
  (['X','E','L','X'], ⟨['X','E','L','X'], ['U','S'], Operating, Active⟩),
  (['X','E','M','D'], ⟨['X','E','M','D'], ['M','X'], Operating, Active⟩),
  (['X','E','M','S'], ⟨['X','E','M','S'], ['N','L'], Operating, Active⟩),
  (['X','E','T','D'], ⟨['X','E','T','I'], ['D','E'], Segment, Expired⟩),
  (['X','E','T','I'], ⟨['X','E','T','I'], ['D','E'], Operating, Expired⟩),
  (['X','E','T','C'], ⟨['X','E','T','I'], ['D','E'], Segment, Expired⟩),
  (['X','E','T','R'], ⟨['X','E','T','R'], ['D','E'], Operating, Active⟩),
  (['X','E','T','B'], ⟨['X','E','T','R'], ['D','E'], Segment, Active⟩),
  (['X','E','T','A'], ⟨['X','E','T','R'], ['D','E'], Segment, Active⟩),
  (['X','E','R','T'], ⟨['X','E','U','P'], ['D','E'], Segment, Active⟩),
  (['X','E','R','E'], ⟨['X','E','U','P'], ['D','E'], Segment, Active⟩),
  (['X','E','U','M'], ⟨['X','E','U','P'], ['D','E'], Segment, Active⟩),
  (['X','E','U','P'], ⟨['X','E','U','P'], ['D','E'], Operating, Active⟩),
  (['X','E','U','R'], ⟨['X','E','U','R'], ['D','E'], Operating, Active⟩),
  (['X','F','C','M'], ⟨['X','F','C','M'], ['E','S'], Operating, Expired⟩),
  (['X','F','F','E'], ⟨['X','F','F','E'], ['J','P'], Operating, Expired⟩),
  (['X','F','K','A'], ⟨['X','F','K','A'], ['J','P'], Operating, Active⟩),
  (['X','F','M','N'], ⟨['X','F','M','N'], ['F','R'], Operating, Expired⟩),
  (['X','F','O','M'], ⟨['X','F','O','M'], ['F','I'], Operating, Expired⟩),
  (['X','D','B','C'], ⟨['X','F','R','A'], ['D','E'], Segment, Expired⟩),
  (['X','F','R','A'], ⟨['X','F','R','A'], ['D','E'], Operating, Active⟩),
  (['X','D','B','V'], ⟨['X','F','R','A'], ['D','E'], Segment, Expired⟩),
  (['F','R','A','A'], ⟨['X','F','R','A'], ['D','E'], Segment, Active⟩),
  (['F','R','A','D'], ⟨['X','F','R','A'], ['D','E'], Segment, Expired⟩),
  (['F','R','A','B'], ⟨['X','F','R','A'], ['D','E'], Segment, Active⟩),
  (['X','D','B','X'], ⟨['X','F','R','A'], ['D','E'], Segment, Expired⟩),
  (['X','N','E','W'], ⟨['X','F','R','A'], ['D','E'], Segment, Expired⟩),
  (['X','F','T','A'], ⟨['X','F','T','A'], ['N','L'], Operating, Expired⟩),
  (['X','G','A','S'], ⟨['X','G','A','S'], ['H','U'], Operating, Active⟩),
  (['X','G','C','L'], ⟨['X','G','C','L'], ['G','B'], Operating, Active⟩),
  (['X','G','H','A'], ⟨['X','G','H','A'], ['G','H'], Operating, Active⟩),
  (['X','G','M','E'], ⟨['X','G','M','E'], ['I','T'], Operating, Active⟩),
  (['X','G','M','X'], ⟨['X','G','M','X'], ['U','S'], Operating, Active⟩),
  (['X','G','S','E'], ⟨['X','G','S','E'], ['G','E'], Operating, Active⟩),
  (['X','G','T','G'], ⟨['X','G','T','G'], ['G','T'], Operating, Active⟩),
  (['X','G','U','A'], ⟨['X','G','U','A'], ['E','C'], Operating, Active⟩),
  (['H','A','M','A'], ⟨['X','H','A','M'], ['D','E'], Segment, Active⟩),
  (['H','A','M','B'], ⟨['X','H','A','M'], ['D','E'], Segment, Active⟩),
  (['X','H','A','M'], ⟨['X','H','A','M'], ['D','E'], Operating, Active⟩),
  (['H','A','M','M'], ⟨['X','H','A','M'], ['D','E'], Segment, Active⟩),
  (['H','A','M','L'], ⟨['X','H','A','M'], ['D','E'], Segment, Expired⟩),
  (['H','A','M','N'], ⟨['X','H','A','M'], ['D','E'], Segment, Active⟩)]

theorem mics20_eq : mics20 = micChars20.map MicChars.entry := (rfl)

/-- iso_10383.rs 2196-2295. -/
def mics21 : List (String × Mic) := [
  ("HANB", ⟨"XHAN", "DE", Segment, Active⟩),
  ("HANA", ⟨"XHAN", "DE", Segment, Active⟩),
  ("XHAN", ⟨"XHAN", "DE", Operating, Active⟩),
  ("MNFI", ⟨"XHEL", "FI", Segment, Active⟩),
  ("FNFI", ⟨"XHEL", "FI", Segment, Active⟩),
  ("DNFI", ⟨"XHEL", "FI", Segment, Active⟩),
  ("XHEL", ⟨"XHEL", "FI", Operating, Active⟩),
  ("DHEL", ⟨"XHEL", "FI", Segment, Active⟩),
  ("MHEL", ⟨"XHEL", "FI", Segment, Active⟩),
  ("XHIR", ⟨"XHIR", "JP", Operating, Expired⟩),
  ("XHKF", ⟨"XHKF", "HK", Operating, Active⟩),
  ("XHKG", ⟨"XHKG", "HK", Operating, Active⟩),
  ("SHSC", ⟨"XHKG", "HK", Segment, Active⟩),
  ("SZSC", ⟨"XHKG", "HK", Segment, Active⟩),
  ("XGEM", ⟨"XHKG", "HK", Segment, Active⟩),
  ("XIAB", ⟨"XIAB", "TR", Operating, Expired⟩),
  ("XIBE", ⟨"XIBE", "AZ", Operating, Active⟩),
  ("FNIS", ⟨"XICE", "IS", Segment, Active⟩),
  ("MICE", ⟨"XICE", "IS", Segment, Active⟩),
  ("XICE", ⟨"XICE", "IS", Operating, Active⟩),
  ("DNIS", ⟨"XICE", "IS", Segment, Active⟩),
  ("ISEC", ⟨"XICE", "IS", Segment, Expired⟩),
  ("DICE", ⟨"XICE", "IS", Segment, Active⟩),
  ("MNIS", ⟨"XICE", "IS", Segment, Active⟩),
  ("XICX", ⟨"XICX", "CA", Operating, Active⟩),
  ("XIDX", ⟨"XIDX", "ID", Operating, Active⟩),
  ("XIHK", ⟨"XIHK", "HK", Operating, Active⟩),
  ("XIMA", ⟨"XIMA", "NO", Operating, Active⟩),
  ("XIMC", ⟨"XIMC", "IN", Operating, Active⟩),
  ("XIME", ⟨"XIME", "TW", Operating, Expired⟩),
  ("ICRO", ⟨"XINS", "US", Segment, Active⟩),
  ("XINS", ⟨"XINS", "US", Operating, Active⟩),
  ("ICBX", ⟨"XINS", "US", Segment, Active⟩),
  ("MOCX", ⟨"XINS", "US", Segment, Active⟩),
  ("XINV", ⟨"XINV", "DE", Operating, Active⟩),
  ("XIPE", ⟨"XIPE", "GB", Operating, Expired⟩),
  ("XIQS", ⟨"XIQS", "IQ", Operating, Active⟩),
  ("XPMS", ⟨"XIST", "TR", Segment, Active⟩),
  ("XFNO", ⟨"XIST", "TR", Segment, Active⟩),
  ("XDSM", ⟨"XIST", "TR", Segment, Active⟩),
  ("XIST", ⟨"XIST", "TR", Operating, Active⟩),
  ("XEQY", ⟨"XIST", "TR", Segment, Active⟩),
  ("XISE", ⟨"XISX", "US", Segment, Active⟩),
  ("GMNI", ⟨"XISX", "US", Segment, Active⟩),
  ("XTPZ", ⟨"XISX", "US", Segment, Expired⟩),
  ("MCRY", ⟨"XISX", "US", Segment, Active⟩),
  ("XISA", ⟨"XISX", "US", Segment, Active⟩),
  ("XISX", ⟨"XISX", "US", Operating, Active⟩),
  ("XJAM", ⟨"XJAM", "JM", Operating, Active⟩),
  ("XJNB", ⟨"XJNB", "ID", Operating, Active⟩),
  ("XTK1", ⟨"XJPX", "JP", Segment, Active⟩),
  ("XJAS", ⟨"XJPX", "JP", Segment, Expired⟩),
  ("XTKS", ⟨"XJPX", "JP", Segment, Active⟩),
  ("XOSE", ⟨"XJPX", "JP", Segment, Active⟩),
  ("XTAM", ⟨"XJPX", "JP", Segment, Active⟩),
  ("XTK3", ⟨"XJPX", "JP", Segment, Active⟩),
  ("XTK2", ⟨"XJPX", "JP", Segment, Active⟩),
  ("XJPX", ⟨"XJPX", "JP", Operating, Active⟩),
  ("XOSJ", ⟨"XJPX", "JP", Segment, Active⟩),
  ("XBES", ⟨"XJSE", "ZA", Segment, Active⟩),
  ("XJSE", ⟨"XJSE", "ZA", Operating, Active⟩),
  ("ALTX", ⟨"XJSE", "ZA", Segment, Active⟩),
  ("XSAF", ⟨"XJSE", "ZA", Segment, Active⟩),
  ("XSFA", ⟨"XJSE", "ZA", Segment, Active⟩),
  ("YLDX", ⟨"XJSE", "ZA", Segment, Active⟩),
  ("XJWY", ⟨"XJWY", "GB", Operating, Expired⟩),
  ("XKAC", ⟨"XKAC", "JP", Operating, Active⟩),
  ("XKAZ", ⟨"XKAZ", "KZ", Operating, Active⟩),
  ("XKCE", ⟨"XKCE", "UZ", Operating, Active⟩),
  ("XKFB", ⟨"XKFB", "KR", Operating, Active⟩),
  ("XKGT", ⟨"XKGT", "JP", Operating, Expired⟩),
  ("XKHA", ⟨"XKHA", "SD", Operating, Active⟩),
  ("XKHR", ⟨"XKHR", "UA", Operating, Active⟩),
  ("XKIE", ⟨"XKIE", "UA", Operating, Active⟩),
  ("XKIS", ⟨"XKIS", "UA", Operating, Active⟩),
  ("XKKT", ⟨"XKKT", "JP", Operating, Expired⟩),
  ("XKLS", ⟨"XKLS", "MY", Operating, Active⟩),
  ("MESQ", ⟨"XKLS", "MY", Segment, Active⟩),
  ("XKOR", ⟨"XKOR", "KR", Operating, Expired⟩),
  ("XKON", ⟨"XKRX", "KR", Segment, Active⟩),
  ("XKRX", ⟨"XKRX", "KR", Operating, Active⟩),
  ("XKFE", ⟨"XKRX", "KR", Segment, Active⟩),
  ("XKOS", ⟨"XKRX", "KR", Segment, Active⟩),
  ("XKCM", ⟨"XKRX", "KR", Segment, Active⟩),
  ("XKEM", ⟨"XKRX", "KR", Segment, Active⟩),
  ("XKSE", ⟨"XKSE", "KG", Operating, Active⟩),
  ("XKST", ⟨"XKST", "JP", Operating, Expired⟩),
  ("XKUW", ⟨"XKUW", "KW", Operating, Active⟩),
  ("XKYO", ⟨"XKYO", "JP", Operating, Expired⟩),
  ("XLAO", ⟨"XLAO", "LA", Operating, Active⟩),
  ("XLBM", ⟨"XLBM", "GB", Operating, Active⟩),
  ("XLCE", ⟨"XLCE", "GB", Operating, Expired⟩),
  ("XLDN", ⟨"XLDN", "GB", Operating, Expired⟩),
  ("XLIF", ⟨"XLDN", "GB", Segment, Expired⟩),
  ("XLFX", ⟨"XLFX", "MY", Operating, Active⟩),
  ("XLIM", ⟨"XLIM", "PE", Operating, Active⟩),
  ("MFOX", ⟨"XLIS", "PT", Segment, Active⟩),
  ("WQXL", ⟨"XLIS", "PT", Segment, Active⟩),
  ("FNLT", ⟨"XLIT", "LT", Segment, Active⟩),
  ("XLIT", ⟨"XLIT", "LT", Operating, Active⟩)]

/-- The same entries with their strings spelt out. -/
def micChars21 : List (List Char × MicChars) := [
  (['H','A','N','B'], ⟨['X','H','A','N'], ['D','E'], Segment, Active⟩),
  (['H','A','N','A'], ⟨['X','H','A','N'], ['D','E'], Segment, Active⟩),
  (['X','H','A','N'], ⟨['X','H','A','N'], ['D','E'], Operating, Active⟩),
  (['M','N','F','I'], ⟨['X','H','E','L'], ['F','I'], Segment, Active⟩),
  (['F','N','F','I'], ⟨['X','H','E','L'], ['F','I'], Segment, Active⟩),
  (['D','N','F','I'], ⟨['X','H','E','L'], ['F','I'], Segment, Active⟩),
  (['X','H','E','L'], ⟨['X','H','E','L'], ['F','I'], Operating, Active⟩),
  (['D','H','E','L'], ⟨['X','H','E','L'], ['F','I'], Segment, Active⟩),
  (['M','H','E','L'], ⟨['X','H','E','L'], ['F','I'], Segment, Active⟩),
  (['X','H','I','R'], ⟨['X','H','I','R'], ['J','P'], Operating, Expired⟩),
  (['X','H','K','F'], ⟨['X','H','K','F'], ['H','K'], Operating, Active⟩),
  (['X','H','K','G'], ⟨['X','H','K','G'], ['H','K'], Operating, Active⟩),
  (['S','H','S','C'], ⟨['X','H','K','G'], ['H','K'], Segment, Active⟩),
  (['S','Z','S','C'], ⟨['X','H','K','G'], ['H','K'], Segment, Active⟩),
  (['X','G','E','M'], ⟨['X','H','K','G'], ['H','K'], Segment, Active⟩),
  (['X','I','A','B'], ⟨['X','I','A','B'], ['T','R'], Operating, Expired⟩),
  (['X','I','B','E'], ⟨['X','I','B','E'], ['A','Z'], Operating, Active⟩),
  (['F','N','I','S'], ⟨['X','I','C','E'], ['I','S'], Segment, Active⟩),
  (['M','I','C','E'], ⟨['X','I','C','E'], ['I','S'], Segment, Active⟩),
  (['X','I','C','E'], ⟨['X','I','C','E'], ['I','S'], Operating, Active⟩),
  (['D','N','I','S'], ⟨['X','I','C','E'], ['I','S'], Segment, Active⟩),
  (['I','S','E','C'], ⟨['X','I','C','E'], ['I','S'], Segment, Expired⟩),
  (['D','I','C','E'], ⟨['X','I','C','E'], ['I','S'], Segment, Active⟩),
  (['M','N','I','S'], ⟨['X','I','C','E'], ['I','S'], Segment, Active⟩),
  (['X','I','C','X'], ⟨['X','I','C','X'], ['C','A'], Operating, Active⟩),
  (['X','I','D','X'], ⟨['X','I','D','X'], ['I','D'], Operating, Active⟩),
  (['X','I','H','K'], ⟨['X','I','H','K'], ['H','K'], Operating, Active⟩),
  (['X','I','M','A'], ⟨['X','I','M','A'], ['N','O'], Operating, Active⟩),
  (['X','I','M','C'], ⟨['X','I','M','C'], ['I','N'], Operating, Active⟩),
  (['X','I','M','E'], ⟨['X','I','M','E'], ['T','W'], Operating, Expired⟩),
  (['I','C','R','O'], ⟨['X','I','N','S'], ['U','S'], Segment, Active⟩),
  (['X','I','N','S'], ⟨['X','I','N','S'], ['U','S'], Operating, Active⟩),
  (['I','C','B','X'], ⟨['X','I','N','S'], ['U','S'], Segment, Active⟩),
  (['M','O','C','X'], ⟨['X','I','N','S'], ['U','S'], Segment, Active⟩),
  (['X','I','N','V'], ⟨['X','I','N','V'], ['D','E'], Operating, Active⟩),
  (['X','I','P','E'], ⟨['X','I','P','E'], ['G','B'], Operating, Expired⟩),
  (['X','I','Q','S'], ⟨['X','I','Q','S'], ['I','Q'], Operating, Active⟩),
  (['X','P','M','S'], ⟨['X','I','S','T'], ['T','R'], Segment, Active⟩),
  (['X','F','N','O'], ⟨['X','I','S','T'], ['T','R'], Segment, Active⟩),
  (['X','D','S','M'], ⟨['X','I','S','T'], ['T','R'], Segment, Active⟩),
  (['X','I','S','T'], ⟨['X','I','S','T'], ['T','R'], Operating, Active⟩),
  (['X','E','Q','Y'], ⟨['X','I','S','T'], ['T','R'], Segment, Active⟩),
  (['X','I','S','E'], ⟨['X','I','S','X'], ['U','S'], Segment, Active⟩),
  (['G','M','N','I'], ⟨['X','I','S','X'], ['U','S'], Segment, Active⟩),
  (['X','T','P','Z'], ⟨['X','I','S','X'], ['U','S'], Segment, Expired⟩),
  (['M','C','R','Y'], ⟨['X','I','S','X'], ['U','S'], Segment, Active⟩),
  (['X','I','S','A'], ⟨['X','I','S','X'], ['U','S'], Segment, Active⟩),
  (['X','I','S','X'], ⟨['X','I','S','X'], ['U','S'], Operating, Active⟩),
  (['X','J','A','M'], ⟨['X','J','A','M'], ['J','M'], Operating, Active⟩),
  (['X','J','N','B'], ⟨['X','J','N','B'], ['I','D'], Operating, Active⟩),
  (['X','T','K','1'], ⟨['X','J','P','X'], ['J','P'], Segment, Active⟩),
  (['X','J','A','S'], ⟨['X','J','P','X'], ['J','P'], Segment, Expired⟩),
  (['X','T','K','S'], ⟨['X','J','P','X'], ['J','P'], Segment, Active⟩),
  (['X','O','S','E'], ⟨['X','J','P','X'], ['J','P'], Segment, Active⟩),
  (['X','T','A','M'], ⟨['X','J','P','X'], ['J','P'], Segment, Active⟩),
  (['X','T','K','3'], ⟨['X','J','P','X'], ['J','P'], Segment, Active⟩),
  (['X','T','K','2'], ⟨['X','J','P','X'], ['J','P'], Segment, Active⟩),
  (['X','J','P','X'], ⟨['X','J','P','X'], ['J','P'], Operating, Active⟩),
  (['X','O','S','J'], ⟨['X','J','P','X'], ['J','P'], Segment, Active⟩),
  (['X','B','E','S'], ⟨['X','J','S','E'], ['Z','A'], Segment, Active⟩),
  (['X','J','S','E'], ⟨['X','J','S','E'], ['Z','A'], Operating, Active⟩),
  (['A','L','T','X'], ⟨['X','J','S','E'], ['Z','A'], Segment, Active⟩),
  (['X','S','A','F'], ⟨['X','J','S','E'], ['Z','A'], Segment, Active⟩),
  (['X','S','F','A'], ⟨['X','J','S','E'], ['Z','A'], Segment, Active⟩),
  (['Y','L','D','X'], ⟨['X','J','S','E'], ['Z','A'], Segment, Active⟩),
  (['X','J','W','Y'], ⟨['X','J','W','Y'], ['G','B'], Operating, Expired⟩),
  (['X','K','A','C'], ⟨['X','K','A','C'], ['J','P'], Operating, Active⟩),
  (['X','K','A','Z'], ⟨['X','K','A','Z'], ['K','Z'], Operating, Active⟩),
  (['X','K','C','E'], ⟨['X','K','C','E'], ['U','Z'], Operating, Active⟩),
  (['X','K','F','B'], ⟨['X','K','F','B'], ['K','R'], Operating, Active⟩),
  (['X','K','G','T'], ⟨['X','K','G','T'], ['J','P'], Operating, Expired⟩),
  (['X','K','H','A'], ⟨['X','K','H','A'], ['S','D'], Operating, Active⟩),
  (['X','K','H','R'], ⟨['X','K','H','R'], ['U','A'], Operating, Active⟩),
  (['X','K','I','E'], ⟨['X','K','I','E'], ['U','A'], Operating, Active⟩),
  (['X','K','I','S'], ⟨['X','K','I','S'], ['U','A'], Operating, Active⟩),
  (['X','K','K','T'], ⟨['X','K','K','T'], ['J','P'], Operating, Expired⟩),
  (['X','K','L','S'], ⟨['X','K','L','S'], ['M','Y'], Operating, Active⟩),
  (['M','E','S','Q'], ⟨['X','K','L','S'], ['M','Y'], Segment, Active⟩),
  (['X','K','O','R'], ⟨['X','K','O','R'], ['K','R'], Operating, Expired⟩),
  (['X','K','O','N'], ⟨['X','K','R','X'], ['K','R'], Segment, Active⟩),
  (['X','K','R','X'], ⟨['X','K','R','X'], ['K','R'], Operating, Active⟩),
  (['X','K','F','E'], ⟨['X','K','R','X'], ['K','R'], Segment, Active⟩),
  (['X','K','O','S'], ⟨['X','K','R','X'], ['K','R'], Segment, Active⟩),
  (['X','K','C','M'], ⟨['X','K','R','X'], ['K','R'], Segment, Active⟩),
  (['X','K','E','M'], ⟨['X','K','R','X'], ['K','R'], Segment, Active⟩),
  (['X','K','S','E'], ⟨['X','K','S','E'], ['K','G'], Operating, Active⟩),
  (['X','K','S','T'], ⟨['X','K','S','T'], ['J','P'], Operating, Expired⟩),
  (['X','K','U','W'], ⟨['X','K','U','W'], ['K','W'], Operating, Active⟩),
  (['X','K','Y','O'], ⟨['X','K','Y','O'], ['J','P'], Operating, Expired⟩),
  (['X','L','A','O'], ⟨['X','L','A','O'], ['L','A'], Operating, Active⟩),
  (['X','L','B','M'], ⟨['X','L','B','M'], ['G','B'], Operating, Active⟩),
  (['X','L','C','E'], ⟨['X','L','C','E'], ['G','B'], Operating, Expired⟩),
  (['X','L','D','N'], ⟨['X','L','D','N'], ['G','B'], Operating, Expired⟩),
  (['X','L','I','F'], ⟨['X','L','D','N'], ['G','B'], Segment, Expired⟩),
  (['X','L','F','X'], ⟨['X','L','F','X'], ['M','Y'], Operating, Active⟩),
  (['X','L','I','M'], ⟨['X','L','I','M'], ['P','E'], Operating, Active⟩),
  (['M','F','O','X'], ⟨['X','L','I','S'], ['P','T'], Segment, Active⟩),
  (['W','Q','X','L'], ⟨['X','L','I','S'], ['P','T'], Segment, Active⟩),
  (['F','N','L','T'], ⟨['X','L','I','T'], ['L','T'], Segment, Active⟩),
  (['X','L','I','T'], ⟨['X','L','I','T'], ['L','T'], Operating, Active⟩)]

theorem mics21_eq : mics21 = micChars21.map MicChars.entry := (rfl)

/-- iso_10383.rs 2296-2395. -/
def mics22 : List (String × Mic) := [
  ("XLJM", ⟨"XLJU", "SI", Segment, Active⟩),
  ("XLJU", ⟨"XLJU", "SI", Operating, Active⟩),
  ("XLME", ⟨"XLME", "GB", Operating, Active⟩),
  ("XLON", ⟨"XLON", "GB", Operating, Active⟩),
  ("XLSM", ⟨"XLSM", "LY", Operating, Active⟩),
  ("XLTO", ⟨"XLTO", "GB", Operating, Expired⟩),
  ("XLUS", ⟨"XLUS", "ZM", Operating, Active⟩),
  ("XLUX", ⟨"XLUX", "LU", Operating, Active⟩),
  ("EMTF", ⟨"XLUX", "LU", Segment, Active⟩),
  ("XMAB", ⟨"XMAB", "AR", Operating, Active⟩),
  ("XMAC", ⟨"XMAC", "US", Operating, Expired⟩),
  ("XMAE", ⟨"XMAE", "MK", Operating, Active⟩),
  ("PROS", ⟨"XMAL", "MT", Segment, Active⟩),
  ("XMAN", ⟨"XMAN", "NI", Operating, Active⟩),
  ("XMAP", ⟨"XMAP", "MZ", Operating, Expired⟩),
  ("XMAU", ⟨"XMAU", "MU", Operating, Active⟩),
  ("XMDG", ⟨"XMDG", "MG", Operating, Active⟩),
  ("XMDS", ⟨"XMDS", "IN", Operating, Active⟩),
  ("XMER", ⟨"XMER", "US", Operating, Active⟩),
  ("XMEX", ⟨"XMEX", "MX", Operating, Active⟩),
  ("XMGE", ⟨"XMGE", "US", Operating, Active⟩),
  ("XMID", ⟨"XMID", "US", Operating, Expired⟩),
  ("XMIF", ⟨"XMIF", "IT", Operating, Expired⟩),
  ("MTAH", ⟨"XMIL", "IT", Segment, Active⟩),
  ("ATFX", ⟨"XMIL", "IT", Segment, Active⟩),
  ("XMIL", ⟨"XMIL", "IT", Operating, Active⟩),
  ("MIVX", ⟨"XMIL", "IT", Segment, Active⟩),
  ("XAIM", ⟨"XMIL", "IT", Segment, Expired⟩),
  ("XDMI", ⟨"XMIL", "IT", Segment, Active⟩),
  ("MACX", ⟨"XMIL", "IT", Segment, Expired⟩),
  ("MTAA", ⟨"XMIL", "IT", Segment, Active⟩),
  ("XMLX", ⟨"XMLX", "GB", Operating, Expired⟩),
  ("XMNT", ⟨"XMNT", "UY", Operating, Active⟩),
  ("XMNX", ⟨"XMNX", "ME", Operating, Active⟩),
  ("XMOC", ⟨"XMOC", "CA", Operating, Active⟩),
  ("XMOD", ⟨"XMOD", "CA", Operating, Active⟩),
  ("XMOL", ⟨"XMOL", "MD", Operating, Active⟩),
  ("XMOO", ⟨"XMOO", "CA", Operating, Expired⟩),
  ("XMSW", ⟨"XMSW", "MW", Operating, Active⟩),
  ("XMTB", ⟨"XMTB", "AR", Operating, Active⟩),
  ("CMTS", ⟨"XMTS", "GB", Segment, Expired⟩),
  ("TMTS", ⟨"XMTS", "GB", Segment, Expired⟩),
  ("LMTS", ⟨"XMTS", "GB", Segment, Expired⟩),
  ("EACM", ⟨"XMTS", "GB", Segment, Expired⟩),
  ("BVUK", ⟨"XMTS", "GB", Segment, Active⟩),
  ("XMTS", ⟨"XMTS", "GB", Operating, Active⟩),
  ("NMTS", ⟨"XMTS", "GB", Segment, Expired⟩),
  ("PLUS", ⟨"XMUN", "DE", Segment, Expired⟩),
  ("XMUS", ⟨"XMUS", "OM", Operating, Active⟩),
  ("XNAF", ⟨"XNAF", "ES", Operating, Active⟩),
  ("XNAI", ⟨"XNAI", "KE", Operating, Active⟩),
  ("XNAM", ⟨"XNAM", "NA", Operating, Active⟩),
  ("NASD", ⟨"XNAS", "US", Segment, Active⟩),
  ("XNMS", ⟨"XNAS", "US", Segment, Active⟩),
  ("XNAS", ⟨"XNAS", "US", Operating, Active⟩),
  ("XNDQ", ⟨"XNAS", "US", Segment, Active⟩),
  ("XNGS", ⟨"XNAS", "US", Segment, Active⟩),
  ("XNCM", ⟨"XNAS", "US", Segment, Active⟩),
  ("XNIM", ⟨"XNAS", "US", Segment, Active⟩),
  ("XBOS", ⟨"XNAS", "US", Segment, Active⟩),
  ("BOSD", ⟨"XNAS", "US", Segment, Active⟩),
  ("XBXO", ⟨"XNAS", "US", Segment, Active⟩),
  ("XPOR", ⟨"XNAS", "US", Segment, Active⟩),
  ("XPSX", ⟨"XNAS", "US", Segment, Active⟩),
  ("XBRT", ⟨"XNAS", "US", Segment, Active⟩),
  ("PSXD", ⟨"XNAS", "US", Segment, Active⟩),
  ("XPBT", ⟨"XNAS", "US", Segment, Active⟩),
  ("XPHO", ⟨"XNAS", "US", Segment, Active⟩),
  ("XPHL", ⟨"XNAS", "US", Segment, Active⟩),
  ("XNCD", ⟨"XNCD", "IN", Operating, Active⟩),
  ("XNEC", ⟨"XNEC", "AU", Operating, Active⟩),
  ("XNEE", ⟨"XNEE", "NZ", Operating, Expired⟩),
  ("XNEP", ⟨"XNEP", "NP", Operating, Active⟩),
  ("XNGM", ⟨"XNGM", "SE", Operating, Active⟩),
  ("NMTF", ⟨"XNGM", "SE", Segment, Active⟩),
  ("XNGO", ⟨"XNGO", "JP", Operating, Active⟩),
  ("XNII", ⟨"XNII", "JP", Operating, Expired⟩),
  ("XNKS", ⟨"XNKS", "JP", Operating, Active⟩),
  ("XNQL", ⟨"XNQL", "US", Operating, Expired⟩),
  ("XNSA", ⟨"XNSA", "NG", Operating, Active⟩),
  ("INSE", ⟨"XNSE", "IN", Segment, Active⟩),
  ("XNSE", ⟨"XNSE", "IN", Operating, Active⟩),
  ("XNST", ⟨"XNST", "JP", Operating, Expired⟩),
  ("XNYC", ⟨"XNYC", "US", Operating, Expired⟩),
  ("XNYM", ⟨"XNYM", "US", Operating, Active⟩),
  ("XCEC", ⟨"XNYM", "US", Segment, Active⟩),
  ("XNYE", ⟨"XNYM", "US", Segment, Active⟩),
  ("XNYL", ⟨"XNYM", "US", Segment, Active⟩),
  ("ALDP", ⟨"XNYS", "US", Segment, Active⟩),
  ("ARCX", ⟨"XNYS", "US", Segment, Active⟩),
  ("XNYS", ⟨"XNYS", "US", Operating, Active⟩),
  ("XASE", ⟨"XNYS", "US", Segment, Active⟩),
  ("XNLI", ⟨"XNYS", "US", Segment, Active⟩),
  ("NYSD", ⟨"XNYS", "US", Segment, Active⟩),
  ("AMXO", ⟨"XNYS", "US", Segment, Active⟩),
  ("ARCD", ⟨"XNYS", "US", Segment, Active⟩),
  ("ARCO", ⟨"XNYS", "US", Segment, Active⟩),
  ("XNZE", ⟨"XNZE", "NZ", Operating, Active⟩),
  ("XODE", ⟨"XODE", "UA", Operating, Active⟩),
  ("XOFF", ⟨"XOFF", "ZZ", Operating, Active⟩)]

/-- The same entries with their strings spelt out. -/
def micChars22 : List (List Char × MicChars) := [
  (['X','L','J','M'], ⟨['X','L','J','U'], ['S','I'], Segment, Active⟩),
  (['X','L','J','U'], ⟨['X','L','J','U'], ['S','I'], Operating, Active⟩),
  (['X','L','M','E'], ⟨['X','L','M','E'], ['G','B'], Operating, Active⟩),
  (['X','L','O','N'], ⟨['X','L','O','N'], ['G','B'], Operating, Active⟩),
  (['X','L','S','M'], ⟨['X','L','S','M'], ['L','Y'], Operating, Active⟩),
  (['X','L','T','O'], ⟨['X','L','T','O'], ['G','B'], Operating, Expired⟩),
  (['X','L','U','S'], ⟨['X','L','U','S'], ['Z','M'], Operating, Active⟩),
  (['X','L','U','X'], ⟨['X','L','U','X'], ['L','U'], Operating, Active⟩),
  (['E','M','T','F'], ⟨['X','L','U','X'], ['L','U'], Segment, Active⟩),
  (['X','M','A','B'], ⟨['X','M','A','B'], ['A','R'], Operating, Active⟩),
  (['X','M','A','C'], ⟨['X','M','A','C'], ['U','S'], Operating, Expired⟩),
  (['X','M','A','E'], ⟨['X','M','A','E'], ['M','K'], Operating, Active⟩),
  (['P','R','O','S'], ⟨['X','M','A','L'], ['M','T'], Segment, Active⟩),
  (['X','M','A','N'], ⟨['X','M','A','N'], ['N','I'], Operating, Active⟩),
  (['X','M','A','P'], ⟨['X','M','A','P'], ['M','Z'], Operating, Expired⟩),
  (['X','M','A','U'], ⟨['X','M','A','U'], ['M','U'], Operating, Active⟩),
  (['X','M','D','G'], ⟨['X','M','D','G'], ['M','G'], Operating, Active⟩),
  (['X','M','D','S'], ⟨['X','M','D','S'], ['I','N'], Operating, Active⟩),
  (['X','M','E','R'], ⟨['X','M','E','R'], ['U','S'], Operating, Active⟩),
  (['X','M','E','X'], ⟨['X','M','E','X'], ['M','X'], Operating, Active⟩),
  (['X','M','G','E'], ⟨['X','M','G','E'], ['U','S'], Operating, Active⟩),
  (['X','M','I','D'], ⟨['X','M','I','D'], ['U','S'], Operating, Expired⟩),
  (['X','M','I','F'], ⟨['X','M','I','F'], ['I','T'], Operating, Expired⟩),
  (['M','T','A','H'], ⟨['X','M','I','L'], ['I','T'], Segment, Active⟩),
  (['A','T','F','X'], ⟨['X','M','I','L'], ['I','T'], Segment, Active⟩),
  (['X','M','I','L'], ⟨['X','M','I','L'], ['I','T'], Operating, Active⟩),
  (['M','I','V','X'], ⟨['X','M','I','L'], ['I','T'], Segment, Active⟩),
  (['X','A','I','M'], ⟨['X','M','I','L'], ['I','T'], Segment, Expired⟩),
  (['X','D','M','I'], ⟨['X','M','I','L'], ['I','T'], Segment, Active⟩),
  (['M','A','C','X'], ⟨['X','M','I','L'], ['I','T'], Segment, Expired⟩),
  (['M','T','A','A'], ⟨['X','M','I','L'], ['I','T'], Segment, Active⟩),
  (['X','M','L','X'], ⟨['X','M','L','X'], ['G','B'], Operating, Expired⟩),
  (['X','M','N','T'], ⟨['X','M','N','T'], ['U','Y'], Operating, Active⟩),
  (['X','M','N','X'], ⟨['X','M','N','X'], ['M','E'], Operating, Active⟩),
  (['X','M','O','C'], ⟨['X','M','O','C'], ['C','A'], Operating, Active⟩),
  (['X','M','O','D'], ⟨['X','M','O','D'], ['C','A'], Operating, Active⟩),
  (['X','M','O','L'], ⟨['X','M','O','L'], ['M','D'], Operating, Active⟩),
  (['X','M','O','O'], ⟨['X','M','O','O'], ['C','A'], Operating, Expired⟩),
  (['X','M','S','W'], ⟨['X','M','S','W'], ['M','W'], Operating, Active⟩),
  (['X','M','T','B'], ⟨['X','M','T','B'], ['A','R'], Operating, Active⟩),
  (['C','M','T','S'], ⟨['X','M','T','S'], ['G','B'], Segment, Expired⟩),
  (['T','M','T','S'], ⟨['X','M','T','S'], ['G','B'], Segment, Expired⟩),
  (['L','M','T','S'], ⟨['X','M','T','S'], ['G','B'], Segment, Expired⟩),
  (['E','A','C','M'], ⟨['X','M','T','S'], ['G','B'], Segment, Expired⟩),
  (['B','V','U','K'], ⟨['X','M','T','S'], ['G','B'], Segment, Active⟩),
  (['X','M','T','S'], ⟨['X','M','T','S'], ['G','B'], Operating, Active⟩),
  (['N','M','T','S'], ⟨['X','M','T','S'], ['G','B'], Segment, Expired⟩),
  (['P','L','U','S'], ⟨['X','M','U','N'], ['D','E'], Segment, Expired⟩),
  (['X','M','U','S'], ⟨['X','M','U','S'], ['O','M'], Operating, Active⟩),
  (['X','N','A','F'], ⟨['X','N','A','F'], ['E','S'], Operating, Active⟩),
  (['X','N','A','I'], ⟨['X','N','A','I'], ['K','E'], Operating, Active⟩),
  (['X','N','A','M'], ⟨['X','N','A','M'], ['N','A'], Operating, Active⟩),
  (['N','A','S','D'], ⟨['X','N','A','S'], ['U','S'], Segment, Active⟩),
  (['X','N','M','S'], ⟨['X','N','A','S'], ['U','S'], Segment, Active⟩),
  (['X','N','A','S'], ⟨['X','N','A','S'], ['U','S'], Operating, Active⟩),
  (['X','N','D','Q'], ⟨['X','N','A','S'], ['U','S'], Segment, Active⟩),
  (['X','N','G','S'], ⟨['X','N','A','S'], ['U','S'], Segment, Active⟩),
  (['X','N','C','M'], ⟨['X','N','A','S'], ['U','S'], Segment, Active⟩),
  (['X','N','I','M'], ⟨['X','N','A','S'], ['U','S'], Segment, Active⟩),
  (['X','B','O','S'], ⟨['X','N','A','S'], ['U','S'], Segment, Active⟩),
  (['B','O','S','D'], ⟨['X','N','A','S'], ['U','S'], Segment, Active⟩),
  (['X','B','X','O'], ⟨['X','N','A','S'], ['U','S'], Segment, Active⟩),
  (['X','P','O','R'], ⟨['X','N','A','S'], ['U','S'], Segment, Active⟩),
  (['X','P','S','X'], ⟨['X','N','A','S'], ['U','S'], Segment, Active⟩),
  (['X','B','R','T'], ⟨['X','N','A','S'], ['U','S'], Segment, Active⟩),
  (['P','S','X','D'], ⟨['X','N','A','S'], ['U','S'], Segment, Active⟩),
  (['X','P','B','T'], ⟨['X','N','A','S'], ['U','S'], Segment, Active⟩),
  (['X','P','H','O'], ⟨['X','N','A','S'], ['U','S'], Segment, Active⟩),
  (['X','P','H','L'], ⟨['X','N','A','S'], ['U','S'], Segment, Active⟩),
  (['X','N','C','D'], ⟨['X','N','C','D'], ['I','N'], Operating, Active⟩),
  (['X','N','E','C'], ⟨['X','N','E','C'], ['A','U'], Operating, Active⟩),
  (['X','N','E','E'], ⟨['X','N','E','E'], ['N','Z'], Operating, Expired⟩),
  (['X','N','E','P'], ⟨['X','N','E','P'], ['N','P'], Operating, Active⟩),
  (['X','N','G','M'], ⟨['X','N','G','M'], ['S','E'], Operating, Active⟩),
  (['N','M','T','F'], ⟨['X','N','G','M'], ['S','E'], Segment, Active⟩),
  (['X','N','G','O'], ⟨['X','N','G','O'], ['J','P'], Operating, Active⟩),
  (['X','N','I','I'], ⟨['X','N','I','I'], ['J','P'], Operating, Expired⟩),
  (['X','N','K','S'], ⟨['X','N','K','S'], ['J','P'], Operating, Active⟩),
  (['X','N','Q','L'], ⟨['X','N','Q','L'], ['U','S'], Operating, Expired⟩),
  (['X','N','S','A'], ⟨['X','N','S','A'], ['N','G'], Operating, Active⟩),
  (['I','N','S','E'], ⟨['X','N','S','E'], ['I','N'], Segment, Active⟩),
  (['X','N','S','E'], ⟨['X','N','S','E'], ['I','N'], Operating, Active⟩),
  (['X','N','S','T'], ⟨['X','N','S','T'], ['J','P'], Operating, Expired⟩),
  (['X','N','Y','C'], ⟨['X','N','Y','C'], ['U','S'], Operating, Expired⟩),
  (['X','N','Y','M'], ⟨['X','N','Y','M'], ['U','S'], Operating, Active⟩),
  (['X','C','E','C'], ⟨['X','N','Y','M'], ['U','S'], Segment, Active⟩),
  (['X','N','Y','E'], ⟨['X','N','Y','M'], ['U','S'], Segment, Active⟩),
  (['X','N','Y','L'], ⟨['X','N','Y','M'], ['U','S'], Segment, Active⟩),
  (['A','L','D','P'], ⟨['X','N','Y','S'], ['U','S'], Segment, Active⟩),
  (['A','R','C','X'], ⟨['X','N','Y','S'], ['U','S'], Segment, Active⟩),
  (['X','N','Y','S'], ⟨['X','N','Y','S'], ['U','S'], Operating, Active⟩),
  (['X','A','S','E'], ⟨['X','N','Y','S'], ['U','S'], Segment, Active⟩),
  (['X','N','L','I'], ⟨['X','N','Y','S'], ['U','S'], Segment, Active⟩),
  (['N','Y','S','D'], ⟨['X','N','Y','S'], ['U','S'], Segment, Active⟩),
  (['A','M','X','O'], ⟨['X','N','Y','S'], ['U','S'], Segment, Active⟩),
  (['A','R','C','D'], ⟨['X','N','Y','S'], ['U','S'], Segment, Active⟩),
  (['A','R','C','O'], ⟨['X','N','Y','S'], ['U','S'], Segment, Active⟩),
  (['X','N','Z','E'], ⟨['X','N','Z','E'], ['N','Z'], Operating, Active⟩),
  (['X','O','D','E'], ⟨['X','O','D','E'], ['U','A'], Operating, Active⟩),
  (['X','O','F','F'], ⟨['X','O','F','F'], ['Z','Z'], Operating, Active⟩)]

theorem mics22_eq : mics22 = micChars22.map MicChars.entry := (rfl)

/-- iso_10383.rs 2396-2495. -/
def mics23 : List (String × Mic) := [
  ("XOME", ⟨"XOME", "SE", Operating, Expired⟩),
  ("BURG", ⟨"XOSL", "NO", Segment, Expired⟩),
  ("MERD", ⟨"XOSL", "NO", Segment, Active⟩),
  ("XOAM", ⟨"XOSL", "NO", Segment, Active⟩),
  ("BURM", ⟨"XOSL", "NO", Segment, Expired⟩),
  ("XOSC", ⟨"XOSL", "NO", Segment, Active⟩),
  ("XOAD", ⟨"XOSL", "NO", Segment, Active⟩),
  ("XOSD", ⟨"XOSL", "NO", Segment, Active⟩),
  ("NIBR", ⟨"XOSL", "NO", Segment, Active⟩),
  ("XOSM", ⟨"XOSM", "JP", Operating, Expired⟩),
  ("XOST", ⟨"XOST", "JP", Operating, Expired⟩),
  ("XOTB", ⟨"XOTB", "AT", Operating, Expired⟩),
  ("XOTC", ⟨"XOTC", "US", Operating, Expired⟩),
  ("XPAE", ⟨"XPAE", "PS", Operating, Active⟩),
  ("XSPM", ⟨"XPAR", "FR", Segment, Active⟩),
  ("MTCH", ⟨"XPAR", "FR", Segment, Active⟩),
  ("XPAR", ⟨"XPAR", "FR", Operating, Active⟩),
  ("XMAT", ⟨"XPAR", "FR", Segment, Active⟩),
  ("XMON", ⟨"XPAR", "FR", Segment, Active⟩),
  ("XPHS", ⟨"XPHS", "PH", Operating, Active⟩),
  ("XPIC", ⟨"XPIC", "RU", Operating, Active⟩),
  ("XPOW", ⟨"XPOW", "FR", Operating, Active⟩),
  ("XPRA", ⟨"XPRA", "CZ", Operating, Active⟩),
  ("XPRM", ⟨"XPRA", "CZ", Segment, Active⟩),
  ("STRT", ⟨"XPRA", "CZ", Segment, Expired⟩),
  ("SPAD", ⟨"XPRA", "CZ", Segment, Expired⟩),
  ("XPRI", ⟨"XPRI", "UA", Operating, Active⟩),
  ("XPSE", ⟨"XPSE", "US", Operating, Expired⟩),
  ("XPST", ⟨"XPST", "HK", Operating, Active⟩),
  ("XPTY", ⟨"XPTY", "PA", Operating, Active⟩),
  ("XPXE", ⟨"XPXE", "CZ", Operating, Active⟩),
  ("XQUI", ⟨"XQUI", "EC", Operating, Active⟩),
  ("XRBM", ⟨"XRBM", "MY", Operating, Active⟩),
  ("XRIO", ⟨"XRIO", "BR", Operating, Expired⟩),
  ("XRIS", ⟨"XRIS", "LV", Operating, Active⟩),
  ("FNLV", ⟨"XRIS", "LV", Segment, Active⟩),
  ("XRMZ", ⟨"XRMZ", "CZ", Operating, Active⟩),
  ("XROS", ⟨"XROS", "AR", Operating, Active⟩),
  ("XROX", ⟨"XROS", "AR", Segment, Active⟩),
  ("XTUC", ⟨"XROS", "AR", Segment, Active⟩),
  ("XRPM", ⟨"XRPM", "RO", Operating, Active⟩),
  ("XRUS", ⟨"XRUS", "RU", Operating, Active⟩),
  ("XSAM", ⟨"XSAM", "RU", Operating, Active⟩),
  ("XSAP", ⟨"XSAP", "JP", Operating, Active⟩),
  ("XSAU", ⟨"XSAU", "SA", Operating, Active⟩),
  ("XSC2", ⟨"XSCO", "DE", Segment, Active⟩),
  ("XSC3", ⟨"XSCO", "DE", Segment, Active⟩),
  ("XSC1", ⟨"XSCO", "DE", Segment, Active⟩),
  ("XSCO", ⟨"XSCO", "DE", Operating, Active⟩),
  ("XSEF", ⟨"XSEF", "US", Operating, Expired⟩),
  ("XSCL", ⟨"XSES", "SG", Segment, Expired⟩),
  ("XSES", ⟨"XSES", "SG", Operating, Active⟩),
  ("XSIM", ⟨"XSES", "SG", Segment, Active⟩),
  ("XSCE", ⟨"XSES", "SG", Segment, Active⟩),
  ("XINE", ⟨"XSGE", "CN", Segment, Active⟩),
  ("XSGE", ⟨"XSGE", "CN", Operating, Active⟩),
  ("XSGO", ⟨"XSGO", "CL", Operating, Active⟩),
  ("XSEC", ⟨"XSHE", "CN", Segment, Active⟩),
  ("XSHE", ⟨"XSHE", "CN", Operating, Active⟩),
  ("XSSC", ⟨"XSHG", "CN", Segment, Active⟩),
  ("XSHG", ⟨"XSHG", "CN", Operating, Active⟩),
  ("XSIB", ⟨"XSIB", "RU", Operating, Active⟩),
  ("XSME", ⟨"XSME", "CN", Operating, Expired⟩),
  ("XSOM", ⟨"XSOM", "BR", Operating, Expired⟩),
  ("XSOP", ⟨"XSOP", "SI", Operating, Active⟩),
  ("XSPS", ⟨"XSPS", "FJ", Operating, Active⟩),
  ("XSRM", ⟨"XSRM", "ES", Operating, Expired⟩),
  ("XSSE", ⟨"XSSE", "BA", Operating, Active⟩),
  ("XSTC", ⟨"XSTC", "VN", Operating, Active⟩),
  ("XSTE", ⟨"XSTE", "UZ", Operating, Active⟩),
  ("DNSE", ⟨"XSTO", "SE", Segment, Active⟩),
  ("FNSE", ⟨"XSTO", "SE", Segment, Active⟩),
  ("CSTO", ⟨"XSTO", "SE", Segment, Active⟩),
  ("MNSE", ⟨"XSTO", "SE", Segment, Active⟩),
  ("MSTO", ⟨"XSTO", "SE", Segment, Active⟩),
  ("XSTO", ⟨"XSTO", "SE", Operating, Active⟩),
  ("DSTO", ⟨"XSTO", "SE", Segment, Active⟩),
  ("STUB", ⟨"XSTU", "DE", Segment, Active⟩),
  ("STUA", ⟨"XSTU", "DE", Segment, Active⟩),
  ("XSTU", ⟨"XSTU", "DE", Operating, Active⟩),
  ("EUWX", ⟨"XSTU", "DE", Segment, Active⟩),
  ("XSVA", ⟨"XSVA", "SV", Operating, Active⟩),
  ("XSWA", ⟨"XSWA", "SZ", Operating, Active⟩),
  ("XSWB", ⟨"XSWB", "GB", Operating, Active⟩),
  ("XSWO", ⟨"XSWO", "CH", Operating, Expired⟩),
  ("XTAD", ⟨"XTAD", "TW", Operating, Expired⟩),
  ("XTAE", ⟨"XTAE", "IL", Operating, Active⟩),
  ("XTAF", ⟨"XTAF", "TW", Operating, Active⟩),
  ("XTAI", ⟨"XTAI", "TW", Operating, Active⟩),
  ("XTAL", ⟨"XTAL", "EE", Operating, Active⟩),
  ("FNEE", ⟨"XTAL", "EE", Segment, Active⟩),
  ("XTEH", ⟨"XTEH", "IR", Operating, Active⟩),
  ("XTFE", ⟨"XTFE", "CA", Operating, Expired⟩),
  ("XTFF", ⟨"XTFF", "JP", Operating, Active⟩),
  ("XTFN", ⟨"XTFN", "GB", Operating, Expired⟩),
  ("XTIR", ⟨"XTIR", "AL", Operating, Active⟩),
  ("XTKA", ⟨"XTKA", "JP", Operating, Expired⟩),
  ("XTKO", ⟨"XTKO", "JP", Operating, Expired⟩),
  ("XTKT", ⟨"XTKT", "JP", Operating, Active⟩),
  ("XTOE", ⟨"XTOE", "CA", Operating, Expired⟩)]

/-- The same entries with their strings spelt out. -/
def micChars23 : List (List Char × MicChars) := [
  (['X','O','M','E'], ⟨['X','O','M','E'], ['S','E'], Operating, Expired⟩),
  (['B','U','R','G'], ⟨['X','O','S','L'], ['N','O'], Segment, Expired⟩),
  (['M','E','R','D'], ⟨['X','O','S','L'], ['N','O'], Segment, Active⟩),
  (['X','O','A','M'], ⟨['X','O','S','L'], ['N','O'], Segment, Active⟩),
  (['B','U','R','M'], ⟨['X','O','S','L'], ['N','O'], Segment, Expired⟩),
  (['X','O','S','C'], ⟨['X','O','S','L'], ['N','O'], Segment, Active⟩),
  (['X','O','A','D'], ⟨['X','O','S','L'], ['N','O'], Segment, Active⟩),
  (['X','O','S','D'], ⟨['X','O','S','L'], ['N','O'], Segment, Active⟩),
  (['N','I','B','R'], ⟨['X','O','S','L'], ['N','O'], Segment, Active⟩),
  (['X','O','S','M'], ⟨['X','O','S','M'], ['J','P'], Operating, Expired⟩),
  (['X','O','S','T'], ⟨['X','O','S','T'], ['J','P'], Operating, Expired⟩),
  (['X','O','T','B'], ⟨['X','O','T','B'], ['A','T'], Operating, Expired⟩),
  (['X','O','T','C'], ⟨['X','O','T','C'], ['U','S'], Operating, Expired⟩),
  (['X','P','A','E'], ⟨['X','P','A','E'], ['P','S'], Operating, Active⟩),
  (['X','S','P','M'], ⟨['X','P','A','R'], ['F','R'], Segment, Active⟩),
  (['M','T','C','H'], ⟨['X','P','A','R'], ['F','R'], Segment, Active⟩),
  (['X','P','A','R'], ⟨['X','P','A','R'], ['F','R'], Operating, Active⟩),
  (['X','M','A','T'], ⟨['X','P','A','R'], ['F','R'], Segment, Active⟩),
  (['X','M','O','N'], ⟨['X','P','A','R'], ['F','R'], Segment, Active⟩),
  (['X','P','H','S'], ⟨['X','P','H','S'], ['P','H'], Operating, Active⟩),
  (['X','P','I','C'], ⟨['X','P','I','C'], ['R','U'], Operating, Active⟩),
  (['X','P','O','W'], ⟨['X','P','O','W'], ['F','R'], Operating, Active⟩),
  (['X','P','R','A'], ⟨['X','P','R','A'], ['C','Z'], Operating, Active⟩),
  (['X','P','R','M'], ⟨['X','P','R','A'], ['C','Z'], Segment, Active⟩),
  (['S','T','R','T'], ⟨['X','P','R','A'], ['C','Z'], Segment, Expired⟩),
  (['S','P','A','D'], ⟨['X','P','R','A'], ['C','Z'], Segment, Expired⟩),
  (['X','P','R','I'], ⟨['X','P','R','I'], ['U','A'], Operating, Active⟩),
  (['X','P','S','E'], ⟨['X','P','S','E'], ['U','S'], Operating, Expired⟩),
  (['X','P','S','T'], ⟨['X','P','S','T'], ['H','K'], Operating, Active⟩),
  (['X','P','T','Y'], ⟨['X','P','T','Y'], ['P','A'], Operating, Active⟩),
  (['X','P','X','E'], ⟨['X','P','X','E'], ['C','Z'], Operating, Active⟩),
  (['X','Q','U','I'], ⟨['X','Q','U','I'], ['E','C'], Operating, Active⟩),
  (['X','R','B','M'], ⟨['X','R','B','M'], ['M','Y'], Operating, Active⟩),
  (['X','R','I','O'], ⟨['X','R','I','O'], ['B','R'], Operating, Expired⟩),
  (['X','R','I','S'], ⟨['X','R','I','S'], ['L','V'], Operating, Active⟩),
  (['F','N','L','V'], ⟨['X','R','I','S'], ['L','V'], Segment, Active⟩),
  (['X','R','M','Z'], ⟨['X','R','M','Z'], ['C','Z'], Operating, Active⟩),
  (['X','R','O','S'], ⟨['X','R','O','S'], ['A','R'], Operating, Active⟩),
  (['X','R','O','X'], ⟨['X','R','O','S'], ['A','R'], Segment, Active⟩),
  (['X','T','U','C'], ⟨['X','R','O','S'], ['A','R'], Segment, Active⟩),
  (['X','R','P','M'], ⟨['X','R','P','M'], ['R','O'], Operating, Active⟩),
  (['X','R','U','S'], ⟨['X','R','U','S'], ['R','U'], Operating, Active⟩),
  (['X','S','A','M'], ⟨['X','S','A','M'], ['R','U'], Operating, Active⟩),
  (['X','S','A','P'], ⟨['X','S','A','P'], ['J','P'], Operating, Active⟩),
  (['X','S','A','U'], ⟨['X','S','A','U'], ['S','A'], Operating, Active⟩),
  (['X','S','C','2'], ⟨['X','S','C','O'], ['D','E'], Segment, Active⟩),
  (['X','S','C','3'], ⟨['X','S','C','O'], ['D','E'], Segment, Active⟩),
  (['X','S','C','1'], ⟨['X','S','C','O'], ['D','E'], Segment, Active⟩),
  (['X','S','C','O'], ⟨['X','S','C','O'], ['D','E'], Operating, Active⟩),
  (['X','S','E','F'], ⟨['X','S','E','F'], ['U','S'], Operating, Expired⟩),
  (['X','S','C','L'], ⟨['X','S','E','S'], ['S','G'], Segment, Expired⟩),
  (['X','S','E','S'], ⟨['X','S','E','S'], ['S','G'], Operating, Active⟩),
  (['X','S','I','M'], ⟨['X','S','E','S'], ['S','G'], Segment, Active⟩),
  (['X','S','C','E'], ⟨['X','S','E','S'], ['S','G'], Segment, Active⟩),
  (['X','I','N','E'], ⟨['X','S','G','E'], ['C','N'], Segment, Active⟩),
  (['X','S','G','E'], ⟨['X','S','G','E'], ['C','N'], Operating, Active⟩),
  (['X','S','G','O'], ⟨['X','S','G','O'], ['C','L'], Operating, Active⟩),
  (['X','S','E','C'], ⟨['X','S','H','E'], ['C','N'], Segment, Active⟩),
  (['X','S','H','E'], ⟨['X','S','H','E'], ['C','N'], Operating, Active⟩),
  (['X','S','S','C'], ⟨['X','S','H','G'], ['C','N'], Segment, Active⟩),
  (['X','S','H','G'], ⟨['X','S','H','G'], ['C','N'], Operating, Active⟩),
  (['X','S','I','B'], ⟨['X','S','I','B'], ['R','U'], Operating, Active⟩),
  (['X','S','M','E'], ⟨['X','S','M','E'], ['C','N'], Operating, Expired⟩),
  (['X','S','O','M'], ⟨['X','S','O','M'], ['B','R'], Operating, Expired⟩),
  (['X','S','O','P'], ⟨['X','S','O','P'], ['S','I'], Operating, Active⟩),
  (['X','S','P','S'], ⟨['X','S','P','S'], ['F','J'], Operating, Active⟩),
  (['X','S','R','M'], ⟨['X','S','R','M'], ['E','S'], Operating, Expired⟩),
  (['X','S','S','E'], ⟨['X','S','S','E'], ['B','A'], Operating, Active⟩),
  (['X','S','T','C'], ⟨['X','S','T','C'], ['V','N'], Operating, Active⟩),
  (['X','S','T','E'], ⟨['X','S','T','E'], ['U','Z'], Operating, Active⟩),
  (['D','N','S','E'], ⟨['X','S','T','O'], ['S','E'], Segment, Active⟩),
  (['F','N','S','E'], ⟨['X','S','T','O'], ['S','E'], Segment, Active⟩),
  (['C','S','T','O'], ⟨['X','S','T','O'], ['S','E'], Segment, Active⟩),
  (['M','N','S','E'], ⟨['X','S','T','O'], ['S','E'], Segment, Active⟩),
  (['M','S','T','O'], ⟨['X','S','T','O'], ['S','E'], Segment, Active⟩),
  (['X','S','T','O'], ⟨['X','S','T','O'], ['S','E'], Operating, Active⟩),
  (['D','S','T','O'], ⟨['X','S','T','O'], ['S','E'], Segment, Active⟩),
  (['S','T','U','B'], ⟨['X','S','T','U'], ['D','E'], Segment, Active⟩),
  (['S','T','U','A'], ⟨['X','S','T','U'], ['D','E'], Segment, Active⟩),
  (['X','S','T','U'], ⟨['X','S','T','U'], ['D','E'], Operating, Active⟩),
  (['E','U','W','X'], ⟨['X','S','T','U'], ['D','E'], Segment, Active⟩),
  (['X','S','V','A'], ⟨['X','S','V','A'], ['S','V'], Operating, Active⟩),
  (['X','S','W','A'], ⟨['X','S','W','A'], ['S','Z'], Operating, Active⟩),
  (['X','S','W','B'], ⟨['X','S','W','B'], ['G','B'], Operating, Active⟩),
  (['X','S','W','O'], ⟨['X','S','W','O'], ['C','H'], Operating, Expired⟩),
  (['X','T','A','D'], ⟨['X','T','A','D'], ['T','W'], Operating, Expired⟩),
  (['X','T','A','E'], ⟨['X','T','A','E'], ['I','L'], Operating, Active⟩),
  (['X','T','A','F'], ⟨['X','T','A','F'], ['T','W'], Operating, Active⟩),
  (['X','T','A','I'], ⟨['X','T','A','I'], ['T','W'], Operating, Active⟩),
  (['X','T','A','L'], ⟨['X','T','A','L'], ['E','E'], Operating, Active⟩),
  (['F','N','E','E'], ⟨['X','T','A','L'], ['E','E'], Segment, Active⟩),
  (['X','T','E','H'], ⟨['X','T','E','H'], ['I','R'], Operating, Active⟩),
  (['X','T','F','E'], ⟨['X','T','F','E'], ['C','A'], Operating, Expired⟩),
  (['X','T','F','F'], ⟨['X','T','F','F'], ['J','P'], Operating, Active⟩),
  (['X','T','F','N'], ⟨['X','T','F','N'], ['G','B'], Operating, Expired⟩),
  (['X','T','I','R'], ⟨['X','T','I','R'], ['A','L'], Operating, Active⟩),
  (['X','T','K','A'], ⟨['X','T','K','A'], ['J','P'], Operating, Expired⟩),
  (['X','T','K','O'], ⟨['X','T','K','O'], ['J','P'], Operating, Expired⟩),
  (['X','T','K','T'], ⟨['X','T','K','T'], ['J','P'], Operating, Active⟩),
  (['X','T','O','E'], ⟨['X','T','O','E'], ['C','A'], Operating, Expired⟩)]

theorem mics23_eq : mics23 = micChars23.map MicChars.entry := (rfl)

/-- iso_10383.rs 2496-2595. -/
def mics24 : List (String × Mic) := [
  ("XTRA", ⟨"XTRA", "DK", Operating, Expired⟩),
  ("XTRN", ⟨"XTRN", "TT", Operating, Active⟩),
  ("XTRZ", ⟨"XTRZ", "HR", Operating, Active⟩),
  ("XTSE", ⟨"XTSE", "CA", Operating, Active⟩),
  ("XTSX", ⟨"XTSX", "CA", Operating, Active⟩),
  ("XTNX", ⟨"XTSX", "CA", Segment, Active⟩),
  ("XTUN", ⟨"XTUN", "TN", Operating, Active⟩),
  ("TPCD", ⟨"XTUP", "GB", Segment, Expired⟩),
  ("TBLA", ⟨"XTUP", "GB", Segment, Expired⟩),
  ("TPFD", ⟨"XTUP", "GB", Segment, Expired⟩),
  ("TPSP", ⟨"XTUP", "GB", Segment, Expired⟩),
  ("XTUP", ⟨"XTUP", "GB", Operating, Expired⟩),
  ("TPSD", ⟨"XTUP", "GB", Segment, Expired⟩),
  ("TPRE", ⟨"XTUP", "GB", Segment, Expired⟩),
  ("TPEQ", ⟨"XTUP", "GB", Segment, Expired⟩),
  ("XTPE", ⟨"XTUP", "GB", Segment, Expired⟩),
  ("TBEN", ⟨"XTUP", "GB", Segment, Expired⟩),
  ("XTUR", ⟨"XTUR", "TR", Operating, Expired⟩),
  ("XUAX", ⟨"XUAX", "UA", Operating, Active⟩),
  ("XUGA", ⟨"XUGA", "UG", Operating, Active⟩),
  ("XUKR", ⟨"XUKR", "UA", Operating, Active⟩),
  ("XULA", ⟨"XULA", "MN", Operating, Active⟩),
  ("XUNI", ⟨"XUNI", "UZ", Operating, Active⟩),
  ("XUSE", ⟨"XUSE", "IN", Operating, Active⟩),
  ("XVAR", ⟨"XVAR", "HR", Operating, Expired⟩),
  ("XVLA", ⟨"XVLA", "RU", Operating, Expired⟩),
  ("XVPA", ⟨"XVPA", "PY", Operating, Active⟩),
  ("XVSE", ⟨"XVSE", "CA", Operating, Expired⟩),
  ("RPWC", ⟨"XWAR", "PL", Segment, Active⟩),
  ("TBSP", ⟨"XWAR", "PL", Segment, Active⟩),
  ("TBSA", ⟨"XWAR", "PL", Segment, Active⟩),
  ("BOSP", ⟨"XWAR", "PL", Segment, Active⟩),
  ("WETP", ⟨"XWAR", "PL", Segment, Active⟩),
  ("XWAR", ⟨"XWAR", "PL", Operating, Active⟩),
  ("PLPO", ⟨"XWAR", "PL", Segment, Active⟩),
  ("PLPS", ⟨"XWAR", "PL", Segment, Active⟩),
  ("WBLC", ⟨"XWAR", "PL", Segment, Expired⟩),
  ("WBCL", ⟨"XWAR", "PL", Segment, Active⟩),
  ("WBON", ⟨"XWAR", "PL", Segment, Active⟩),
  ("WMTF", ⟨"XWAR", "PL", Segment, Active⟩),
  ("WDER", ⟨"XWAR", "PL", Segment, Active⟩),
  ("WCDE", ⟨"XWAR", "PL", Segment, Expired⟩),
  ("POEE", ⟨"XWAR", "PL", Segment, Expired⟩),
  ("WGAS", ⟨"XWAR", "PL", Segment, Expired⟩),
  ("PLPX", ⟨"XWAR", "PL", Segment, Expired⟩),
  ("EXAA", ⟨"XWBO", "AT", Segment, Active⟩),
  ("XWBO", ⟨"XWBO", "AT", Operating, Active⟩),
  ("WBAH", ⟨"XWBO", "AT", Segment, Active⟩),
  ("WBDM", ⟨"XWBO", "AT", Segment, Active⟩),
  ("XVIE", ⟨"XWBO", "AT", Segment, Active⟩),
  ("XXSC", ⟨"XXSC", "DE", Operating, Active⟩),
  ("XXXX", ⟨"XXXX", "ZZ", Operating, Active⟩),
  ("XYIE", ⟨"XYIE", "AU", Operating, Active⟩),
  ("XYKT", ⟨"XYKT", "JP", Operating, Expired⟩),
  ("XZAG", ⟨"XZAG", "HR", Operating, Active⟩),
  ("XZCE", ⟨"XZCE", "CN", Operating, Active⟩),
  ("XZIM", ⟨"XZIM", "ZW", Operating, Active⟩),
  ("ZKBX", ⟨"ZKBX", "CH", Operating, Active⟩),
  ("KMUX", ⟨"ZKBX", "CH", Segment, Active⟩),
  ("UKCA", ⟨"UKCA", "GB", Operating, Active⟩),
  ("ASEF", ⟨"ASEF", "US", Operating, Active⟩),
  ("MEMM", ⟨"MEMX", "US", Segment, Active⟩),
  ("XEBS", ⟨"XEBS", "GB", Operating, Active⟩),
  ("NSPO", ⟨"NSPO", "SE", Operating, Active⟩),
  ("OTCI", ⟨"OTCI", "US", Operating, Active⟩),
  ("GFOX", ⟨"GFOX", "GB", Operating, Active⟩),
  ("FNFT", ⟨"BGCF", "US", Segment, Active⟩),
  ("HGSP", ⟨"HEMO", "GR", Segment, Active⟩),
  ("TERM", ⟨"TERM", "SG", Operating, Active⟩),
  ("PATF", ⟨"PATF", "CZ", Operating, Active⟩),
  ("BBVX", ⟨"BBVX", "GB", Operating, Updated⟩),
  ("ODXE", ⟨"ODXE", "JP", Operating, Active⟩),
  ("HPSX", ⟨"HPSX", "GB", Operating, Active⟩),
  ("DBDX", ⟨"DBDX", "DE", Operating, Active⟩),
  ("EMCE", ⟨"XBRM", "RO", Segment, Active⟩),
  ("HPSO", ⟨"HPSX", "GB", Segment, Active⟩),
  ("ARTX", ⟨"ARTX", "LI", Operating, Active⟩),
  ("SPTX", ⟨"SPTX", "US", Operating, Active⟩),
  ("TSIR", ⟨"TPSO", "GB", Segment, Active⟩),
  ("STXS", ⟨"STXS", "NL", Operating, Active⟩),
  ("EUFN", ⟨"EUFN", "BG", Operating, Active⟩),
  ("TSFX", ⟨"TPSO", "GB", Segment, Expired⟩),
  ("GFAU", ⟨"GFAU", "AU", Operating, Active⟩),
  ("CSE2", ⟨"XCNQ", "CA", Segment, Active⟩),
  ("XIGG", ⟨"XIGG", "DE", Operating, Active⟩),
  ("SMBC", ⟨"SMBC", "JP", Operating, Active⟩),
  ("FNXB", ⟨"BGCF", "US", Segment, Active⟩),
  ("BGCA", ⟨"BGCA", "AU", Operating, Active⟩),
  ("AQXD", ⟨"AQXE", "GB", Segment, Active⟩),
  ("XFTX", ⟨"XFTX", "AG", Operating, Active⟩),
  ("NABP", ⟨"NABP", "FR", Operating, Active⟩),
  ("USOB", ⟨"XSTO", "SE", Segment, Active⟩),
  ("BTUN", ⟨"XTUN", "TN", Segment, Active⟩),
  ("ECNL", ⟨"RTSL", "GB", Segment, Active⟩),
  ("RITS", ⟨"RITS", "IN", Operating, Active⟩),
  ("FXSM", ⟨"RTSP", "SG", Segment, Active⟩),
  ("FXNM", ⟨"THRE", "US", Segment, Active⟩),
  ("MSWP", ⟨"MTSO", "IT", Segment, Active⟩),
  ("CAST", ⟨"CAST", "US", Operating, Active⟩),
  ("XABX", ⟨"XABX", "SG", Operating, Active⟩)]

/-- The same entries with their strings spelt out. -/
def micChars24 : List (List Char × MicChars) := [
  (['X','T','R','A'], ⟨['X','T','R','A'], ['D','K'], Operating, Expired⟩),
  (['X','T','R','N'], ⟨['X','T','R','N'], ['T','T'], Operating, Active⟩),
  (['X','T','R','Z'], ⟨['X','T','R','Z'], ['H','R'], Operating, Active⟩),
  (['X','T','S','E'], ⟨['X','T','S','E'], ['C','A'], Operating, Active⟩),
  (['X','T','S','X'], ⟨['X','T','S','X'], ['C','A'], Operating, Active⟩),
  (['X','T','N','X'], ⟨['X','T','S','X'], ['C','A'], Segment, Active⟩),
  (['X','T','U','N'], ⟨['X','T','U','N'], ['T','N'], Operating, Active⟩),
  (['T','P','C','D'], ⟨['X','T','U','P'], ['G','B'], Segment, Expired⟩),
  (['T','B','L','A'], ⟨['X','T','U','P'], ['G','B'], Segment, Expired⟩),
  (['T','P','F','D'], ⟨['X','T','U','P'], ['G','B'], Segment, Expired⟩),
  (['T','P','S','P'], ⟨['X','T','U','P'], ['G','B'], Segment, Expired⟩),
  (['X','T','U','P'], ⟨['X','T','U','P'], ['G','B'], Operating, Expired⟩),
  (['T','P','S','D'], ⟨['X','T','U','P'], ['G','B'], Segment, Expired⟩),
  (['T','P','R','E'], ⟨['X','T','U','P'], ['G','B'], Segment, Expired⟩),
  (['T','P','E','Q'], ⟨['X','T','U','P'], ['G','B'], Segment, Expired⟩),
  (['X','T','P','E'], ⟨['X','T','U','P'], ['G','B'], Segment, Expired⟩),
  (['T','B','E','N'], ⟨['X','T','U','P'], ['G','B'], Segment, Expired⟩),
  (['X','T','U','R'], ⟨['X','T','U','R'], ['T','R'], Operating, Expired⟩),
  (['X','U','A','X'], ⟨['X','U','A','X'], ['U','A'], Operating, Active⟩),
  (['X','U','G','A'], ⟨['X','U','G','A'], ['U','G'], Operating, Active⟩),
  (['X','U','K','R'], ⟨['X','U','K','R'], ['U','A'], Operating, Active⟩),
  (['X','U','L','A'], ⟨['X','U','L','A'], ['M','N'], Operating, Active⟩),
  (['X','U','N','I'], ⟨['X','U','N','I'], ['U','Z'], Operating, Active⟩),
  (['X','U','S','E'], ⟨['X','U','S','E'], ['I','N'], Operating, Active⟩),
  (['X','V','A','R'], ⟨['X','V','A','R'], ['H','R'], Operating, Expired⟩),
  (['X','V','L','A'], ⟨['X','V','L','A'], ['R','U'], Operating, Expired⟩),
  (['X','V','P','A'], ⟨['X','V','P','A'], ['P','Y'], Operating, Active⟩),
  (['X','V','S','E'], ⟨['X','V','S','E'], ['C','A'], Operating, Expired⟩),
  (['R','P','W','C'], ⟨['X','W','A','R'], ['P','L'], Segment, Active⟩),
  (['T','B','S','P'], ⟨['X','W','A','R'], ['P','L'], Segment, Active⟩),
  (['T','B','S','A'], ⟨['X','W','A','R'], ['P','L'], Segment, Active⟩),
  (['B','O','S','P'], ⟨['X','W','A','R'], ['P','L'], Segment, Active⟩),
  (['W','E','T','P'], ⟨['X','W','A','R'], ['P','L'], Segment, Active⟩),
  (['X','W','A','R'], ⟨['X','W','A','R'], ['P','L'], Operating, Active⟩),
  (['P','L','P','O'], ⟨['X','W','A','R'], ['P','L'], Segment, Active⟩),
  (['P','L','P','S'], ⟨['X','W','A','R'], ['P','L'], Segment, Active⟩),
  (['W','B','L','C'], ⟨['X','W','A','R'], ['P','L'], Segment, Expired⟩),
  (['W','B','C','L'], ⟨['X','W','A','R'], ['P','L'], Segment, Active⟩),
  (['W','B','O','N'], ⟨['X','W','A','R'], ['P','L'], Segment, Active⟩),
  (['W','M','T','F'], ⟨['X','W','A','R'], ['P','L'], Segment, Active⟩),
  (['W','D','E','R'], ⟨['X','W','A','R'], ['P','L'], Segment, Active⟩),
  (['W','C','D','E'], ⟨['X','W','A','R'], ['P','L'], Segment, Expired⟩),
  (['P','O','E','E'], ⟨['X','W','A','R'], ['P','L'], Segment, Expired⟩),
  (['W','G','A','S'], ⟨['X','W','A','R'], ['P','L'], Segment, Expired⟩),
  (['P','L','P','X'], ⟨['X','W','A','R'], ['P','L'], Segment, Expired⟩),
  (['E','X','A','A'], ⟨['X','W','B','O'], ['A','T'], Segment, Active⟩),
  (['X','W','B','O'], ⟨['X','W','B','O'], ['A','T'], Operating, Active⟩),
  (['W','B','A','H'], ⟨['X','W','B','O'], ['A','T'], Segment, Active⟩),
  (['W','B','D','M'], ⟨['X','W','B','O'], ['A','T'], Segment, Active⟩),
  (['X','V','I','E'], ⟨['X','W','B','O'], ['A','T'], Segment, Active⟩),
  (['X','X','S','C'], ⟨['X','X','S','C'], ['D','E'], Operating, Active⟩),
  (['X','X','X','X'], ⟨['X','X','X','X'], ['Z','Z'], Operating, Active⟩),
  (['X','Y','I','E'], ⟨['X','Y','I','E'], ['A','U'], Operating, Active⟩),
  (['X','Y','K','T'], ⟨['X','Y','K','T'], ['J','P'], Operating, Expired⟩),
  (['X','Z','A','G'], ⟨['X','Z','A','G'], ['H','R'], Operating, Active⟩),
  (['X','Z','C','E'], ⟨['X','Z','C','E'], ['C','N'], Operating, Active⟩),
  (['X','Z','I','M'], ⟨['X','Z','I','M'], ['Z','W'], Operating, Active⟩),
  (['Z','K','B','X'], ⟨['Z','K','B','X'], ['C','H'], Operating, Active⟩),
  (['K','M','U','X'], ⟨['Z','K','B','X'], ['C','H'], Segment, Active⟩),
  (['U','K','C','A'], ⟨['U','K','C','A'], ['G','B'], Operating, Active⟩),
  (['A','S','E','F'], ⟨['A','S','E','F'], ['U','S'], Operating, Active⟩),
  (['M','E','M','M'], ⟨['M','E','M','X'], ['U','S'], Segment, Active⟩),
  (['X','E','B','S'], ⟨['X','E','B','S'], ['G','B'], Operating, Active⟩),
  (['N','S','P','O'], ⟨['N','S','P','O'], ['S','E'], Operating, Active⟩),
  (['O','T','C','I'], ⟨['O','T','C','I'], ['U','S'], Operating, Active⟩),
  (['G','F','O','X'], ⟨['G','F','O','X'], ['G','B'], Operating, Active⟩),
  (['F','N','F','T'], ⟨['B','G','C','F'], ['U','S'], Segment, Active⟩),
  (['H','G','S','P'], ⟨['H','E','M','O'], ['G','R'], Segment, Active⟩),
  (['T','E','R','M'], ⟨['T','E','R','M'], ['S','G'], Operating, Active⟩),
  (['P','A','T','F'], ⟨['P','A','T','F'], ['C','Z'], Operating, Active⟩),
  (['B','B','V','X'], ⟨['B','B','V','X'], ['G','B'], Operating, Updated⟩),
  (['O','D','X','E'], ⟨['O','D','X','E'], ['J','P'], Operating, Active⟩),
  (['H','P','S','X'], ⟨['H','P','S','X'], ['G','B'], Operating, Active⟩),
  (['D','B','D','X'], ⟨['D','B','D','X'], ['D','E'], Operating, Active⟩),
  (['E','M','C','E'], ⟨['X','B','R','M'], ['R','O'], Segment, Active⟩),
  (['H','P','S','O'], ⟨['H','P','S','X'], ['G','B'], Segment, Active⟩),
  (['A','R','T','X'], ⟨['A','R','T','X'], ['L','I'], Operating, Active⟩),
  (['S','P','T','X'], ⟨['S','P','T','X'], ['U','S'], Operating, Active⟩),
  (['T','S','I','R'], ⟨['T','P','S','O'], ['G','B'], Segment, Active⟩),
  (['S','T','X','S'], ⟨['S','T','X','S'], ['N','L'], Operating, Active⟩),
  (['E','U','F','N'], ⟨['E','U','F','N'], ['B','G'], Operating, Active⟩),
  (['T','S','F','X'], ⟨['T','P','S','O'], ['G','B'], Segment, Expired⟩),
  (['G','F','A','U'], ⟨['G','F','A','U'], ['A','U'], Operating, Active⟩),
  (['C','S','E','2'], ⟨['X','C','N','Q'], ['C','A'], Segment, Active⟩),
  (['X','I','G','G'], ⟨['X','I','G','G'], ['D','E'], Operating, Active⟩),
  (['S','M','B','C'], ⟨['S','M','B','C'], ['J','P'], Operating, Active⟩),
  (['F','N','X','B'], ⟨['B','G','C','F'], ['U','S'], Segment, Active⟩),
  (['B','G','C','A'], ⟨['B','G','C','A'], ['A','U'], Operating, Active⟩),
  (['A','Q','X','D'], ⟨['A','Q','X','E'], ['G','B'], Segment, Active⟩),
  (['X','F','T','X'], ⟨['X','F','T','X'], ['A','G'], Operating, Active⟩),
  (['N','A','B','P'], ⟨['N','A','B','P'], ['F','R'], Operating, Active⟩),
  (['U','S','O','B'], ⟨['X','S','T','O'], ['S','E'], Segment, Active⟩),
  (['B','T','U','N'], ⟨['X','T','U','N'], ['T','N'], Segment, Active⟩),
  (['E','C','N','L'], ⟨['R','T','S','L'], ['G','B'], Segment, Active⟩),
  (['R','I','T','S'], ⟨['R','I','T','S'], ['I','N'], Operating, Active⟩),
  (['F','X','S','M'], ⟨['R','T','S','P'], ['S','G'], Segment, Active⟩),
  (['F','X','N','M'], ⟨['T','H','R','E'], ['U','S'], Segment, Active⟩),
  (['M','S','W','P'], ⟨['M','T','S','O'], ['I','T'], Segment, Active⟩),
  (['C','A','S','T'], ⟨['C','A','S','T'], ['U','S'], Operating, Active⟩),
  (['X','A','B','X'], ⟨['X','A','B','X'], ['S','G'], Operating, Active⟩)]

theorem mics24_eq : mics24 = micChars24.map MicChars.entry := (rfl)

/-- iso_10383.rs 2596-2695. -/
def mics25 : List (String × Mic) := [
  ("CILH", ⟨"CILH", "JP", Operating, Active⟩),
  ("USWP", ⟨"XMTS", "GB", Segment, Active⟩),
  ("CBAE", ⟨"CBAE", "NL", Operating, Active⟩),
  ("TRDC", ⟨"TRDC", "SG", Operating, Active⟩),
  ("USEF", ⟨"USEF", "US", Operating, Expired⟩),
  ("NSSA", ⟨"NSSA", "PL", Operating, Active⟩),
  ("CMCM", ⟨"CMCM", "GB", Operating, Active⟩),
  ("EBLX", ⟨"XIGG", "DE", Segment, Active⟩),
  ("ERFQ", ⟨"XIGG", "DE", Segment, Active⟩),
  ("ENTW", ⟨"XIGG", "DE", Segment, Active⟩),
  ("FUSD", ⟨"LEDG", "US", Segment, Active⟩),
  ("XETE", ⟨"XETR", "DE", Segment, Active⟩),
  ("XETX", ⟨"XETR", "DE", Segment, Active⟩),
  ("SFOX", ⟨"SFOX", "US", Operating, Active⟩),
  ("BJSE", ⟨"BJSE", "CN", Operating, Active⟩),
  ("NEEQ", ⟨"NEEQ", "CN", Operating, Active⟩),
  ("VFEX", ⟨"VFEX", "ZW", Operating, Active⟩),
  ("MSDM", ⟨"MSDM", "PL", Operating, Active⟩),
  ("LNEQ", ⟨"TPIC", "FR", Segment, Active⟩),
  ("LNFI", ⟨"TPIC", "FR", Segment, Active⟩),
  ("IBSI", ⟨"IBSI", "IE", Operating, Active⟩),
  ("RAJA", ⟨"RAJA", "US", Operating, Active⟩),
  ("LPSF", ⟨"LPSF", "US", Operating, Active⟩),
  ("GBSI", ⟨"GBSI", "IE", Operating, Active⟩),
  ("TPID", ⟨"TPID", "GB", Operating, Active⟩),
  ("INGU", ⟨"INGU", "GB", Operating, Active⟩),
  ("SISU", ⟨"SISU", "GB", Operating, Active⟩),
  ("SEWB", ⟨"XSTO", "SE", Segment, Active⟩),
  ("DKWB", ⟨"XSTO", "SE", Segment, Active⟩),
  ("NOWB", ⟨"XSTO", "SE", Segment, Active⟩),
  ("SEOB", ⟨"XSTO", "SE", Segment, Active⟩),
  ("DKOB", ⟨"XSTO", "SE", Segment, Active⟩),
  ("EUOB", ⟨"XSTO", "SE", Segment, Active⟩),
  ("GBOB", ⟨"XSTO", "SE", Segment, Active⟩),
  ("NOOB", ⟨"XSTO", "SE", Segment, Active⟩),
  ("OTXT", ⟨"OTXT", "GB", Operating, Active⟩),
  ("MXOP", ⟨"MEMX", "US", Segment, Active⟩),
  ("BOCF", ⟨"BOCF", "DE", Operating, Active⟩),
  ("FPWB", ⟨"FPWB", "AT", Operating, Active⟩),
  ("SPAX", ⟨"SPAX", "US", Operating, Active⟩),
  ("LEBV", ⟨"LEBV", "NL", Operating, Active⟩),
  ("LESI", ⟨"LESI", "US", Operating, Active⟩),
  ("BGEM", ⟨"XMIL", "IT", Segment, Active⟩),
  ("JLEQ", ⟨"JLQD", "US", Segment, Active⟩),
  ("GMGE", ⟨"GMGE", "NL", Operating, Active⟩),
  ("IEXC", ⟨"IEXG", "US", Segment, Active⟩),
  ("INTL", ⟨"INTL", "US", Operating, Active⟩),
  ("BRMF", ⟨"XBRM", "RO", Segment, Active⟩),
  ("CXAB", ⟨"CHIA", "AU", Segment, Active⟩),
  ("CXAI", ⟨"CHIA", "AU", Segment, Active⟩),
  ("TMUK", ⟨"TMUK", "GB", Operating, Active⟩),
  ("XCBD", ⟨"XCBO", "US", Segment, Active⟩),
  ("U360", ⟨"U360", "US", Operating, Active⟩),
  ("BDPL", ⟨"BDPL", "LU", Operating, Active⟩),
  ("VMEX", ⟨"VMEX", "AE", Operating, Active⟩),
  ("IEOS", ⟨"IBKR", "US", Segment, Active⟩),
  ("INFT", ⟨"INFT", "NO", Operating, Active⟩),
  ("EDXM", ⟨"EDXM", "US", Operating, Active⟩),
  ("IBKR", ⟨"IBKR", "US", Operating, Active⟩),
  ("ALGO", ⟨"ALGO", "GB", Operating, Active⟩),
  ("XAND", ⟨"XAND", "SG", Operating, Active⟩),
  ("FNDS", ⟨"INFT", "NO", Segment, Active⟩),
  ("IFFX", ⟨"INFT", "NO", Segment, Active⟩),
  ("QUNT", ⟨"INFT", "NO", Segment, Active⟩),
  ("GSLO", ⟨"GSLO", "GB", Operating, Active⟩),
  ("RTXF", ⟨"RTXF", "US", Operating, Active⟩),
  ("ARDA", ⟨"ARCH", "GB", Segment, Active⟩),
  ("VUBA", ⟨"VUBA", "SK", Operating, Active⟩),
  ("G360", ⟨"G360", "GB", Operating, Active⟩),
  ("ACXL", ⟨"ACXL", "AE", Operating, Active⟩),
  ("ACXC", ⟨"ACXC", "AE", Operating, Active⟩),
  ("ATAD", ⟨"ATAD", "CZ", Operating, Active⟩),
  ("GSXN", ⟨"GSXN", "HK", Operating, Active⟩),
  ("RULE", ⟨"RULE", "CH", Operating, Active⟩),
  ("MSXB", ⟨"XMUS", "OM", Segment, Active⟩),
  ("XCVD", ⟨"XCVD", "DO", Operating, Active⟩),
  ("MSLC", ⟨"MSCO", "US", Segment, Active⟩),
  ("XANM", ⟨"XANM", "SG", Operating, Active⟩),
  ("CFIM", ⟨"CFIM", "US", Operating, Active⟩),
  ("MSXO", ⟨"XMUS", "OM", Segment, Active⟩),
  ("XATX", ⟨"XATS", "CA", Segment, Active⟩),
  ("ADRK", ⟨"XATS", "CA", Segment, Active⟩),
  ("RFIM", ⟨"RFIM", "AE", Operating, Active⟩),
  ("BNDS", ⟨"BNDS", "US", Operating, Active⟩),
  ("SPHR", ⟨"MIHI", "US", Segment, Active⟩),
  ("AFTS", ⟨"AFTS", "GB", Operating, Active⟩),
  ("TMEU", ⟨"TMEU", "IE", Operating, Active⟩),
  ("NXFO", ⟨"NMRJ", "JP", Segment, Active⟩),
  ("TPDA", ⟨"TPID", "GB", Segment, Active⟩),
  ("TICT", ⟨"TICT", "JP", Operating, Active⟩),
  ("XBRY", ⟨"XBRY", "PL", Operating, Active⟩),
  ("XMME", ⟨"XCYS", "CY", Segment, Active⟩),
  ("GSXM", ⟨"GSAL", "HK", Segment, Active⟩),
  ("NTRL", ⟨"INCR", "US", Segment, Active⟩),
  ("SCLE", ⟨"BMEX", "ES", Segment, Active⟩),
  ("NXBX", ⟨"NMRJ", "JP", Segment, Active⟩),
  ("ACCX", ⟨"ACCX", "GB", Operating, Active⟩),
  ("POTL", ⟨"POTL", "AU", Operating, Active⟩),
  ("NPMS", ⟨"NPMS", "US", Operating, Active⟩),
  ("LBUL", ⟨"XBUL", "BG", Segment, Active⟩)]

/-- The same entries with their strings spelt out. -/
def micChars25 : List (List Char × MicChars) := [
  (['C','I','L','H'], ⟨['C','I','L','H'], ['J','P'], Operating, Active⟩),
  (['U','S','W','P'], ⟨['X','M','T','S'], ['G','B'], Segment, Active⟩),
  (['C','B','A','E'], ⟨['C','B','A','E'], ['N','L'], Operating, Active⟩),
  (['T','R','D','C'], ⟨['T','R','D','C'], ['S','G'], Operating, Active⟩),
  (['U','S','E','F'], ⟨['U','S','E','F'], ['U','S'], Operating, Expired⟩),
  (['N','S','S','A'], ⟨['N','S','S','A'], ['P','L'], Operating, Active⟩),
  (['C','M','C','M'], ⟨['C','M','C','M'], ['G','B'], Operating, Active⟩),
  (['E','B','L','X'], ⟨['X','I','G','G'], ['D','E'], Segment, Active⟩),
  (['E','R','F','Q'], ⟨['X','I','G','G'], ['D','E'], Segment, Active⟩),
  (['E','N','T','W'], ⟨['X','I','G','G'], ['D','E'], Segment, Active⟩),
  (['F','U','S','D'], ⟨['L','E','D','G'], ['U','S'], Segment, Active⟩),
  (['X','E','T','E'], ⟨['X','E','T','R'], ['D','E'], Segment, Active⟩),
  (['X','E','T','X'], ⟨['X','E','T','R'], ['D','E'], Segment, Active⟩),
  (['S','F','O','X'], ⟨['S','F','O','X'], ['U','S'], Operating, Active⟩),
  (['B','J','S','E'], ⟨['B','J','S','E'], ['C','N'], Operating, Active⟩),
  (['N','E','E','Q'], ⟨['N','E','E','Q'], ['C','N'], Operating, Active⟩),
  (['V','F','E','X'], ⟨['V','F','E','X'], ['Z','W'], Operating, Active⟩),
  (['M','S','D','M'], ⟨['M','S','D','M'], ['P','L'], Operating, Active⟩),
  (['L','N','E','Q'], ⟨['T','P','I','C'], ['F','R'], Segment, Active⟩),
  (['L','N','F','I'], ⟨['T','P','I','C'], ['F','R'], Segment, Active⟩),
  (['I','B','S','I'], ⟨['I','B','S','I'], ['I','E'], Operating, Active⟩),
  (['R','A','J','A'], ⟨['R','A','J','A'], ['U','S'], Operating, Active⟩),
  (['L','P','S','F'], ⟨['L','P','S','F'], ['U','S'], Operating, Active⟩),
  (['G','B','S','I'], ⟨['G','B','S','I'], ['I','E'], Operating, Active⟩),
  (['T','P','I','D'], ⟨['T','P','I','D'], ['G','B'], Operating, Active⟩),
  (['I','N','G','U'], ⟨['I','N','G','U'], ['G','B'], Operating, Active⟩),
  (['S','I','S','U'], ⟨['S','I','S','U'], ['G','B'], Operating, Active⟩),
  (['S','E','W','B'], ⟨['X','S','T','O'], ['S','E'], Segment, Active⟩),
  (['D','K','W','B'], ⟨['X','S','T','O'], ['S','E'], Segment, Active⟩),
  (['N','O','W','B'], ⟨['X','S','T','O'], ['S','E'], Segment, Active⟩),
  (['S','E','O','B'], ⟨['X','S','T','O'], ['S','E'], Segment, Active⟩),
  (['D','K','O','B'], ⟨['X','S','T','O'], ['S','E'], Segment, Active⟩),
  (['E','U','O','B'], ⟨['X','S','T','O'], ['S','E'], Segment, Active⟩),
  (['G','B','O','B'], ⟨['X','S','T','O'], ['S','E'], Segment, Active⟩),
  (['N','O','O','B'], ⟨['X','S','T','O'], ['S','E'], Segment, Active⟩),
  (['O','T','X','T'], ⟨['O','T','X','T'], ['G','B'], Operating, Active⟩),
  (['M','X','O','P'], ⟨['M','E','M','X'], ['U','S'], Segment, Active⟩),
  (['B','O','C','F'], ⟨['B','O','C','F'], ['D','E'], Operating, Active⟩),
  (['F','P','W','B'], ⟨['F','P','W','B'], ['A','T'], Operating, Active⟩),
  (['S','P','A','X'], ⟨['S','P','A','X'], ['U','S'], Operating, Active⟩),
  (['L','E','B','V'], ⟨['L','E','B','V'], ['N','L'], Operating, Active⟩),
  (['L','E','S','I'], ⟨['L','E','S','I'], ['U','S'], Operating, Active⟩),
  (['B','G','E','M'], ⟨['X','M','I','L'], ['I','T'], Segment, Active⟩),
  (['J','L','E','Q'], ⟨['J','L','Q','D'], ['U','S'], Segment, Active⟩),
  (['G','M','G','E'], ⟨['G','M','G','E'], ['N','L'], Operating, Active⟩),
  (['I','E','X','C'], ⟨['I','E','X','G'], ['U','S'], Segment, Active⟩),
  (['I','N','T','L'], ⟨['I','N','T','L'], ['U','S'], Operating, Active⟩),
  (['B','R','M','F'], ⟨['X','B','R','M'], ['R','O'], Segment, Active⟩),
  (['C','X','A','B'], ⟨['C','H','I','A'], ['A','U'], Segment, Active⟩),
  (['C','X','A','I'], ⟨['C','H','I','A'], ['A','U'], Segment, Active⟩),
  (['T','M','U','K'], ⟨['T','M','U','K'], ['G','B'], Operating, Active⟩),
  (['X','C','B','D'], ⟨['X','C','B','O'], ['U','S'], Segment, Active⟩),
  (['U','3','6','0'], ⟨['U','3','6','0'], ['U','S'], Operating, Active⟩),
  (['B','D','P','L'], ⟨['B','D','P','L'], ['L','U'], Operating, Active⟩),
  (['V','M','E','X'], ⟨['V','M','E','X'], ['A','E'], Operating, Active⟩),
  (['I','E','O','S'], ⟨['I','B','K','R'], ['U','S'], Segment, Active⟩),
  (['I','N','F','T'], ⟨['I','N','F','T'], ['N','O'], Operating, Active⟩),
  (['E','D','X','M'], ⟨['E','D','X','M'], ['U','S'], Operating, Active⟩),
  (['I','B','K','R'], ⟨['I','B','K','R'], ['U','S'], Operating, Active⟩),
  (['A','L','G','O'], ⟨['A','L','G','O'], ['G','B'], Operating, Active⟩),
  (['X','A','N','D'], ⟨['X','A','N','D'], ['S','G'], Operating, Active⟩),
  (['F','N','D','S'], ⟨['I','N','F','T'], ['N','O'], Segment, Active⟩),
  (['I','F','F','X'], ⟨['I','N','F','T'], ['N','O'], Segment, Active⟩),
  (['Q','U','N','T'], ⟨['I','N','F','T'], ['N','O'], Segment, Active⟩),
  (['G','S','L','O'], ⟨['G','S','L','O'], ['G','B'], Operating, Active⟩),
  (['R','T','X','F'], ⟨['R','T','X','F'], ['U','S'], Operating, Active⟩),
  (['A','R','D','A'], ⟨['A','R','C','H'], ['G','B'], Segment, Active⟩),
  (['V','U','B','A'], ⟨['V','U','B','A'], ['S','K'], Operating, Active⟩),
  (['G','3','6','0'], ⟨['G','3','6','0'], ['G','B'], Operating, Active⟩),
  (['A','C','X','L'], ⟨['A','C','X','L'], ['A','E'], Operating, Active⟩),
  (['A','C','X','C'], ⟨['A','C','X','C'], ['A','E'], Operating, Active⟩),
  (['A','T','A','D'], ⟨['A','T','A','D'], ['C','Z'], Operating, Active⟩),
  (['G','S','X','N'], ⟨['G','S','X','N'], ['H','K'], Operating, Active⟩),
  (['R','U','L','E'], ⟨['R','U','L','E'], ['C','H'], Operating, Active⟩),
  (['M','S','X','B'], ⟨['X','M','U','S'], ['O','M'], Segment, Active⟩),
  (['X','C','V','D'], ⟨['X','C','V','D'], ['D','O'], Operating, Active⟩),
  (['M','S','L','C'], ⟨['M','S','C','O'], ['U','S'], Segment, Active⟩),
  (['X','A','N','M'], ⟨['X','A','N','M'], ['S','G'], Operating, Active⟩),
  (['C','F','I','M'], ⟨['C','F','I','M'], ['U','S'], Operating, Active⟩),
  (['M','S','X','O'], ⟨['X','M','U','S'], ['O','M'], Segment, Active⟩),
  (['X','A','T','X'], ⟨['X','A','T','S'], ['C','A'], Segment, Active⟩),
  (['A','D','R','K'], ⟨['X','A','T','S'], ['C','A'], Segment, Active⟩),
  (['R','F','I','M'], ⟨['R','F','I','M'], ['A','E'], Operating, Active⟩),
  (['B','N','D','S'], ⟨['B','N','D','S'], ['U','S'], Operating, Active⟩),
  (['S','P','H','R'], ⟨['M','I','H','I'], ['U','S'], Segment, Active⟩),
  (['A','F','T','S'], ⟨['A','F','T','S'], ['G','B'], Operating, Active⟩),
  (['T','M','E','U'], ⟨['T','M','E','U'], ['I','E'], Operating, Active⟩),
  (['N','X','F','O'], ⟨['N','M','R','J'], ['J','P'], Segment, Active⟩),
  (['T','P','D','A'], ⟨['T','P','I','D'], ['G','B'], Segment, Active⟩),
  (['T','I','C','T'], ⟨['T','I','C','T'], ['J','P'], Operating, Active⟩),
  (['X','B','R','Y'], ⟨['X','B','R','Y'], ['P','L'], Operating, Active⟩),
  (['X','M','M','E'], ⟨['X','C','Y','S'], ['C','Y'], Segment, Active⟩),
  (['G','S','X','M'], ⟨['G','S','A','L'], ['H','K'], Segment, Active⟩),
  (['N','T','R','L'], ⟨['I','N','C','R'], ['U','S'], Segment, Active⟩),
  (['S','C','L','E'], ⟨['B','M','E','X'], ['E','S'], Segment, Active⟩),
  (['N','X','B','X'], ⟨['N','M','R','J'], ['J','P'], Segment, Active⟩),
  (['A','C','C','X'], ⟨['A','C','C','X'], ['G','B'], Operating, Active⟩),
  (['P','O','T','L'], ⟨['P','O','T','L'], ['A','U'], Operating, Active⟩),
  (['N','P','M','S'], ⟨['N','P','M','S'], ['U','S'], Operating, Active⟩),
  (['L','B','U','L'], ⟨['X','B','U','L'], ['B','G'], Segment, Active⟩)]

theorem mics25_eq : mics25 = micChars25.map MicChars.entry := (rfl)

/-- iso_10383.rs 2696-2710. -/
def mics26 : List (String × Mic) := [
  ("RRSI", ⟨"RRSI", "RO", Operating, Active⟩),
  ("OCTL", ⟨"OCTL", "US", Operating, Active⟩),
  ("BXDA", ⟨"BXDA", "CH", Operating, Active⟩),
  ("BGCJ", ⟨"BGCJ", "JP", Operating, Active⟩),
  ("LMAS", ⟨"LMAS", "SG", Operating, Active⟩),
  ("GFSG", ⟨"GFSG", "SG", Operating, Active⟩),
  ("BGSG", ⟨"BGSG", "SG", Operating, Active⟩),
  ("EESX", ⟨"EESX", "ZA", Operating, Active⟩),
  ("BNPH", ⟨"BNPH", "US", Operating, Active⟩),
  ("SPDK", ⟨"XSAT", "SE", Segment, Active⟩),
  ("SPNO", ⟨"XSAT", "SE", Segment, Active⟩),
  ("SPFI", ⟨"XSAT", "SE", Segment, Active⟩),
  ("SPEU", ⟨"XSAT", "SE", Segment, Active⟩),
  ("PHSI", ⟨"PEEL", "GB", Segment, Active⟩),
  ("ETOR", ⟨"ETOR", "CY", Operating, Active⟩)]

/-- The same entries with their strings spelt out. -/
def micChars26 : List (List Char × MicChars) := [
  (['R','R','S','I'], ⟨['R','R','S','I'], ['R','O'], Operating, Active⟩),
  (['O','C','T','L'], ⟨['O','C','T','L'], ['U','S'], Operating, Active⟩),
  (['B','X','D','A'], ⟨['B','X','D','A'], ['C','H'], Operating, Active⟩),
  (['B','G','C','J'], ⟨['B','G','C','J'], ['J','P'], Operating, Active⟩),
  (['L','M','A','S'], ⟨['L','M','A','S'], ['S','G'], Operating, Active⟩),
  (['G','F','S','G'], ⟨['G','F','S','G'], ['S','G'], Operating, Active⟩),
  (['B','G','S','G'], ⟨['B','G','S','G'], ['S','G'], Operating, Active⟩),
  (['E','E','S','X'], ⟨['E','E','S','X'], ['Z','A'], Operating, Active⟩),
  (['B','N','P','H'], ⟨['B','N','P','H'], ['U','S'], Operating, Active⟩),
  (['S','P','D','K'], ⟨['X','S','A','T'], ['S','E'], Segment, Active⟩),
  (['S','P','N','O'], ⟨['X','S','A','T'], ['S','E'], Segment, Active⟩),
  (['S','P','F','I'], ⟨['X','S','A','T'], ['S','E'], Segment, Active⟩),
  (['S','P','E','U'], ⟨['X','S','A','T'], ['S','E'], Segment, Active⟩),
  (['P','H','S','I'], ⟨['P','E','E','L'], ['G','B'], Segment, Active⟩),
  (['E','T','O','R'], ⟨['E','T','O','R'], ['C','Y'], Operating, Active⟩)]

theorem mics26_eq : mics26 = micChars26.map MicChars.entry := (rfl)

/-- The `iso_10383!` invocation (iso_10383.rs 96-2710): Rust identifier and constant. -/
def micTable : List (String × Mic) := List.flatten [
  mics0, mics1, mics2, mics3, mics4, mics5, mics6, mics7, mics8,
  mics9, mics10, mics11, mics12, mics13, mics14, mics15, mics16, mics17,
  mics18, mics19, mics20, mics21, mics22, mics23, mics24, mics25, mics26]

/-- The whole table with its strings spelt out. -/
def micChars : List (List Char × MicChars) := List.flatten [
  micChars0, micChars1, micChars2, micChars3, micChars4, micChars5, micChars6,
  micChars7, micChars8, micChars9, micChars10, micChars11, micChars12, micChars13,
  micChars14, micChars15, micChars16, micChars17, micChars18, micChars19, micChars20,
  micChars21, micChars22, micChars23, micChars24, micChars25, micChars26]

theorem micTable_eq : micTable = micChars.map MicChars.entry := by
  simp only [micTable, micChars, List.map_flatten, List.map_cons, List.map_nil,
    mics0_eq, mics1_eq, mics2_eq, mics3_eq, mics4_eq, mics5_eq, mics6_eq,
    mics7_eq, mics8_eq, mics9_eq, mics10_eq, mics11_eq, mics12_eq, mics13_eq,
    mics14_eq, mics15_eq, mics16_eq, mics17_eq, mics18_eq, mics19_eq, mics20_eq,
    mics21_eq, mics22_eq, mics23_eq, mics24_eq, mics25_eq, mics26_eq]

end Verif.Iso
