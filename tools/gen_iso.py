#!/usr/bin/env python3
"""Generate lean/Verif/Iso/CountryTable.lean and lean/Verif/Iso/MicTable.lean from the Rust sources."""
import re

def chars(s):
    return "[" + ",".join(f"'{c}'" for c in s) + "]"

def write(path, text):
    with open(path, "w", encoding="utf8") as f:
        f.write(text)

def countries():
    lines = open("/repo/crates/RustQuant_iso/src/iso_3166.rs", encoding="utf8").read().split("\n")
    arms, consts = [], []
    for no, l in enumerate(lines, 1):
        m = re.match(r'\s+"(.*)" => Some\((\w+)\),', l)
        if m:
            arms.append((no, m.group(1), m.group(2)))
        m = re.match(r'\s+(\w+): "(.*)", "(.*)", "(.*)",', l)
        if m:
            consts.append((no,) + m.groups())
    out = f"""import Verif.Iso.Model

/-!
# The country constants of crates/RustQuant_iso/src/iso_3166.rs

Generated by tools/gen_iso.py: one line per line of the Rust source, in order. `countryTable` is the `iso_3166!`
invocation (lines {consts[0][0]}-{consts[-1][0]}), `alpha2Arms` the arms of the `match` in `from_alpha_2` (lines
{arms[0][0]}-{arms[-1][0]}).
-/

namespace Verif.Iso

/-- The `iso_3166!` invocation (iso_3166.rs {consts[0][0]}-{consts[-1][0]}): Rust identifier and constant. -/
def countryTable : List (String × Country) := [
"""
    out += ",\n".join(f'  ("{n}", ⟨"{a}", "{b}", "{c}"⟩)' for _, n, a, b, c in consts) + "]\n\n"
    out += """/-- The same entries with their strings spelt out, for the checks. -/
def countryChars : List (List Char × CountryChars) := [
"""
    out += ",\n".join(f'  ({chars(n)}, ⟨{chars(a)}, {chars(b)}, {chars(c)}⟩)' for _, n, a, b, c in consts) + "]\n\n"
    out += "set_option maxRecDepth 4000 in\ntheorem countryTable_eq : countryTable = countryChars.map CountryChars.entry := (rfl)\n\n"
    out += f"""/-- The arms of `from_alpha_2` (iso_3166.rs {arms[0][0]}-{arms[-1][0]}): the literal matched and the identifier of the
constant returned. -/
def alpha2Arms : List (String × String) := [
"""
    out += ",\n".join(f'  ("{a}", "{n}")' for _, a, n in arms) + "]\n\n"
    out += """/-- The same arms with their strings spelt out. -/
def alpha2ArmChars : List (List Char × List Char) := [
"""
    out += ",\n".join(f'  ({chars(a)}, {chars(n)})' for _, a, n in arms) + "]\n\n"
    out += "set_option maxRecDepth 4000 in\ntheorem alpha2Arms_eq :\n    alpha2Arms = alpha2ArmChars.map fun a => (String.ofList a.1, String.ofList a.2) := (rfl)\n\nend Verif.Iso\n"
    write("/verif/lean/Verif/Iso/CountryTable.lean", out)

def mics():
    lines = open("/repo/crates/RustQuant_iso/src/iso_10383.rs", encoding="utf8").read().split("\n")
    rows = []
    for no, l in enumerate(lines, 1):
        m = re.match(r'\s+(\w+): "(\w*)",\s*"(\w*)",\s*(Operating|Segment),\s*(Active|Updated|Expired),', l)
        if m:
            rows.append((no,) + m.groups())
    start = next(i for i, l in enumerate(lines, 1) if l.startswith("iso_10383! {"))
    end = next(i for i, l in enumerate(lines, 1) if i > start and l.startswith("}"))
    assert len(rows) == end - start - 1
    out = f"""import Verif.Iso.Model

/-!
# The market identifier constants of crates/RustQuant_iso/src/iso_10383.rs lines {rows[0][0]}-{rows[-1][0]}

Generated by tools/gen_iso.py: one entry per line of the Rust table, in order, cut into lists of a hundred.
-/

namespace Verif.Iso

open OperatingOrSegment MicStatus

"""
    names = []
    for k in range(0, len(rows), 100):
        chunk = rows[k:k + 100]
        names.append(f"mics{k // 100}")
        out += f"/-- iso_10383.rs {chunk[0][0]}-{chunk[-1][0]}. -/\ndef mics{k // 100} : List (String × Mic) := [\n"
        out += ",\n".join(f'  ("{n}", ⟨"{o}", "{c}", {f}, {s}⟩)' for _, n, o, c, f, s in chunk) + "]\n\n"
        out += f"/-- The same entries with their strings spelt out. -/\ndef micChars{k // 100} : List (List Char × MicChars) := [\n"
        out += ",\n".join(f'  ({chars(n)}, ⟨{chars(o)}, {chars(c)}, {f}, {s}⟩)' for _, n, o, c, f, s in chunk) + "]\n\n"
        out += f"theorem mics{k // 100}_eq : mics{k // 100} = micChars{k // 100}.map MicChars.entry := (rfl)\n\n"
    out += f"""/-- The `iso_10383!` invocation (iso_10383.rs {rows[0][0]}-{rows[-1][0]}): Rust identifier and constant. -/
def micTable : List (String × Mic) := List.flatten [
  """ + ",\n  ".join(", ".join(names[i:i + 9]) for i in range(0, len(names), 9)) + "]\n\n"
    cn = [n.replace("mics", "micChars") for n in names]
    out += """/-- The whole table with its strings spelt out. -/
def micChars : List (List Char × MicChars) := List.flatten [
  """ + ",\n  ".join(", ".join(cn[i:i + 7]) for i in range(0, len(cn), 7)) + "]\n\n"
    out += "theorem micTable_eq : micTable = micChars.map MicChars.entry := by\n  simp only [micTable, micChars, List.map_flatten, List.map_cons, List.map_nil,\n    "
    out += ",\n    ".join(", ".join(n + "_eq" for n in names[i:i + 7]) for i in range(0, len(names), 7)) + "]\n\nend Verif.Iso\n"
    write("/verif/lean/Verif/Iso/MicTable.lean", out)

if __name__ == "__main__":
    countries()
    mics()
