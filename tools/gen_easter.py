#!/usr/bin/env python3
"""Copy the EASTER_MONDAYS table of RustQuant_time/src/constants.rs into Lean."""
import re, pathlib
t = pathlib.Path('/repo/crates/RustQuant_time/src/constants.rs').read_text().split('\n')
def rows(a, b):
    out = []
    for l in t[a-1:b]:
        l = re.sub(r'//.*', '', l)
        out += [int(x) for x in re.findall(r'\d+', l)]
    return out
w = rows(46, 77); o = rows(79, 110)
assert len(w) == len(o) == 299, (len(w), len(o))
def fmt(xs):
    return '[' + ',\n   '.join(', '.join(map(str, xs[i:i+20])) for i in range(0, 299, 20)) + ']'
pathlib.Path('/verif/lean/Verif/Time/EasterTable.lean').write_text(f'''/-! Generated by `tools/gen_easter.py` from `crates/RustQuant_time/src/constants.rs`. -/

namespace Verif.Time

/-- `constants.rs:44-77`, `EASTER_MONDAYS[0]`: western Easter Mondays of 1901..=2199 as days of the year. -/
def easterWestern : List Nat :=
  {fmt(w)}

/-- `constants.rs:79-111`, `EASTER_MONDAYS[1]`: orthodox Easter Mondays of 1901..=2199 as days of the year. -/
def easterOrthodox : List Nat :=
  {fmt(o)}

end Verif.Time
''')
