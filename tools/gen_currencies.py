#!/usr/bin/env python3
"""Transcribe the currency table of /repo into lean/Verif/Fx/CurrencyTable.lean."""
import re
src = open('/repo/crates/RustQuant_instruments/src/fx/currency.rs', encoding='utf-8').read().split('\n')
rx = re.compile(r'^    ([A-Z]{3}), "(.*?)", "(.*?)", "(.*?)", "(.*?)", (\d+), (\d+);$')
rows = []
first = last = None
for n, line in enumerate(src, 1):
    m = rx.match(line)
    if m:
        rows.append((n,) + m.groups())
        first = first or n
        last = n
assert last - first + 1 == len(rows), (first, last, len(rows))
out = f'''import Verif.Fx.Model

/-!
# The currency constants of crates/RustQuant_instruments/src/fx/currency.rs lines {first}-{last}

Generated by tools/gen_currencies.py: one line per line of the Rust table, in order.
-/

namespace Verif.Fx

/-- The `generate_currencies!` invocation (currency.rs 169-{last + 1}): Rust identifier and constant. -/
def currencyTable : List (String × Currency) := [
'''
esc = lambda s: s.replace('\\', '\\\\').replace('"', '\\"')
body = []
for n, ident, name, sym, alpha, num, minor, frac in rows:
    body.append(f'  ("{ident}", ⟨"{esc(name)}", "{esc(sym)}", ⟨"{alpha}", "{num}"⟩, {minor}, {frac}⟩)')
out += ',\n'.join(body) + ']\n\nend Verif.Fx\n'
open('/verif/lean/Verif/Fx/CurrencyTable.lean', 'w', encoding='utf-8').write(out)
print(len(rows), first, last)
