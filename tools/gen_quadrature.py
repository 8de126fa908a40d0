#!/usr/bin/env python3
"""Transcribe the tanh-sinh nodes and weights of RustQuant_math/src/integration.rs into Lean.

Every decimal literal becomes a pair (m, e) standing for m / 10^e."""
import re
SRC = '/repo/crates/RustQuant_math/src/integration.rs'
OUT = '/verif/lean/Verif/Math/QuadratureTable.lean'
text = open(SRC).read()

def table(name):
    i = text.index('pub const ' + name)
    j = text.index('= [', i) + 3
    k = text.index('];', j)
    lines = (text.count('\n', 0, i) + 1, text.count('\n', 0, k) + 1)
    return [x.strip().replace('_', '') for x in text[j:k].split(',') if x.strip()], lines

def pair(lit):
    m = re.fullmatch(r'(-?)(\d+)\.(\d+)(?:e-(\d+))?', lit)
    sign, a, b, e = m.groups()
    mant = int(a + b) * (-1 if sign else 1)
    return f'({mant}, {len(b) + int(e or 0)})'

def emit(name, doc, lits):
    out = [f'/-- {doc} -/', f'def {name} : List (ℤ × ℕ) := [']
    out.append(',\n'.join('  ' + pair(x) for x in lits) + ']')
    return '\n'.join(out)

a, la = table('ABSCISSAE')
w, lw = table('WEIGHTS')
with open(OUT, 'w') as f:
    f.write(f'''import Mathlib.Data.Nat.Notation
import Mathlib.Data.Int.Notation

/-!
# Nodes and weights of the tanh-sinh rule

Generated by `tools/gen_quadrature.py` from `crates/RustQuant_math/src/integration.rs`. A pair `(m, e)` is the decimal
literal `m / 10^e`, taken exactly (the rounding of the literal to `f64` is not modelled).
-/

namespace Verif.Math.Quadrature

{emit('abscissae', f'integration.rs {la[0]}-{la[1]}: `ABSCISSAE`.', a)}

{emit('weights', f'integration.rs {lw[0]}-{lw[1]}: `WEIGHTS`.', w)}

end Verif.Math.Quadrature
''')
