#!/usr/bin/env python3
"""Translate the `is_holiday_impl_*` functions of RustQuant_time/src/countries/*.rs to Lean, expression by expression.
Israel is translated by hand (it calls the `icu` crate)."""
import re, pathlib
src = pathlib.Path('/repo/crates/RustQuant_time/src/countries')
MONTHS = ['January','February','March','April','May','June','July','August','September','October','November','December']
WDS = ['Monday','Tuesday','Wednesday','Thursday','Friday','Saturday','Sunday']
TOK = re.compile(r'\s*(matches!|\|\||&&|\.\.=|==|!=|<=|>=|[A-Za-z_][A-Za-z_0-9]*(?:::[A-Za-z_][A-Za-z_0-9]*)*|\d+|[-+%()<>,.|&{};!=])')
def strip_comments(s):
    return re.sub(r'//[^\n]*', lambda m: ' ' * len(m.group(0)), s)
def tokenize(s):
    s = s.strip(); out = []; i = 0
    while i < len(s):
        m = TOK.match(s, i)
        if not m: raise SystemExit('tok: ' + s[i:i+50])
        out.append(m.group(1)); i = m.end()
        while i < len(s) and s[i].isspace(): i += 1
    return out
class P:
    def __init__(self, toks, env, ns): self.t = toks; self.i = 0; self.env = env; self.ns = ns
    def pk(self): return self.t[self.i] if self.i < len(self.t) else None
    def nx(self): self.i += 1; return self.t[self.i - 1]
    def ex(self, x):
        assert self.pk() == x, (x, self.t[max(0,self.i-5):self.i+10]); self.i += 1
    def orr(self):
        a = [self.andd()]
        while self.pk() == '||': self.nx(); a.append(self.andd())
        return a[0] if len(a) == 1 else '(' + '\n    || '.join(a) + ')' if len(a) > 6 else '(' + ' || '.join(a) + ')'
    def andd(self):
        a = [self.cmp()]
        while self.pk() == '&&': self.nx(); a.append(self.cmp())
        return a[0] if len(a) == 1 else '(' + ' && '.join(a) + ')'
    def cmp(self):
        a = self.arith()
        op = self.pk()
        if op in ('==', '!='):
            self.nx(); b = self.arith(); return f'({a} {op} {b})'
        if op in ('<=', '>=', '<', '>'):
            self.nx(); b = self.arith(); o = {'<=': '≤', '>=': '≥', '<': '<', '>': '>'}[op]
            return f'decide ({a} {o} {b})'
        return a
    def arith(self):
        a = self.mod()
        while self.pk() in ('+', '-'):
            op = self.nx(); b = self.mod(); a = f'({a} {op} {b})'
        return a
    def mod(self):
        a = self.prim()
        while self.pk() == '%':
            self.nx(); b = self.prim(); a = f'({a} % {b})'
        return a
    def prim(self):
        t = self.nx()
        if t == '(':
            # range or parenthesised
            if self.i + 1 < len(self.t) and self.t[self.i + 1] == '..=':
                lo = self.nx(); self.ex('..='); hi = self.nx(); self.ex(')'); self.ex('.'); assert self.nx() == 'contains'
                self.ex('('); self.ex('&'); v = self.env.get(self.pk(), self.pk()); self.nx(); self.ex(')')
                return f'(decide ({lo} ≤ {v}) && decide ({v} ≤ {hi}))'
            e = self.orr(); self.ex(')'); return e
        if t == 'matches!': return self.matches()
        if t == 'if':
            c = self.orr(); self.ex('{'); a = self.orr(); self.ex('}'); assert self.nx() == 'else'; self.ex('{'); b = self.orr(); self.ex('}')
            return f'(if {c} then {a} else {b})'
        if t.isdigit(): return t
        if t in ('true', 'false'): return t
        if t.startswith('Month::'): return str(MONTHS.index(t[7:]) + 1)
        if t.startswith('Weekday::'): return str(WDS.index(t[9:]))
        if t in MONTHS: return str(MONTHS.index(t) + 1)
        if self.pk() == '(':
            self.nx(); args = []
            while self.pk() != ')':
                args.append(self.pk() if self.pk() in ('date',) else None)
                if args[-1] == 'date': self.nx(); args[-1] = 'y m d wd'
                else: args[-1] = self.orr()
                if self.pk() == ',': self.nx()
            self.ex(')')
            return '(' + self.ns + t + ' ' + ' '.join(args) + ')' if t not in GLOBAL else '(' + t + ' ' + ' '.join(args) + ')'
        if self.pk() == '.':
            if self.t[self.i + 1] == 'number_from_monday':
                self.nx(); self.nx(); self.ex('('); self.ex(')')
                return f'({self.env.get(t, t)} + 1)'
        return self.env.get(t, t)
    def matches(self):
        self.ex('('); self.ex('(')
        vs = []
        while self.pk() != ')':
            vs.append(self.nx())
            if self.pk() == ',': self.nx()
        self.ex(')'); self.ex(',')
        vs = [self.env.get(v, v) for v in vs]
        alts = []
        while True:
            if self.pk() == '(':
                self.nx(); comps = []
                for v in vs:
                    comps.append(self.pat(v))
                    if self.pk() == ',': self.nx()
                self.ex(')')
                alts.append('(' + ' && '.join(c for c in comps if c) + ')')
            if self.pk() == '|': self.nx(); continue
            if self.pk() == ',': self.nx(); continue
            self.ex(')'); break
        return '(' + '\n    || '.join(alts) + ')'
    def pat(self, v):
        ps = [self.pat1(v)]
        while self.pk() == '|': self.nx(); ps.append(self.pat1(v))
        return ps[0] if len(ps) == 1 else '(' + ' || '.join(ps) + ')'
    def pat1(self, v):
        t = self.nx()
        if t == '_': return ''
        if t == '(':
            e = self.pat(v); self.ex(')'); return e
        if t.startswith('Month::'): t = t[7:]
        if t.startswith('Weekday::'): return f'{v} == {WDS.index(t[9:])}'
        if t in MONTHS: return f'{v} == {MONTHS.index(t)+1}'
        assert t.isdigit(), t
        if self.pk() == '..=':
            self.nx(); hi = self.nx(); return f'(decide ({t} ≤ {v}) && decide ({v} ≤ {hi}))'
        return f'{v} == {t}'
GLOBAL = {'is_christmas_day', 'is_christmas_eve', 'is_new_years_day', 'is_new_years_eve'}
def functions(text):
    """(name, params, body, first line, last line)"""
    out = []
    for m in re.finditer(r'^(?:pub\(crate\) |pub )?fn (\w+)\(([^)]*)\) -> bool \{', text, re.M):
        depth = 1; j = m.end()
        while depth:
            if text[j] == '{': depth += 1
            if text[j] == '}': depth -= 1
            j += 1
        out.append((m.group(1), m.group(2), text[m.end():j-1], text[:m.start()].count('\n') + 1, text[:j].count('\n') + 1))
    return out
def camel(s): return ''.join(w.capitalize() for w in s.split('_'))
out = ['''import Verif.Time.Date

/-!
# Country holiday rules

Generated by `tools/gen_countries.py` from `crates/RustQuant_time/src/countries/*.rs` (Israel by hand), one definition
per Rust function, expression by expression.  `y m d` are the civil date, `wd` the weekday (0 = Monday), `yd` the day
of the year and `em` the day of the year of Easter Monday.  `u16` subtractions such as `em - 3` are natural-number
subtractions here; `em` is at least 82 (`Verif.Time.easterMonday_range`), so they never underflow.
-/

namespace Verif.Time.Countries

/-- `utilities.rs:354-356`, `is_christmas_day`. -/
def is_christmas_day (_y : ℤ) (m d _wd : ℕ) : Bool := m == 12 && d == 25

/-- `utilities.rs:359-361`, `is_christmas_eve`. -/
def is_christmas_eve (_y : ℤ) (m d _wd : ℕ) : Bool := m == 12 && d == 24

/-- `utilities.rs:364-366`, `is_new_years_day`. -/
def is_new_years_day (_y : ℤ) (m d _wd : ℕ) : Bool := m == 1 && d == 1

/-- `utilities.rs:369-372`, `is_new_years_eve`. -/
def is_new_years_eve (_y : ℤ) (m d wd : ℕ) : Bool := (d == 31 || (d == 30 && wd == 4)) && m == 12
''']
names = []
for f in sorted(src.glob('*.rs')):
    if f.stem in ('mod', 'israel'): continue
    text = f.read_text()
    cut = text.find('#[cfg(test)]')
    t = strip_comments(text if cut < 0 else text[:cut])
    fs = functions(t)
    main = [x for x in fs if x[0].startswith('is_holiday_impl_')]
    if not main: print('no main in', f); continue
    assert len(main) == 1
    local = {x[0] for x in fs}
    saved = set(GLOBAL); GLOBAL -= local
    order = [x for x in fs if x is not main[0]] + main
    ns = camel(f.stem) + '.'
    for name, params, body, l0, l1 in order:
        body = re.sub(r'use Month::\{?[^;]*;', '', body).strip()
        env = {'year': 'y', 'month': 'm', 'day': 'd', 'w': 'wd'}
        if name == 'is_kings_day':
            assert 'd == 27 && wd.number_from_monday() != 7' in body and 'd == 26 && wd.number_from_monday() == 6' in body and 'm == Month::April && (c1 || c2)' in body
            out.append(f'/-- `countries/{f.name}:{l0}-{l1}`, `{name}`. -/\ndef {ns}{name} (_y : ℤ) (m d wd : ℕ) : Bool :=\n  m == 4 && ((d == 27 && (wd + 1) != 7) || (d == 26 && (wd + 1) == 6))\n')
            continue
        body = re.sub(r'let \([^)]*\) = unpack_date\(date, (true|false)\);', '', body).strip()
        m = re.match(r'^if\b(.*)\{\s*return true;\s*\}\s*false$', body, re.S)
        expr = m.group(1).strip() if m else body
        p = P(tokenize(expr), env, ns)
        e = p.orr()
        assert p.i == len(p.t), (name, p.t[p.i:p.i+20])
        if name.startswith('is_holiday_impl_'):
            lname = camel(f.stem) + '.isHoliday'; names.append(camel(f.stem))
            sig = [('y', 'ℤ')] + [(v, 'ℕ') for v in ('m', 'd', 'wd', 'yd', 'em')]
            ps = ' '.join(f'({v if re.search(rf"(?<![A-Za-z_]){v}(?![A-Za-z_])", e) else "_" + v} : {ty})' for v, ty in sig)
        else:
            lname = ns + name
            pl = []
            for q in params.split(','):
                v, ty = [z.strip() for z in q.split(':', 1)]
                if ty == 'Date': pl += [('y', 'ℤ'), ('m', 'ℕ'), ('d', 'ℕ'), ('wd', 'ℕ')]
                else: pl.append((env.get(v, v), {'i32': 'ℤ', 'u8': 'ℕ', 'u16': 'ℕ', 'Month': 'ℕ', 'Weekday': 'ℕ', 'bool': 'Bool'}[ty]))
            ps = ' '.join(f'({v if re.search(rf"(?<![A-Za-z_]){v}(?![A-Za-z_])", e) else "_" + v} : {ty})' for v, ty in pl)
        out.append(f'/-- `countries/{f.name}:{l0}-{l1}`, `{name}`. -/\ndef {lname} {ps} : Bool :=\n  {e}\n')
    GLOBAL |= saved
out.append('''/-- What `icu` answers for an ISO date: (is the Hebrew year a leap year, ordinal of the month, day of the month).  The
`icu` crate is not part of the repository; the model is parametric in it. -/
abbrev Hebrew := ℤ → ℕ → ℕ → Bool × ℕ × ℕ

/-- `countries/israel.rs:18-35`, `JEWISH_HOLIDAYS`. -/
def Israel.JEWISH_HOLIDAYS : List (ℕ × ℕ) :=
  [(12, 29), (1, 1), (1, 2), (1, 9), (1, 10), (1, 14), (1, 15), (1, 22), (1, 23), (6, 14), (7, 14), (7, 15), (7, 20),
   (7, 21), (9, 5), (9, 6)]

/-- `countries/israel.rs:41-75`, `is_holiday_impl_israel`. -/
def Israel.isHoliday (heb : Hebrew) (y : ℤ) (m d wd _yd _em : ℕ) : Bool :=
  let h := heb y m d
  let hm := if h.1 && decide (h.2.1 > 7) then h.2.1 - 1 else h.2.1
  let hd := h.2.2
  let independence := hm == 8 &&
    ((decide (3 ≤ hd) && decide (hd ≤ 4) && wd == 3) || (decide (2 ≤ hd) && decide (hd ≤ 3) && wd == 2)
      || (hd == 5 && wd == 0) || (hd == 6 && wd == 1) || (hd == 5 && wd == 2) || (hd == 4 && wd == 1))
  let tisha := hm == 11 && ((hd == 10 && wd == 6) || (hd == 9 && wd == 5) || hd == 9)
  Israel.JEWISH_HOLIDAYS.contains (hm, hd) || independence || tisha

end Verif.Time.Countries
''')
pathlib.Path('/verif/lean/Verif/Time/Countries.lean').write_text('\n'.join(out))
print(names)
