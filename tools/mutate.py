#!/usr/bin/env python3
"""Seed one bug in a scratch copy of lean/, rebuild, and log which theorems fail.
usage: mutate.py FILE.json   where the file holds a list of
  {"file": "Verif/..", "definition": "..", "edit": "..", "old": "..", "new": "..", "claim": "C05", "count": 1}
"""
import json, subprocess, sys, pathlib, re, os
src = pathlib.Path('/verif/lean'); dst = pathlib.Path('/tmp/mut/lean')
def names(f):
    out, ns = [], []
    for i, line in enumerate(f.read_text().splitlines(), 1):
        m = re.match(r'(?:@\[.*\] )?(?:private |protected |noncomputable )*(?:theorem|lemma|def|example|instance|inductive|structure)\s*(\S*)', line)
        if m: out.append((i, m.group(1) or 'example', line.split()[0]))
    return out
def run(m):
    p = dst / m['file']; s = orig = p.read_text()
    assert s.count(m['old']) >= 1, ('not found', m['old'])
    s = s.replace(m['old'], m['new'], m.get('count', 1)); p.write_text(s)
    r = subprocess.run(['lake', 'build'], cwd=dst, capture_output=True, text=True)
    out = r.stdout + r.stderr
    failed = []
    for mm in re.finditer(r'error: (Verif/\S+\.lean):(\d+):\d+', out):
        f, ln = mm.group(1), int(mm.group(2))
        cur = None
        for i, n, k in names(dst / f):
            if i <= ln: cur = n
        if cur and f + ':' + cur not in failed: failed.append(f + ':' + cur)
    # modules importing a failed module are not built: property theorems there are not accepted
    lost = []
    built_fail = set(re.findall(r'^- (Verif\S*)', out, re.M))
    deps = {}
    for f in (dst/'Verif').rglob('*.lean'):
        mod = str(f.relative_to(dst))[:-5].replace('/', '.')
        deps[mod] = (f, set(re.findall(r'^import (Verif\S*)', f.read_text(), re.M)))
    bad = set(built_fail)
    ch = True
    while ch:
        ch = False
        for mod, (f, ds) in deps.items():
            if mod not in bad and ds & bad: bad.add(mod); ch = True
    for mod in sorted(bad):
        if mod in deps:
            for i, n, k in names(deps[mod][0]):
                if re.match(r'C\d\d+_', n) and mod not in built_fail: lost.append(n)
    p.write_text(orig)
    return r.returncode, failed, lost, out
subprocess.run(['rm', '-rf', str(dst)]); dst.parent.mkdir(exist_ok=True)
subprocess.run(['cp', '-a', str(src), str(dst)], check=True)
for m in json.load(open(sys.argv[1])):
    rc, failed, lost, out = run(m)
    rec = {"definition": m['definition'], "edit": m['edit'], "claim": m['claim'],
           "caught": rc != 0, "theorems_failed": failed, "theorems_not_rechecked_because_they_depend_on_failed": lost,
           "theorems_tightened": m.get('tightened', [])}
    open('/verif/seeded/LOG.jsonl', 'a').write(json.dumps(rec) + '\n')
    print(('CAUGHT ' if rc else 'SURVIVED ') + m['definition'] + ' | ' + m['edit'], failed[:4], len(lost))
