#!/usr/bin/env python3
"""Write MANIFEST.json from the theorem names in lean/Verif (theorems are named Cxx_...)."""
import json, re, pathlib
root = pathlib.Path('/verif')
notes = json.load(open(root/'tools'/'notes.json'))
props = [json.loads(l)['id'] for l in open(root/'properties.jsonl')]
thms = {p: [] for p in props}
for f in sorted((root/'lean'/'Verif').rglob('*.lean')):
    ns = []
    for line in f.read_text().splitlines():
        m = re.match(r'namespace (\S+)', line)
        if m: ns.append(m.group(1)); continue
        m = re.match(r'end (\S+)', line)
        if m and ns and ns[-1] == m.group(1): ns.pop(); continue
        m = re.match(r'(?:protected )?theorem (C\d\d+)_(\S+)', line)
        if m:
            name = '.'.join(ns + [m.group(1) + '_' + m.group(2)])
            if m.group(1) not in thms: raise SystemExit('unknown property ' + name)
            thms[m.group(1)].append(name)
claims = []
for p in props:
    n = notes.get(p, {})
    status = n.get('status') or ('proved' if thms[p] else None)
    if status is None: continue
    claims.append({"property": p, "status": status, "theorems": thms[p], "note": n.get('note', '')})
json.dump({"claims": claims}, open(root/'MANIFEST.json', 'w'), indent=1, ensure_ascii=False)
print(len(claims), 'claims', sum(len(c['theorems']) for c in claims), 'theorems; missing', [p for p in props if p not in [c['property'] for c in claims]])
