#!/usr/bin/env python3
"""Like mutate.py, but without lake: compiles the edited module and then the modules that depend on it, one at a time, in a copy of the
sources that shares the compiled files of /verif/lean. usage: mutate_light.py FILE.json (same format as for mutate.py)"""
import json, subprocess, sys, pathlib, re, os
src = pathlib.Path('/verif/lean'); dst = pathlib.Path('/tmp/mutl/lean'); lib = pathlib.Path('/tmp/mutl/lib')
blib = src / '.lake/build/lib/lean'
def names(f):
    out = []
    for i, line in enumerate(f.read_text().splitlines(), 1):
        m = re.match(r'(?:@\[.*\] )?(?:private |protected |noncomputable )*(?:theorem|lemma|def|example|instance|inductive|structure)\s*(\S*)', line)
        if m: out.append((i, m.group(1) or 'example'))
    return out
subprocess.run(['rm', '-rf', '/tmp/mutl']); lib.mkdir(parents=True); dst.mkdir(parents=True)
subprocess.run(['cp', '-a', str(src / 'Verif'), str(dst / 'Verif')], check=True)
subprocess.run(['cp', '-as', str(blib / 'Verif'), str(lib / 'Verif')], check=True)
env = dict(os.environ)
lp = subprocess.run(['lake', 'env', 'printenv', 'LEAN_PATH'], cwd=src, capture_output=True, text=True).stdout.strip()
env['LEAN_PATH'] = ':'.join([str(lib)] + [x for x in lp.split(':') if pathlib.Path(x).resolve() != blib.resolve()])
deps = {}
for f in (dst / 'Verif').rglob('*.lean'):
    mod = str(f.relative_to(dst))[:-5].replace('/', '.')
    deps[mod] = set(re.findall(r'^import (Verif\S*)', f.read_text(), re.M))
def affected(root):
    seen, order = {root}, [root]
    ch = True
    while ch:
        ch = False
        for m in sorted(deps):
            if m not in seen and deps[m] & seen: seen.add(m); ch = True
    rest = seen - {root}
    while rest:
        for m in sorted(rest):
            if not (deps[m] & rest): order.append(m); rest.discard(m); break
    return order
def path(mod): return dst / (mod.replace('.', '/') + '.lean')
def out(mod, ext): return lib / (mod.replace('.', '/') + ext)
def compile(mod):
    o = out(mod, '.olean')
    if o.exists() or o.is_symlink(): o.unlink()
    r = subprocess.run(['lean', str(path(mod).relative_to(dst)), '-o', str(o)], cwd=dst, env=env, capture_output=True, text=True)
    return r.returncode, r.stdout + r.stderr
def restore(mod):
    o = out(mod, '.olean')
    if o.exists() or o.is_symlink(): o.unlink()
    o.symlink_to(blib / (mod.replace('.', '/') + '.olean'))
for m in json.load(open(sys.argv[1])):
    p = dst / m['file']; orig = p.read_text()
    assert orig.count(m['old']) >= 1, ('not found', m['old'])
    p.write_text(orig.replace(m['old'], m['new'], m.get('count', 1)))
    root = m['file'][:-5].replace('/', '.')
    failed, lost, bad, done = [], [], set(), []
    for mod in affected(root):
        if deps[mod] & bad:
            bad.add(mod); lost += [n for _, n in names(path(mod)) if re.match(r'C\d\d+_', n)]; continue
        done.append(mod)
        rc, text = compile(mod)
        if rc != 0:
            bad.add(mod)
            for mm in re.finditer(r'(Verif/\S+\.lean):(\d+):\d+: error', text):
                cur = None
                for i, n in names(path(mod)):
                    if i <= int(mm.group(2)): cur = n
                if cur and mm.group(1) + ':' + cur not in failed: failed.append(mm.group(1) + ':' + cur)
    p.write_text(orig)
    for mod in done: restore(mod)
    rec = {"definition": m['definition'], "edit": m['edit'], "claim": m['claim'], "caught": bool(bad), "theorems_failed": failed,
           "theorems_not_rechecked_because_they_depend_on_failed": lost, "theorems_tightened": m.get('tightened', [])}
    open('/verif/seeded/LOG.jsonl', 'a').write(json.dumps(rec) + '\n')
    print(('CAUGHT ' if bad else 'SURVIVED ') + m['definition'] + ' | ' + m['edit'], failed[:4], len(lost), flush=True)
