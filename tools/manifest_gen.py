#!/usr/bin/env python3
"""Build MANIFEST.json and lean/Verif/Audit.lean from tools/claims.txt.

claims.txt: one block per property,
    C01 proved Thm1 Thm2 ...
    | note text
Checks that every theorem named exists in the Lean sources.
"""
import json, re, glob, os
root = os.path.dirname(os.path.dirname(os.path.abspath(__file__)))
names = {}
for f in glob.glob(root + '/lean/Verif/Props/*.lean'):
    ns = []
    for line in open(f):
        m = re.match(r'namespace (\S+)', line)
        if m: ns.append(m.group(1))
        m = re.match(r'end (\S+)', line)
        if m and ns: ns.pop()
        m = re.match(r'(?:private )?theorem (\S+)', line)
        if m: names.setdefault(m.group(1), '.'.join(ns) + '.' + m.group(1))
claims = []
for line in open(root + '/tools/claims.txt'):
    line = line.rstrip('\n')
    if not line.strip() or line.startswith('#'): continue
    if line.startswith('|'):
        claims[-1]['note'] = (claims[-1]['note'] + ' ' + line[1:].strip()).strip()
        continue
    p = line.split()
    ths = []
    for t in p[2:]:
        if t not in names: raise SystemExit('no theorem ' + t)
        ths.append(names[t])
    claims.append({'property': p[0], 'status': p[1], 'theorems': ths, 'note': ''})
ids = {json.loads(l)['id'] for l in open(root + '/properties.jsonl')}
missing = sorted(ids - {c['property'] for c in claims})
if missing: print('without claim:', ' '.join(missing))
for c in claims:
    assert c['property'] in ids, c
json.dump({'claims': claims}, open(root + '/MANIFEST.json', 'w'), indent=1)
open(root + '/MANIFEST.json', 'a').write('\n')
used = [t for c in claims for t in c['theorems']]
allp = sorted(v for k, v in names.items() if re.match(r'C\d\d', k))
extra = [t for t in allp if t not in used]
if extra: print('not in manifest:', ' '.join(extra))
mods = sorted(os.path.relpath(f, root + '/lean')[:-5].replace('/', '.') for f in glob.glob(root + '/lean/Verif/**/*.lean', recursive=True) if not f.endswith('Audit.lean'))
props = [m for m in mods if '.Props.' in m]
with open(root + '/lean/Verif/Audit.lean', 'w') as o:
    for m in props: o.write('import %s\n' % m)
    o.write('\n/-! The axioms every property theorem depends on (generated by tools/manifest_gen.py). -/\n\n')
    for t in sorted(set(used) | set(allp)): o.write('#print axioms %s\n' % t)
with open(root + '/lean/Verif.lean', 'w') as o:
    for m in mods: o.write('import %s\n' % m)
    o.write('import Verif.Audit\n')
print(len(claims), 'claims', len(set(used)), 'theorems')
