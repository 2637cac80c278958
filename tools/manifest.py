#!/usr/bin/env python3
"""Writes MANIFEST.json and lean/Verif.lean from the theorems present in lean/Verif/Props.

Every theorem named Cnn_... in lean/Verif/Props is listed under property Cnn.
STATUS gives status and note; properties without theorems are left out.
"""
import json, os, re, sys
root = os.path.dirname(os.path.dirname(os.path.abspath(__file__)))
notes = json.load(open(os.path.join(root, 'tools', 'status.json')))
thms = {}
base = os.path.join(root, 'lean', 'Verif')
for f in sorted(os.listdir(os.path.join(base, 'Props'))):
    s = open(os.path.join(base, 'Props', f)).read()
    for m in re.finditer(r'^theorem (C\d\d_\w+)', s, re.M):
        thms.setdefault(m.group(1)[:3], []).append('DDL.Props.' + m.group(1))
claims = []
for p in sorted(thms):
    st = notes.get(p)
    if st is None:
        sys.exit('no status for ' + p)
    claims.append({'property': p, 'status': st[0], 'theorems': thms[p], 'note': st[1]})
with open(os.path.join(root, 'MANIFEST.json'), 'w') as o:
    o.write('{"claims":[\n' + ',\n'.join(json.dumps(c) for c in claims) + '\n]}\n')
mods = ['Verif.Tests', 'Verif.TestsFloat']
for sub in ['Model', 'Spec', 'Proof', 'Props']:
    for f in sorted(os.listdir(os.path.join(base, sub))):
        if f.endswith('.lean'):
            mods.append('Verif.%s.%s' % (sub, f[:-5]))
with open(os.path.join(root, 'lean', 'Verif.lean'), 'w') as o:
    o.write(''.join('import %s\n' % m for m in mods))
# axioms of every property theorem, printed during the build
print(len(claims), 'claims', sum(len(c['theorems']) for c in claims), 'theorems')
