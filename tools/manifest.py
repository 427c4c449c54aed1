#!/usr/bin/env python3
"""Regenerate MANIFEST.json and lean/Verif/Audit.lean from the property modules.

Property theorems are those named Cxx_... in lean/Verif/Props/*.lean.  Status and note per
property come from tools/status.json.
"""
import json, re, glob, os
root = os.path.dirname(os.path.dirname(os.path.abspath(__file__)))
props = [json.loads(l) for l in open(root + '/properties.jsonl') if l.strip()]
status = json.load(open(root + '/tools/status.json'))
thms = {}
mods = []
for f in sorted(glob.glob(root + '/lean/Verif/Props/*.lean')):
    mods.append(os.path.basename(f)[:-5])
    ns = []
    for line in open(f):
        m = re.match(r'namespace (\S+)', line)
        if m:
            ns.append(m.group(1))
        m = re.match(r'end (\S+)', line)
        if m and ns and ns[-1] == m.group(1):
            ns.pop()
        m = re.match(r'theorem (C(\d\d+)_\w+)', line)
        if m:
            thms.setdefault('C' + m.group(2), []).append('.'.join(ns + [m.group(1)]))
claims = []
for p in props:
    i = p['id']
    st = status.get(i, {})
    claims.append({'property': i, 'status': st.get('status', 'partial' if any('_partial' in t or '_violated' in t for t in thms.get(i, [])) else 'proved') if i in thms or 'status' in st else 'partial',
                   'theorems': thms.get(i, []), 'note': st.get('note', '')})
json.dump({'claims': [c for c in claims if c['theorems'] or c['status'] == 'not_applicable']},
          open(root + '/MANIFEST.json', 'w'), indent=1, ensure_ascii=False)
with open(root + '/lean/Verif/Audit.lean', 'w') as o:
    for m in mods:
        o.write('import Verif.Props.%s\n' % m)
    o.write('/-\nGenerated by tools/manifest.py: prints the axioms of every property theorem.\n-/\n')
    for i in sorted(thms):
        for t in thms[i]:
            o.write('#print axioms %s\n' % t)
missing = [p['id'] for p in props if p['id'] not in thms]
print('theorems', sum(map(len, thms.values())), 'missing', missing)
