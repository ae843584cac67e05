#!/usr/bin/env python3
"""Writes MANIFEST.json from the theorem names in lean/Verif/Props (prefix Cnn_) and the notes below."""
import glob, json, os, re
ROOT = os.path.dirname(os.path.dirname(os.path.abspath(__file__)))
ids = [json.loads(l)['id'] for l in open(os.path.join(ROOT, 'properties.jsonl'))]
NOTES = json.load(open(os.path.join(ROOT, 'tools', 'notes.json')))
thms = {i: [] for i in ids}
for f in sorted(glob.glob(os.path.join(ROOT, 'lean/Verif/Props/*.lean'))):
    src = open(f).read()
    ns = re.search(r'^namespace (\S+)', src, re.M).group(1)
    for m in re.finditer(r'^theorem ((C\d\d+)_\S+)', src, re.M):
        if m.group(2) in thms:
            thms[m.group(2)].append(ns + '.' + m.group(1))
claims = []
for i in ids:
    if not thms[i] and i not in NOTES:
        continue
    n = NOTES.get(i, {})
    status = n.get('status') or ('partial' if any(t.endswith('_partial') for t in thms[i]) else 'proved')
    claims.append({'property': i, 'status': status, 'theorems': thms[i], 'note': n.get('note', '')})
json.dump({'claims': claims}, open(os.path.join(ROOT, 'MANIFEST.json'), 'w'), indent=1)
print(len(claims), 'claims', sum(len(c['theorems']) for c in claims), 'theorems; missing:',
      [i for i in ids if i not in {c['property'] for c in claims}])
