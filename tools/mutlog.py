#!/usr/bin/env python3
"""Turns results of mutate.py into lines of seeded/LOG.jsonl.

usage: mutlog.py MUTANTS.json RESULTS.jsonl DEPS.txt   (DEPS.txt is the output of deps.lean.txt)
`failed_declarations` are the declarations Lean reported; `theorems_failed` are the property theorems among them or
depending on them.  Lines for mutants already in the log are replaced.
"""
import json, sys
muts = {m['id']: m for m in json.load(open(sys.argv[1]))}
res = {}
for l in open(sys.argv[2]):
    r = json.loads(l); res[r['id']] = r
deps = {}
for l in open(sys.argv[3]):
    n, d = l.rstrip('\n').split('\t'); deps[n] = set(d.split(' '))
LOG = '/verif/seeded/LOG.jsonl'
try:
    log = {json.loads(l)['id']: json.loads(l) for l in open(LOG)}
except FileNotFoundError:
    log = {}
for i, r in res.items():
    if i not in muts or 'error' in r:
        if i in muts: print(i, r)
        continue
    m = muts[i]
    out = []
    names = [x.split(':', 1)[1] for x in r['failed'] + m.get('extra_failed', [])]
    for t, d in deps.items():
        if any(x.endswith('.' + n) for x in d for n in names):
            out.append(t.replace('Verif.Props.', ''))
    out.sort()
    if not any(t.startswith(m['claim'] + '_') for t in out):
        print(i, 'claim', m['claim'], 'not among', out[:5], len(out), r['failed'])
    old = log.get(i, {})
    log[i] = dict(id=i, definition=m['file'] + ': ' + m['def'], edit=m['edit'], old=m['old'], new=m['new'], claim=m['claim'],
                  killed=r['killed'], failed_declarations=r['failed'] + m.get('extra_failed', []), theorems_failed=out,
                  theorems_tightened=m.get('tightened', old.get('theorems_tightened', [])))
    if m.get('breaks'): log[i]['breaks'] = m['breaks']
    if m.get('note'): log[i]['note'] = m['note']
with open(LOG, 'w') as f:
    for i in sorted(log): f.write(json.dumps(log[i], ensure_ascii=False) + '\n')
