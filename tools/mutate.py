#!/usr/bin/env python3
"""Builds the Lean project with one model definition changed, in a scratch copy, and reports what fails.

usage: mutate.py MUTANTS.json [id ...]
MUTANTS.json is a list of {id, file, def, old, new, edit, claim}; `more` lists further [old, new] or
[file, old, new] replacements.  Results go to /tmp/mut/results.jsonl.
"""
import json, os, re, shutil, subprocess, sys
SRC = os.environ.get('MUT_SRC', '/verif/lean')
DST = '/tmp/mut/lean'

def sync():
    os.makedirs('/tmp/mut', exist_ok=True)
    if os.path.exists(DST):
        shutil.rmtree(DST)
    shutil.copytree(SRC, DST, symlinks=True, copy_function=shutil.copy2)

def decl_at(path, line):
    lines = open(path).read().split('\n')
    for i in range(min(line, len(lines)) - 1, -1, -1):
        m = re.match(r'\s*(?:private |protected |noncomputable |@\[[^]]*\] )*(theorem|def|example|instance|lemma|abbrev)\s*(\S*)', lines[i])
        if m:
            return m.group(2) if m.group(1) not in ('example', 'instance') else '%s@%d' % (m.group(1), i + 1)
    return '?'

def run(m):
    sync()
    for e in [[m['old'], m['new']]] + m.get('more', []):
        f = os.path.join(DST, m['file'] if len(e) == 2 else e[0])
        old, new = e[-2:]
        s = open(f).read()
        if s.count(old) != 1:
            return {'id': m['id'], 'error': 'pattern occurs %d times: %s' % (s.count(old), old)}
        open(f, 'w').write(s.replace(old, new))
    p = subprocess.run(['nice', '-n', '10', 'lake', 'build'], cwd=DST, capture_output=True, text=True)
    out = p.stdout + p.stderr
    failed = []
    for g in re.finditer(r'^error: (Verif/\S+\.lean):(\d+):\d+', out, re.M):
        d = decl_at(os.path.join(DST, g.group(1)), int(g.group(2)))
        x = g.group(1).split('/', 1)[1] + ':' + d
        if x not in failed:
            failed.append(x)
    open('/tmp/mut/last.log', 'w').write(out)
    if any(x.startswith('Model/') for x in failed):
        return {'id': m['id'], 'error': 'the changed model does not compile', 'failed': failed}
    return {'id': m['id'], 'killed': p.returncode != 0, 'failed': failed}

if __name__ == '__main__':
    muts = json.load(open(sys.argv[1]))
    want = set(sys.argv[2:])
    for m in muts:
        if want and m['id'] not in want:
            continue
        r = run(m)
        print(json.dumps(r), flush=True)
        open('/tmp/mut/results.jsonl', 'a').write(json.dumps(r) + '\n')
