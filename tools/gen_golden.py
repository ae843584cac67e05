#!/usr/bin/env python3
"""Writes lean/Verif/Lemmas/GoldenData.lean: the recorded key sets and outputs in /repo as byte lists."""
import os
R = '/repo/'
out = ['''import Verif.Lemmas.ExampleDisk
/-
Key sets and outputs recorded in /repo by the Python, Java and C++ programs (written by tools/gen_golden.py).
-/
namespace Verif.Golden
open Verif
''']

def lst(b):
    lines, cur = [], ''
    for i, x in enumerate(b):
        t = str(x) + (', ' if i + 1 < len(b) else '')
        if len(cur) + len(t) > 100:
            lines.append(cur.rstrip()); cur = ''
        cur += t
    lines.append(cur)
    return '[' + '\n   '.join(lines) + ']'

def data(name, path):
    b = open(R + path, 'rb').read()
    out.append('/-- /repo/%s -/\ndef %s : Bytes :=\n  %s\n' % (path, name, lst(b)))

SETS = [('py', 'python/testdata')]
NAMES = {'aes': 'Aes', 'hmac': 'Hmac', 'dsa': 'Dsa'}
for p, base in SETS:
    for d, n in NAMES.items():
        for f, s in [('meta', 'Meta'), ('1', '1'), ('2', '2'), ('1.out', 'Out1'), ('2.out', 'Out2')]:
            if os.path.exists(R + base + '/' + d + '/' + f):
                data(p + n + s, base + '/' + d + '/' + f)
        out.append('/-- /repo/%s/%s -/\ndef %s : Dir := Ex.dir2 %sMeta %s1 %s2\n' % ((base, d) + (p + n,) * 4))
out.append('/-- the message of all recorded outputs -/\ndef msg : Bytes := bstr "This is some test data"\n')
out.append('end Verif.Golden')
open('/verif/lean/Verif/Lemmas/GoldenData.lean', 'w').write('\n'.join(out) + '\n')

HEAD = '''import Verif.Lemmas.GoldenData
import Verif.Model.Aes
/-
The model run by the kernel on the outputs recorded in /repo/python/testdata (written by tools/gen_golden.py).  These
are tests of the model against what the real program did, not proofs of properties.  More, RSA
among them, in tools/golden.lean.txt.
-/
namespace Verif.Golden
open Verif

'''
CRYPT = '''/-- load a set and decrypt two texts -/
def crypt (d : Dir) (a b : Bytes) : Py (Bytes × Bytes) := do
  let c ← Czar.init realPrims .crypter (FileReader d)
  return (← c.Decrypt realPrims a (some Base64WSDecode), ← c.Decrypt realPrims b (some Base64WSDecode))

'''
VERIFY = '''/-- load a set and verify two signatures of the message, and one of another message -/
def verify (d : Dir) (a b : Bytes) : Py (List Bool) := do
  let c ← Czar.init realPrims .verifier (FileReader d)
  [(msg, a), (msg, b), (msg ++ [46], a)].mapM fun p => c.Verify realPrims p.1 p.2 (some Base64WSDecode)

'''
SIGN = '''/-- sign the message anew: HMAC signatures do not depend on chance -/
def sign (d : Dir) : Py Bytes := do
  let c ← Czar.init realPrims .signer (FileReader d)
  c.Sign realPrims Ex.rnd msg (some Base64WSEncode)

'''
K = ' := by decide +kernel\n'
open('/verif/lean/Verif/Props/Golden.lean', 'w').write(HEAD + CRYPT + VERIFY + SIGN +
    'example : crypt pyAes pyAesOut1 pyAesOut2 = .ok (msg, msg)' + K +
    'example : verify pyHmac pyHmacOut1 pyHmacOut2 = .ok [true, true, false]' + K +
    'example : sign pyHmac = .ok pyHmacOut2' + K +
    'example : verify pyDsa pyDsaOut1 pyDsaOut2 = .ok [true, true, false]' + K + '\nend Verif.Golden\n')
