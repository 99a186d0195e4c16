#!/usr/bin/env python3
"""Generate lean/Verif/Model/CcciiTable.lean from /repo/modules/from/CCCII.txt and /repo/modules/to/CCCII.txt."""
import os, re
def load(kind):
    for ln in open('/repo/modules/%s/CCCII.txt' % kind, encoding='utf8'):
        ln = ln.split('#')[0].split()
        if not ln: continue
        a, b = ln
        if kind == 'to': b, a = a, b
        assert re.fullmatch('[2-7][0-9A-F]{5}', a) and re.fullmatch('01[0-9A-F]{2,6}', b) and b[2:4] != '00', ln
        yield int(a, 16), int(b[2:], 16)
F = list(load('from')); T = [(b, a) for a, b in load('to')]
assert len({a for a, _ in F}) == len(F)
first = {}
for k, v in T: first.setdefault(k, v)
def runs(ps):
    ps, out = sorted(ps), []
    for k, v in ps:
        if out and out[-1][0] + len(out[-1][1]) == k and len(out[-1][1]) < 12: out[-1][1].append(v)
        else: out.append((k, [v]))
    return ['  (0x%X, 0x' % k + '_'.join('%06X' % v for v in vs) + ')' for k, vs in out]
o = ['import Verif.Spec.Charset', '/-', 'Generated by tools/cccii.py from the rule files CCCII.txt of /repo/modules/from and /repo/modules/to.', '-/',
     'namespace Verif.Cccii', 'open Verif.Spec', '', 'set_option maxRecDepth 100000', '',
     '/-- The 24-bit digits of a number, the first not 0, in front of `l`. -/', 'def digits24 : Nat → Nat → List Nat → List Nat', '  | 0, _, l => l',
     '  | k + 1, n, l => bif Nat.beq n 0 then l else digits24 k (n / 0x1000000) (n % 0x1000000 :: l)', '',
     '/-- Runs of up to 64 numbers below 0x1000000, written as the digits of one number. -/',
     'def wide24 (t : List (Nat × Nat)) : Chart := t.map fun r => (r.1, digits24 64 r.2 [])', '']
def parts(name, rs, doc):
    global o
    n = 3000
    ps = [rs[i:i + n] for i in range(0, len(rs), n)]
    for i, q in enumerate(ps): o += ['/-- Part of `%s`. -/' % name, 'def %s%d : Chart := wide24 [' % (name, i), ',\n'.join(q) + ']', '']
    o += [doc, 'def %s : Chart := ' % name + ' ++ ('.join('%s%d' % (name, i) for i in range(len(ps))) + ')' * (len(ps) - 1), '']
parts('reads', runs(F), '/-- The lines of /repo/modules/from/CCCII.txt: code, character.  No two lines have the same code, so their order does not matter; here they are\nsorted. -/')
parts('writes', runs(first.items()), '/-- The lines of /repo/modules/to/CCCII.txt: character, code; sorted.  Of several lines for one character only the first is kept, which is the one\nthat counts (C50). -/')
o += ['end Verif.Cccii', '']
open(os.path.join(os.path.dirname(os.path.abspath(__file__)), '../lean/Verif/Model/CcciiTable.lean'), 'w').write('\n'.join(o))
print(len(F), len(T), len(first), len(runs(F)), len(runs(first.items())), set(first) == {b for _, b in F}, sorted(set(T)) == sorted((b, a) for a, b in F))
