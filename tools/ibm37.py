#!/usr/bin/env python3
"""Generate lean/Verif/Model/Ibm37Table.lean from /repo/modules/from/IBM-37.txt and /repo/modules/to/IBM-37.txt."""
import re, os
def load(p):
    out = []
    for ln in open('/repo/modules/%s/IBM-37.txt' % p):
        ln = ln.split('#')[0].split()
        if not ln: continue
        assert len(ln) == 2 and all(re.fullmatch('([0-9A-Fa-f]{2})+', x) for x in ln), ln
        out.append(ln)
    return out
F = [(int(a, 16), int(b[2:], 16)) for a, b in load('from') if (len(a) == 2 and b[:2] == '01' and b[2:4] != '00') or 1 / 0]
T = [(int(a[2:], 16), int(b, 16)) for a, b in load('to') if (len(b) == 2 and a[:2] == '01' and a[2:4] != '00') or 1 / 0]
def lst(ps):
    items = ['(0x%X, 0x%X)' % p for p in ps]
    return ',\n  '.join(', '.join(items[i:i + 8]) for i in range(0, len(items), 8))
o = ['/-', 'Generated by tools/ibm37.py from the rule files IBM-37.txt of /repo/modules/from and /repo/modules/to.', '-/', 'namespace Verif.Ibm37', '',
     'set_option maxRecDepth 100000', '',
     '/-- The lines of /repo/modules/from/IBM-37.txt in their order: byte, character. -/', 'def reads : List (Nat × Nat) := [', '  ' + lst(F) + ']', '',
     '/-- The lines of /repo/modules/to/IBM-37.txt in their order: character, byte. -/', 'def writes : List (Nat × Nat) := [', '  ' + lst(T) + ']', '',
     'end Verif.Ibm37', '']
open(os.path.join(os.path.dirname(__file__), '../lean/Verif/Model/Ibm37Table.lean'), 'w').write('\n'.join(o))
print(len(F), len(T))
