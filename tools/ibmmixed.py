#!/usr/bin/env python3
"""Generate lean/Verif/Model/IbmMixedTable.lean from the rule files IBM-930/933/935/937/939.txt of /repo/modules/from and /repo/modules/to."""
import os, re
PAGES = ['930', '933', '935', '937', '939']
def load(kind, t):
    for ln in open('/repo/modules/%s/IBM-%s.txt' % (kind, t), encoding='utf8'):
        ln = ln.split('#')[0].split()
        if not ln: continue
        a, b = ln
        if kind == 'from':
            assert (b[0] == '?') == (len(a) == 2), ln
            b = b.lstrip('?')
        else:
            assert b[0] == '?', ln
            a, b = b[1:], a
        assert re.fullmatch('([0-9A-F]{2}){1,2}', a) and re.fullmatch('01([0-9A-F]{2}){1,2}', b) and b[2:4] != '00' and a[:2] != '00', ln
        yield int(a, 16), int(b[2:], 16)
def runs(ps):
    out = []
    for k, v in sorted(ps):
        if out and out[-1][0] + len(out[-1][1]) == k and len(out[-1][1]) < 12: out[-1][1].append(v)
        else: out.append((k, [v]))
    return ['  (0x%X, 0x' % k + '_'.join('%04X' % v for v in vs) + ')' for k, vs in out]
o = ['import Verif.Spec.Charset', '/-', 'Generated by tools/ibmmixed.py from rule files of /repo/modules/from and /repo/modules/to.', '-/', 'namespace Verif.IbmMixed',
     'open Verif.Spec', '', 'set_option maxRecDepth 100000', '']
def nums(name, l, doc):
    global o
    it = ['0x%X' % x for x in l]
    o += ['/-- %s -/' % doc, 'def %s : List Nat := [' % name, '  ' + ',\n  '.join(', '.join(it[i:i + 16]) for i in range(0, len(it), 16)) + ']', '']
def chart(name, ps, doc):
    global o
    o += ['/-- %s -/' % doc, 'def %s : Chart := Chart.wide [' % name, ',\n'.join(runs(ps)) + ']', '']
D = {}
for t in PAGES:
    f, g = {}, {}
    for a, b in load('from', t): f.setdefault(a, b)
    for a, b in load('to', t): g.setdefault(b, a)
    lost = sorted(c for c in f if g.get(f[c]) != c)
    alt = sorted(u for u in g if f.get(g[u]) != u)
    D[t] = (f, g, lost, alt)
    single = {c: u for c, u in f.items() if c < 256}; double = {c: u for c, u in f.items() if c >= 256}
    same = t == '939' and double == {c: u for c, u in D['930'][0].items() if c >= 256}
    doc = 'The lines of /repo/modules/from/IBM-%s.txt with %s: code, character; sorted.  Of several lines for one code only the\nfirst is kept, which is the one that counts (C50).'
    chart('single%s' % t, single.items(), doc % (t, 'one byte (those that call the callback)'))
    if same: o += ['/-- ' + doc % (t, 'two bytes') + '  They are the same as those of IBM-930. -/', 'def double939 : Chart := double930', '']
    else: chart('double%s' % t, double.items(), doc % (t, 'two bytes'))
    chart('writes%s' % t, g.items(), 'The lines of /repo/modules/to/IBM-%s.txt: character, code; sorted.  All call the callback.' % t)
    nums('lost%s' % t, lost, 'The codes of IBM-%s that are not what their character is written as.' % t)
    nums('alt%s' % t, alt, 'The characters that are written in IBM-%s with the code of another character.' % t)
    o += ['/-- IBM-%s -/' % t, 'def ibm%s : Charset where' % t, '  reads := single%s ++ double%s' % (t, t), '  writes := writes%s' % t, '']
    print(t, len(f), len(g), len(lost), len(alt), same, len(runs(double.items())), len(runs(g.items())))
o += ['end Verif.IbmMixed', '']
open(os.path.join(os.path.dirname(os.path.abspath(__file__)), '../lean/Verif/Model/IbmMixedTable.lean'), 'w').write('\n'.join(o))
