#!/usr/bin/env python3
"""Generate lean/Verif/Model/PhraseTables.lean from rule files of /repo/modules/inter whose patterns are sequences of characters."""
def rows(name):
    out = []
    for ln in open('/repo/modules/inter/%s.txt' % name, encoding='utf8', errors='replace'):
        ln = ln.split('#')[0].strip()
        if not ln: continue
        a, b = ln.split()[:2]
        g = lambda x: [int(y[2:], 16) for y in x.split(',')]
        assert all(y.startswith('01') and not y.startswith('0100') and len(y) % 2 == 0 for y in (a + ',' + b).split(',')), ln
        out.append((g(a), g(b)))
    return out
o = ["import Verif.Spec.Phrases", "/-", "Generated by tools/phrases.py from rule files of /repo/modules/inter.", "-/", "namespace Verif.Phrases", "open Verif.Spec", "",
     "set_option maxRecDepth 100000", ""]
for nm, f in [('upsideDown', 'UPSIDEDOWN'), ('kana', 'KANA-PHONETIC'), ('nl2br', 'NL2BR'), ('zhtwWords', 'ZHTW-WORDS'), ('unix', 'UNIX'), ('win', 'WIN'), ('mac', 'MAC')]:
    o += ["/-- The rules of /repo/modules/inter/%s.txt in order. -/" % f, "def %s : Phrases := [" % nm]
    s = lambda l: "[" + ", ".join("0x%X" % x for x in l) + "]"
    rs = ["(%s, %s)" % (s(a), s(b)) for a, b in rows(f)]
    for i in range(0, len(rs), 5):
        o.append("  " + ", ".join(rs[i:i+5]) + ("," if i + 5 < len(rs) else "]"))
    o.append("")
o += ["end Verif.Phrases", ""]
open('/verif/lean/Verif/Model/PhraseTables.lean', 'w').write("\n".join(o))
