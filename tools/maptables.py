#!/usr/bin/env python3
"""Generate lean/Verif/Model/MapTables.lean and ZhTables.lean from rule files of /repo/modules/inter whose patterns are single characters."""
import re
def rows(name):
    out = []
    for ln in open('/repo/modules/inter/%s.txt' % name):
        ln = ln.split('#')[0].strip()
        if not ln: continue
        m = re.match(r'^01([0-9A-Fa-f]+)\s+([0-9A-Fa-f,]+)\s*$', ln)
        if m:
            vs = m[2].split(',')
            assert all(v.startswith('01') for v in vs), ln
            gs = [m[1]] + [v[2:] for v in vs]
            assert all(len(g) % 2 == 0 and not g.startswith('00') for g in gs), ln
            ns = [int(g, 16) for g in gs]
            out.append((ns[0], ns[1:]))
        else:
            assert ln.startswith('Source:'), ln
    return out
def gen(module, tabs):
    o = ["import Verif.Spec.MapTable", "/-", "Generated by tools/maptables.py from rule files of /repo/modules/inter.", "-/", "namespace Verif.MapTable",
         "open Verif.Spec", "", "set_option maxRecDepth 100000", ""]
    for nm, f in tabs:
        rs = rows(f)
        cuts, last = [], 0
        for i in range(1, len(rs)):
            if rs[i][0] <= rs[i-1][0]: cuts.append(i - last); last = i
        pages = []
        for k, v in rs:
            if not pages or pages[-1][0] != k // 256: pages.append((k // 256, []))
            pages[-1][1].append((k, v))
        o += ["/-- The rules of /repo/modules/inter/%s.txt in the order of the file: `01k 01v,01v..` as (k, [v, v..]), by the upper bytes of k." % f,
              "(A first line `Source: ...`, which is not a comment, is left out here: see `Aside`.) -/", "def %s : Pages := [" % nm]
        for j, (p, es) in enumerate(pages):
            items = ["(0x%X, [%s])" % (k, ", ".join("0x%X" % x for x in v)) for k, v in es]
            o.append("  (0x%X, [" % p)
            for i in range(0, len(items), 6):
                o.append("    " + ", ".join(items[i:i+6]) + ("," if i + 6 < len(items) else "])" + ("," if j + 1 < len(pages) else "]")))
        o += ["", "/-- The lengths of its pieces in ascending order. -/", "def %sCuts : List Nat := %s" % (nm, cuts), ""]
    o += ["end Verif.MapTable", ""]
    open('/verif/lean/Verif/Model/%s.lean' % module, 'w').write("\n".join(o))
gen('MapTables', [('lower', 'LOWER'), ('upper', 'UPPER'), ('casefold', 'CASEFOLD'), ('full', 'FULL'), ('half', 'HALF'), ('asciifold', 'ASCIIFOLD'),
                  ('kanji', 'KANJI'), ('hanja', 'HANJA'), ('sub', 'SUB'), ('super', 'SUPER')])
gen('ZhTables', [('zhcn', 'ZHCN'), ('zhtw', 'ZHTW')])
gen('FuzzyTables', [('fuzzyCn', 'ZH-FUZZY-CN'), ('fuzzyTw', 'ZH-FUZZY-TW'), ('bmpCn', 'BMP-TRANS-CN'), ('bmpTw', 'BMP-TRANS-TW')])
