#!/usr/bin/env python3
"""Generate lean/Verif/Model/NfkdTable.lean from /repo/modules/inter/_NFKD.txt."""
import re
rows = []
for ln in open('/repo/modules/inter/_NFKD.txt'):
    m = re.match(r'^01([0-9A-F]+)\t([0-9A-F,]+)\s*(#.*)?$', ln)
    if m:
        vs = m[2].split(',')
        assert all(v.startswith('01') for v in vs)
        gs = [m[1]] + [v[2:] for v in vs]
        assert all(len(g) % 2 == 0 and not g.startswith('00') for g in gs)
        ns = [int(g, 16) for g in gs]
        rows.append((ns[0], ns[1:]))
    else:
        assert ln.startswith('Source:'), ln
assert rows == sorted(rows) and len(rows) == len({r[0] for r in rows})
pages = []
for k, v in rows:
    if not pages or pages[-1][0] != k // 256: pages.append((k // 256, []))
    pages[-1][1].append((k, v))
out = ["import Verif.Spec.MapTable", "/-", "Generated by tools/nfkdtable.py from /repo/modules/inter/_NFKD.txt.", "-/", "namespace Verif.Nfkd", "",
       "set_option maxRecDepth 100000", "",
       "/-- The rules of /repo/modules/inter/_NFKD.txt in the order of the file: `01k 01v,01v..` as (k, [v, v..]), by the upper bytes of k.",
       "(The first line of the file, `Source: ...`, is left out here; see Props/Nfkd.lean.) -/", "def pages : Spec.Pages := ["]
for j, (p, es) in enumerate(pages):
    items = ["(0x%X, [%s])" % (k, ", ".join("0x%X" % x for x in v)) for k, v in es]
    out.append("  (0x%X, [" % p)
    for i in range(0, len(items), 5):
        out.append("    " + ", ".join(items[i:i+5]) + ("," if i + 5 < len(items) else "])" + ("," if j + 1 < len(pages) else "]")))
out += ["", "end Verif.Nfkd", ""]
open('/verif/lean/Verif/Model/NfkdTable.lean', 'w').write("\n".join(out))
