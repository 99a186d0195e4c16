#!/usr/bin/env python3
"""Generate lean/Verif/Model/NfcTable.lean from /repo/modules/inter/_NFC-MAP.txt."""
import re
ccc = []
for m in re.finditer(r'\{\s*(0x[0-9A-Fa-f]+)\s*,\s*(0x[0-9A-Fa-f]+)\s*,\s*(\d+)\s*\}', open('/repo/modules/inter/_NF-CCC.h').read()):
    ccc.append((int(m[1], 16), int(m[2], 16), int(m[3])))
def cls(u):
    for a, b, k in ccc:
        if a <= u <= b: return k
    return 0
rows = []
for ln in open('/repo/modules/inter/_NFC-MAP.txt'):
    m = re.match(r'^01([0-9A-F]+),01([0-9A-F]+)\t01([0-9A-F]+)\s*$', ln)
    if m:
        assert all(len(g) % 2 == 0 and not g.startswith('00') for g in m.groups())
        s, c, x = (int(g, 16) for g in m.groups())
        rows.append((s, c, x, cls(c)))
    else:
        assert ln.startswith('Source:'), ln
out = ["import Verif.Spec.Unicode", "/-", "Generated by tools/nfctable.py from /repo/modules/inter/_NFC-MAP.txt.", "-/", "namespace Verif.Nfc", "",
       "set_option maxRecDepth 100000", "",
       "/-- The rules of /repo/modules/inter/_NFC-MAP.txt: `01s,01c 01x` as (s, c, x, k), where k is the combining class of c in",
       "/repo/modules/inter/_NF-CCC.h (checked in Props/Nfc.lean). -/", "def rules : List (Nat × Nat × Nat × Nat) := ["]
items = ["(0x%X, 0x%X, 0x%X, %d)" % r for r in rows]
for i in range(0, len(items), 4):
    out.append("  " + ", ".join(items[i:i+4]) + ("," if i + 4 < len(items) else "]"))
out += ["", "end Verif.Nfc", ""]
open('/verif/lean/Verif/Model/NfcTable.lean', 'w').write("\n".join(out))
