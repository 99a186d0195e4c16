#!/usr/bin/env python3
"""Writes lean/Verif/Model/NamedTable.lean from /repo/modules/{from,to}/ASCII-NAMED-HTML-ENTITY.txt; checks that the two files have the same rows."""
F=[l.split() for l in open('/repo/modules/from/ASCII-NAMED-HTML-ENTITY.txt')]
T=[l.split() for l in open('/repo/modules/to/ASCII-NAMED-HTML-ENTITY.txt')]
assert all(a[0][0]=='!' for a in F)
assert [(a[0][1:],a[1]) for a in F]==[(b[1],b[0]) for b in T]
rows=[]
codes=[]
for u,e in T:
    n=bytes.fromhex(e).decode()
    assert n[0]=='&' and n[-1]==';' and u[:2]=='01' and (u=='0100' or u[2:4]!='00')
    codes.append('0x%X'%int.from_bytes(n[1:-1].encode(),'big'))
    rows.append('("%s", 0x%X)'%(n[1:-1],int(u[2:],16)))
out='''/-
Generated by tools/named.py from /repo/modules/from/ASCII-NAMED-HTML-ENTITY.txt:1-%d and /repo/modules/to/ASCII-NAMED-HTML-ENTITY.txt:1-%d.
-/
namespace Verif.Named

/-- The rows `!26(name)3B 01(character)` of the one file, `01(character) 26(name)3B` of the other. -/
def entities : List (String × Nat) :=
  [%s]

/-- The same names as numbers, for checks. -/
def nameNumbers : List Nat :=
  [%s]

end Verif.Named
'''%(len(F),len(T),(',\n   ').join(', '.join(rows[i:i+6]) for i in range(0,len(rows),6)),(',\n   ').join(', '.join(codes[i:i+8]) for i in range(0,len(codes),8)))
open('/verif/lean/Verif/Model/NamedTable.lean','w').write(out)
