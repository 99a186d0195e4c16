#!/usr/bin/env python3
"""Writes lean/Verif/Model/Big5EscTable.lean from /repo/modules/{from,to}/BIG5-5C.txt; checks that the two files have the same rows."""
def load(k): return [l.split() for l in open('/repo/modules/%s/BIG5-5C.txt'%k) if not l.startswith('#')]
F,T=load('from'),load('to')
assert [(a,b) for a,b in F]==[(b,a) for a,b in T]
assert all(len(a)==6 and a[2:]=='5C5C' and b[:2]=='01' and b[2:4]!='00' for a,b in F)
rows=['(0x%s, 0x%X)'%(a[:2],int(b[2:],16)) for a,b in F]
open('/verif/lean/Verif/Model/Big5EscTable.lean','w').write('''/-
Generated by tools/big5esc.py from /repo/modules/from/BIG5-5C.txt:2-%d and /repo/modules/to/BIG5-5C.txt:2-%d.
-/
namespace Verif.Big5Esc

/-- The rows `(byte)5C5C 01(character)` of the one file, `01(character) (byte)5C5C` of the other. -/
def rows : List (Nat × Nat) :=
  [%s]

end Verif.Big5Esc
'''%(len(F)+1,len(T)+1,(',\n   ').join(', '.join(rows[i:i+8]) for i in range(0,len(rows),8))))
