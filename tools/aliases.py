#!/usr/bin/env python3
"""Generate lean/Verif/Model/Aliases.lean from /repo/modules/{from,inter,to}/alias."""
out=['''/-
Generated by tools/aliases.py from /repo/modules/from/alias, /repo/modules/inter/alias and
/repo/modules/to/alias (all lines except comments).
-/
namespace Verif.Conv
''']
for k in ['from','inter','to']:
    rows=[]
    for l in open('/repo/modules/%s/alias'%k):
        l=l.rstrip('\n')
        if not l or l.startswith('#'): continue
        a=l.split()
        assert len(a)==2,l
        rows.append('  ("%s", "%s")'%tuple(a))
    out.append('/-- Aliases of %s codecs, /repo/modules/%s/alias. -/\ndef %sAliases : List (String × String) := [\n%s]\n'%(k,k,k,',\n'.join(rows)))
out.append('end Verif.Conv')
open('/verif/lean/Verif/Model/Aliases.lean','w').write('\n'.join(out)+'\n')
