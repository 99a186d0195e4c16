#!/usr/bin/env python3
# Writes lean/Verif/Model/ManPages.lean: the man pages of /repo/modules and where they redirect to.
import os
rows=[]
for d in ('from','inter','to','filter'):
    for f in sorted(os.listdir('/repo/modules/'+d)):
        if not f.endswith('.man'): continue
        t=open('/repo/modules/%s/%s'%(d,f),'rb').read()
        if t.startswith(b'.redirect '):
            w=t[len(b'.redirect '):-1].decode()
            assert t==b'.redirect '+w.encode()+b'\n' and ' ' not in w
            rows.append('("%s", "%s", some "%s")'%(d,f[:-4],w))
        else:
            assert t and t[:1]!=b'.'
            rows.append('("%s", "%s", none)'%(d,f[:-4]))
with open('/verif/lean/Verif/Model/ManPages.lean','w') as o:
    o.write('/- Generated by tools/manpages.py from /repo/modules/{from,inter,to,filter}/*.man: directory, codec, and the argument of `.redirect` if the page is one. -/\nnamespace Verif.Man\n\n')
    o.write('/-- /repo/modules/*/*.man -/\ndef manPages : List (String × String × Option String) := [\n  '+',\n  '.join(rows)+']\n\nend Verif.Man\n')
print(len(rows))
