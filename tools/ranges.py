#!/usr/bin/env python3
"""Generate lean/Verif/Model/RangeTables.lean from the interval tables of /repo/modules."""
import re,glob,os
VAL={'HALF':'1','FULL':'2','AMBI':'-1'}
def rows(f):
    s=open(f,encoding='latin1').read()
    s=re.sub(r'/\*.*?\*/','',s,flags=re.S); s=re.sub(r'//.*','',s)
    m=re.search(r'(\w+)\s*\[\s*\]\s*=\s*\{(.*?)\n\};',s,re.S)
    if not m: return None
    body=m.group(2)
    r=[]
    ents=re.findall(r'\{([^{}]*)\}',body)
    for e in ents:
        p=[x.strip() for x in e.split(',') if x.strip()]
        assert len(p) in (2,3),(f,e)
        v=VAL.get(p[2],p[2]) if len(p)==3 else '1'
        r.append('⟨%s, %s, %s⟩'%(p[0],p[1],v))
    assert len(r)==body.count('{')
    return r
def lit(r,ind='  '):
    out=[];line=ind
    for i,x in enumerate(r):
        x=x+(', ' if i+1<len(r) else '')
        if len(line)+len(x)>110: out.append(line.rstrip()); line=ind
        line+=x
    out.append(line); return '\n'.join(out)
out=['''import Verif.Model.Range
/-
Generated by tools/ranges.py from the interval tables of /repo/modules/filter/*.c, /repo/modules/scorer/*.c,
/repo/modules/inter/_WIDTH.h, /repo/modules/inter/_AMBIGUOUS.h and /repo/modules/inter/_NF-CCC.h.
-/
namespace Verif.Range

set_option maxRecDepth 100000
''']
def name(p,f): return p+re.sub(r'\W','_',os.path.basename(f).rsplit('.',1)[0])
fl=[];sc=[]
for d,acc,p in (('filter',fl,'filter'),('scorer',sc,'scorer')):
    for f in sorted(glob.glob('/repo/modules/%s/*.c'%d)):
        r=rows(f)
        if r is None: continue
        n=name(p,f); acc.append((os.path.basename(f)[:-2],n))
        out.append('/-- %s (`ranges`) -/\ndef %s : List Row := [\n%s]\n'%(f,n,lit(r)))
for f,n,c in (('_WIDTH.h','widthTable','`width_table`; HALF = 1, FULL = 2, AMBI = -1, /repo/modules/inter/WIDTH.c:3-5'),('_AMBIGUOUS.h','ambiguous','`ambiguous`'),('_NF-CCC.h','cccTable','`ccc_table`')):
    r=rows('/repo/modules/inter/'+f)
    out.append('/-- /repo/modules/inter/%s (%s) -/\ndef %s : List Row := [\n%s]\n'%(f,c,n,lit(r)))
out.append('/-- All filters made from filter/unicode_range.c. -/\ndef filters : List (String × List Row) := [\n  %s]\n'%',\n  '.join('("%s", %s)'%x for x in fl))
out.append('/-- All scorers made from scorer/unicode_range.c. -/\ndef scorers : List (String × List Row) := [\n  %s]\n'%',\n  '.join('("%s", %s)'%x for x in sc))
t=[]
for f in sorted(glob.glob('/repo/modules/filter/*.c')):
    m=re.search(r'#define TYPE (\w+)',open(f).read())
    if m: t.append('("%s", %s)'%(os.path.basename(f)[:-2],m.group(1)))
out.append('/-- All filters made from filter/type.c, with their TYPE. -/\ndef typeFilters : List (String × Nat) := [%s]\n'%', '.join(t))
out.append('end Verif.Range')
open('/verif/lean/Verif/Model/RangeTables.lean','w').write('\n'.join(out)+'\n')
