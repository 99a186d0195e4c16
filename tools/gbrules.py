#!/usr/bin/env python3
"""Generates lean/Verif/Model/GbRules.lean from /repo/modules/from/_GB18030.txt, and checks that the other rules of the
file are as GbFile in Spec/GbTable.lean says."""
blocks=[(0x0452,0x200F,(0x81,0x30,0xD3,0x30)),(0x2643,0x2E80,(0x81,0x37,0xA8,0x39)),(0x361B,0x3917,(0x82,0x30,0xA6,0x33)),(0x3CE1,0x4055,(0x82,0x31,0xD4,0x38)),(0x4160,0x4336,(0x82,0x32,0xC9,0x37)),(0x44D7,0x464B,(0x82,0x33,0xA3,0x39)),(0x478E,0x4946,(0x82,0x33,0xE8,0x38)),(0x49B8,0x4C76,(0x82,0x34,0xA1,0x31)),(0x9FA6,0xD7FF,(0x82,0x35,0x8F,0x33)),(0xE865,0xF92B,(0x83,0x36,0xD0,0x30)),(0xFA2A,0xFE2F,(0x84,0x30,0x9C,0x38)),(0xFFE6,0xFFFF,(0x84,0x31,0xA2,0x34)),(0x10000,0x10FFFF,(0x90,0x30,0x81,0x30))]
ix=lambda a,b,c,d:(((a-0x81)*10+(b-0x30))*126+(c-0x81))*10+d-0x30
computed=[(ix(*f),ix(*f)+hi-lo) for lo,hi,f in blocks]
stars=[];n2=n4=0
for l in open('/repo/modules/from/_GB18030.txt'):
    if l[0]=='#': continue
    p,d=l.split()[:2]
    if d[0]=='?':
        assert p.endswith('*')
        stars.append((bytes.fromhex(p[:-1]),bytes.fromhex(d[1:])))
    else:
        q=bytes.fromhex(p); assert len(bytes.fromhex(d))<=4
        if len(q)==2: assert q[1]>=0x40; n2+=1
        else:
            a,b,c,e=q; assert 0x81<=a<=0xFE and 0x30<=b<=0x39 and 0x81<=c<=0xFE and 0x30<=e<=0x39
            assert not any(x<=ix(a,b,c,e)<=y for x,y in computed); n4+=1
print(len(stars),n2,n4)
f=lambda q:'['+', '.join('0x%02X'%x for x in q)+']'
out=[]
line='  '
for i,(p,d) in enumerate(stars):
    t='(%s, %s)'%(f(p),f(d))+(', ' if i+1<len(stars) else ']')
    if len(line)+len(t)>118: out.append(line.rstrip()); line='  '
    line+=t
out.append(line)
open('/verif/lean/Verif/Model/GbRules.lean','w').write('''/-
Generated by tools/gbrules.py from /repo/modules/from/_GB18030.txt.
-/
namespace Verif.Gb18030

/-- The rules of /repo/modules/from/_GB18030.txt with a callback, in the order of the file: `p* ?d` as (p, d). -/
def stars : List (List Nat × List Nat) := [
'''+'\n'.join(out)+'''

end Verif.Gb18030
''')
