#!/usr/bin/env python3
"""Mutation testing of the model, in a scratch copy outside /verif.
usage: mutate.py MUTANTS.py [ids...]; appends to /verif/seeded/LOG.jsonl.
MUTANTS.py defines M = [(id, file, definition, old, new, claim)]."""
import sys, os, re, json, subprocess, runpy, shutil
SCR='/tmp/mut/lean'
def sync():
    os.makedirs(os.path.dirname(SCR), exist_ok=True)
    subprocess.run('rm -rf '+SCR+' && cp -a /verif/lean '+SCR,shell=True,check=True)
HEAVY='NfcFacts NfdFacts Nfkd NfcSingle Normalize ZhTable Sjis Cp949 Cp936 Gbk Gb2312 Big5 JisTable Big5Esc Translit ZhFuzzyTable FamilyTable CcciiShape CcciiKept CcciiBack IbmMixed1 IbmMixed2 GbTable MapTable Ibm37 Cp932 Cp125x Hkscs Caseless'.split()
def quick():
    imp={}
    for root,_,fs in os.walk(SCR+'/Verif'):
        for g in fs:
            if g.endswith('.lean'):
                q=os.path.relpath(os.path.join(root,g),SCR).replace('/','.')[:-5]
                imp[q]=re.findall(r'^import (Verif\.\S+)',open(os.path.join(root,g)).read(),re.M)
    bad={q for q in imp if q.split('.')[-1] in HEAVY and not q.startswith('Verif.Model')}
    ch=True
    while ch:
        ch=False
        for q in imp:
            if q not in bad and any(d in bad for d in imp[q]): bad.add(q);ch=True
    return sorted(set(imp)-bad)
def enclosing(path,line):
    ls=open(path).read().split('\n')
    for i in range(min(line,len(ls))-1,-1,-1):
        m=re.match(r'\s*(?:@\[.*?\]\s*)?(?:private |protected |noncomputable )*(theorem|lemma|def|instance|example|abbrev|structure|inductive)\s*(\S+)?',ls[i])
        if m: return (m.group(1), m.group(2) or '')
    return ('?','?')
def run(m):
    mid,f,d,old,new,claim=m
    p=SCR+'/Verif/'+f; src=open(p).read()
    if src.count(old)<1: return {'id':mid,'error':'pattern not found'}
    open(p,'w').write(src.replace(old,new,1))
    try:
        # first the modules that do not rest on minutes-long table checks; everything only if these all pass
        r=subprocess.run(['timeout','1500','lake','build']+quick(),cwd=SCR,capture_output=True,text=True)
        if r.returncode==0 and os.environ.get('MUTFULL','1')=='1': r=subprocess.run(['timeout','1500','lake','build'],cwd=SCR,capture_output=True,text=True)
        out=r.stdout+r.stderr
        fails=[];mods=set()
        for x in re.finditer(r'error: (Verif/\S+\.lean):(\d+):\d+: (.*)',out):
            k,n=enclosing(SCR+'/'+x.group(1),int(x.group(2)))
            mods.add(x.group(1))
            e=x.group(1)+':'+n
            if e not in fails: fails.append(e)
        # modules which could not be checked because an import failed
        failedm={q.replace('/','.')[:-5] for q in mods}
        deps={}
        for root,_,fs in os.walk(SCR+'/Verif'):
            for g in fs:
                if g.endswith('.lean'):
                    q=os.path.relpath(os.path.join(root,g),SCR)
                    deps[q.replace('/','.')[:-5]]=set(re.findall(r'^import (Verif\.\S+)',open(os.path.join(root,g)).read(),re.M))
        bl=set(failedm);ch=True
        while ch:
            ch=False
            for q,ds in deps.items():
                if q not in bl and ds & bl: bl.add(q);ch=True
        return {'id':mid,'definition':f+': '+d,'edit':old.strip()+'  ==>  '+new.strip(),'claim_broken':claim,
          'theorems_failed':fails,'blocked_modules':sorted(bl-failedm),'survived':len(fails)==0}
    finally:
        open(p,'w').write(src)
if __name__=='__main__':
    M=runpy.run_path(sys.argv[1])['M']; ids=set(sys.argv[2:])
    sync()
    for m in M:
        if ids and m[0] not in ids: continue
        r=run(m); r.setdefault('theorems_tightened',[])
        with open(os.environ.get('MUTLOG','/tmp/mut/log.jsonl'),'a') as o: o.write(json.dumps(r,ensure_ascii=False)+'\n')
        print(r['id'], 'ERR '+r['error'] if 'error' in r else ('SURVIVED' if r['survived'] else 'killed '+' '.join(r['theorems_failed'][:4])),flush=True)
