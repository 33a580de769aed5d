#!/usr/bin/env python3
"""Seeded-bug runner.  usage: seed.py mutations.json
Each entry: {def, file (under lean/Verif), old, new, edit, claim, target (module to build)}.
Works in /tmp/scratch/lean (a copy of /verif/lean); appends one JSON line per mutation to seeded/LOG.jsonl."""
import json,sys,subprocess,re,os,shutil
muts=json.load(open(sys.argv[1])); dry=len(sys.argv)>2
S='/tmp/scratch/lean'
subprocess.run(['rsync','-a','--delete','/verif/lean/',S+'/'],check=True) if shutil.which('rsync') else subprocess.run('rm -rf %s; cp -a /verif/lean %s'%(S,S),shell=True,check=True)
if os.environ.get('SEED_BLIND'):  # examples switched off, so that only the theorems can catch a bug
    for f in ['HsAlerts','HsExamples','HsKeys','HsWireProps','SrvAlerts','SrvExamples','SrvKeys']:
        q=S+'/Verif/Tls/'+f+'.lean'; x=open(q).read(); open(q,'w').write(x.replace('decide +kernel','sor'+'ry'))
def build(t):
    try:
        r=subprocess.run(['lake','build']+t.split(),cwd=S,capture_output=True,text=True,timeout=1500)
    except subprocess.TimeoutExpired: return None
    out=r.stdout+r.stderr
    return out if r.returncode==0 or re.search(r'error: Verif/',out) else 'INFRA'
def failed(out):
    names=[]
    for m in re.finditer(r'error: (Verif/\S+?\.lean):(\d+):\d+',out):
        f,l=m.group(1),int(m.group(2)); src=open(S+'/'+f).read().split('\n')
        for i in range(min(l,len(src))-1,-1,-1):
            mm=re.match(r'\s*(?:@\[.*?\]\s*)?(?:private |protected |noncomputable )*(theorem|lemma|def|example|instance|abbrev)\s*(\S*)',src[i])
            if mm:
                n=(mm.group(2) if mm.group(1)!='example' else 'example@%s:%d'%(f,i+1))
                if n not in names: names.append(n)
                break
    return names
for m in muts:
    p=S+'/Verif/'+m['file']; s=open(p).read()
    if s.count(m['old'])<1: print('NOT FOUND',m['def'],m['old']); continue
    open(p,'w').write(s.replace(m['old'],m['new'],1))
    out=build(m['target'])
    fl=failed(out) if out is not None else ['(build timed out)']
    open(p,'w').write(s)
    if out=='INFRA': print('INFRA FAILURE',m['def'],m['edit'],flush=True); continue
    print(m['def'],'|',m['edit'],'->',fl if fl else '*** SURVIVED ***',flush=True)
    if dry: continue
    with open('/verif/seeded/LOG.jsonl','a') as L:
        L.write(json.dumps(dict(definition=m['def'],edit=m['edit'],claim_broken=m['claim'],theorems_failed=fl,theorems_tightened=m.get('tightened',[])),ensure_ascii=False)+'\n')
