#!/usr/bin/env python3
"""Mutation tests: apply each edit of a list to a scratch copy of /verif/lean, rebuild, record which theorems fail.
usage: mutate.py mutants.json out.jsonl   (mutants: list of [file, old, new, definition, edit, claim, property ids])"""
import json,subprocess,sys,re,os,shutil,time,signal
SCR='/tmp/mut/lean'
def sync():
    os.makedirs('/tmp/mut',exist_ok=True)
    subprocess.run(['rsync','-a','--delete','/verif/lean/',SCR+'/'],check=True) if shutil.which('rsync') else (
        subprocess.run('rm -rf %s && cp -a /verif/lean %s'%(SCR,SCR),shell=True,check=True))
def decls(path):
    out=[]
    ns=[]
    for n,l in enumerate(open(path),1):
        m=re.match(r'(?:@\[[^\]]*\]\s*)?(?:private\s+|noncomputable\s+)*(theorem|def|example|instance|structure|abbrev)\s*([^\s:({\[]*)',l)
        if m: out.append((n,m.group(1)+' '+m.group(2)))
    return out
GRACE=float(os.environ.get('GRACE','60'))
def build(grace):
    """lake build; once an error has appeared, give it `grace` more seconds (the first failing theorems are enough)."""
    log=SCR+'/../build.log'
    with open(log,'w') as out:
        pr=subprocess.Popen(['lake','build'],cwd=SCR,stdout=out,stderr=subprocess.STDOUT,start_new_session=True)
    seen=None
    while pr.poll() is None:
        time.sleep(1)
        if seen is None and 'error: Verif/' in open(log).read(): seen=time.time()
        if seen is not None and time.time()-seen>grace:
            os.killpg(pr.pid,signal.SIGKILL); pr.wait(); break
    return pr.returncode,open(log).read()
def run(m):
    f,old,new=m[0],m[1],m[2]
    p=SCR+'/Verif/'+f
    s=open(p).read()
    if s.count(old)<1: return {'error':'pattern not found'}
    t=s.replace(old,new,1) if not (len(m)>7 and m[7]=='all') else s.replace(old,new)
    open(p,'w').write(t)
    rc,o=build(GRACE)
    fails=[]; mods=set()
    for mm in re.finditer(r'error: (Verif/[\w/]+\.lean):(\d+):',o):
        path,line=mm.group(1),int(mm.group(2)); mods.add(path)
        d=[x for x in decls(SCR+'/'+path) if x[0]<=line]
        name=(d[-1][1] if d else '?')+' @'+path
        if name not in fails: fails.append(name)
    # modules that could not be built because of these
    dep={}
    for root,_,fs in os.walk(SCR+'/Verif'):
        for x in fs:
            if x.endswith('.lean'):
                q=os.path.relpath(os.path.join(root,x),SCR)
                dep[q]=[i.replace('.','/')+'.lean' for i in re.findall(r'^import (Verif[\w.]*)',open(os.path.join(root,x)).read(),re.M)]
    bad=set(mods); ch=True
    while ch:
        ch=False
        for q,ds in dep.items():
            if q not in bad and any(x in bad for x in ds): bad.add(q); ch=True
    blocked=[]
    for q in sorted(bad-mods):
        if '/Props/' in q: blocked+= [d[1].split()[1] for d in decls(SCR+'/'+q) if d[1].startswith('theorem C')]
    open(p,'w').write(s)
    return {'killed': rc!=0,'failed':fails,'not_built':blocked}
if __name__=='__main__':
    sync()
    ms=json.load(open(sys.argv[1]))
    for m in ms:
        res=run(m)
        rec={'definition':m[3],'edit':m[4],'claim':m[5],'properties':m[6],**res}
        open(sys.argv[2],'a').write(json.dumps(rec)+'\n')
        print(rec['definition'],'|',rec['edit'],'|',res.get('killed',res),'|',(res.get('failed') or [])[:3],flush=True)
