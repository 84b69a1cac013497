#!/usr/bin/env python3
"""Automatic mutation tests: for every definition of the model (Verif/Model/*.lean) try up to K single-token edits in a
scratch copy and look for edits that no theorem notices.   usage: automutate.py out.jsonl K seed [file...]
An edit whose model file does not compile is skipped.  Survivors are printed with a leading SURVIVES."""
import json,subprocess,sys,re,os,shutil,time,signal,random,glob
SCR='/tmp/amut/lean'
OPS=[(r'\.rows\b','.cols'),(r'\.cols\b','.rows'),(r' < ',' ≤ '),(r' ≤ ',' < '),(r' \+ 1\b',''),(r' - 1\b',''),(r' \+ ',' - '),(r' - ',' + '),
     (r' \* ',' + '),(r' == ',' != '),(r' = 0\b',' = 1'),(r' && ',' || '),(r' \|\| ',' && '),(r'\.col\b','.row'),(r'\.row\b','.col'),(r'\btrue\b','false'),
     (r'\bfalse\b','true'),(r' ≠ ',' = '),(r' \+\+ ',None),(r'\b0\b','1'),(r'\b1\b','2'),(r'^ *assertThat.*\n',''),(r'assertThat \([^;]*\); ',''),
     (r' A B\b',' B A'),(r' i j\b',' j i'),(r' r c\b',' c r'),(r'\.1\b','.2'),(r'\.2\b','.1'),(r'\bif ','if ¬ '),(r' ∧ ',' ∨ '),(r' ∨ ',' ∧ '),
     (r'\bpush\b','id'),(r' > ',' ≥ '),(r' ≥ ',' > '),(r'\bsome (\w+)\b','none'),(r'\(\+\)','(-)'),(r' x y\b',' y x'),(r' a b\b',' b a'),(r'\bid\b','(fun _ => default)')]
def chunks(src):
    """(name, start, end) of the definitions"""
    lines=src.split('\n'); pos=0; out=[]; cur=None
    for l in lines:
        m=re.match(r'(?:@\[[^\]]*\]\s*)?(?:private |noncomputable |partial )*(def|abbrev|inductive|structure)\s+([^\s:({\[]+)',l)
        stop=re.match(r'(/--|/-!|theorem|instance|end |namespace|variable|section|open|example|deriving|@\[)',l) or l.strip()==''
        if m:
            if cur: out.append((cur[0],cur[1],pos))
            cur=(m.group(2),pos) if m.group(1) in('def','abbrev') else None
        elif stop and l.strip()!='' and cur:
            out.append((cur[0],cur[1],pos)); cur=None
        pos+=len(l)+1
    if cur: out.append((cur[0],cur[1],pos))
    return out
def body_start(src,a,b):
    m=re.search(r':=|\n  \|',src[a:b])
    return a+(m.end() if m else 0)
def run(cmd,limit,grace):
    log='/tmp/amut/build.log'
    with open(log,'w') as out:
        pr=subprocess.Popen(['nice','-n','10']+cmd,cwd=SCR,stdout=out,stderr=subprocess.STDOUT,start_new_session=True)
    seen=None; t0=time.time()
    while pr.poll() is None:
        time.sleep(0.5)
        if seen is None and 'error: Verif/' in open(log).read(): seen=time.time()
        if (seen is not None and time.time()-seen>grace) or time.time()-t0>limit:
            os.killpg(pr.pid,signal.SIGKILL); pr.wait(); break
    return pr.returncode,open(log).read()
def decl(path,line):
    best='?'
    for n,l in enumerate(open(path),1):
        if n>line: break
        m=re.match(r'(?:@\[[^\]]*\]\s*)?(?:private |noncomputable )*(theorem|def|example|instance|abbrev)\s*([^\s:({\[]*)',l)
        if m: best=m.group(1)+' '+m.group(2)
    return best
if __name__=='__main__':
    out,K,seed=sys.argv[1],int(sys.argv[2]),int(sys.argv[3]); files=sys.argv[4:]
    random.seed(seed)
    os.makedirs('/tmp/amut',exist_ok=True)
    subprocess.run('rm -rf %s && cp -a /verif/lean %s'%(SCR,SCR),shell=True,check=True)
    PRI='/tmp/amut/pristine'; subprocess.run('rm -rf %s && cp -a %s/.lake/build %s'%(PRI,SCR,PRI),shell=True,check=True)
    def reset(): subprocess.run('rm -rf %s/.lake/build && cp -a %s %s/.lake/build'%(SCR,PRI,SCR),shell=True,check=True)
    done=set(); cnt={}
    if os.path.exists(out):
        for l in open(out):
            d=json.loads(l); done.add((d['file'],d['definition'],d['before'],d['after'])); k=(d['file'],d['definition']); cnt[k]=cnt.get(k,0)+1
    todo=[]
    for f in sorted(glob.glob(SCR+'/Verif/Model/*.lean')):
        b=os.path.basename(f)
        if files and b not in files: continue
        if b in('Templates.lean','WrapperTable.lean','Text.lean'): continue
        src=open(f).read()
        for name,a,e in chunks(src):
            s0=body_start(src,a,e); cand=[]
            for pat,rep in OPS:
                if rep is None: continue
                for m in re.finditer(pat,src[s0:e],re.M):
                    x,y=s0+m.start(),s0+m.end()
                    # not in a comment
                    ls=src.rfind('\n',0,x)+1
                    if '--' in src[ls:x]: continue
                    cand.append((x,y,m.expand(rep)))
            random.shuffle(cand)
            if cand: todo.append((f,name,cand))
    random.shuffle(todo)
    for f,name,cand in todo:
        src=open(f).read(); n=cnt.get((os.path.basename(f),name),0)
        for x,y,rep in cand:
            if n>=K: break
            ls=src.rfind('\n',0,x)+1; le=src.find('\n',y)
            before=src[ls:le]; after=src[ls:x]+rep+src[y:le]
            if (os.path.basename(f),name,before,after) in done: continue
            open(f,'w').write(src[:x]+rep+src[y:])
            mod='Verif.Model.'+os.path.basename(f)[:-5]
            rc,o=run(['lake','build',mod],300,0)
            if rc!=0:
                open(f,'w').write(src); reset(); continue
            n+=1
            rc,o=run(['lake','build'],1500,8)
            fails=[]
            for mm in re.finditer(r'error: (Verif/[\w/]+\.lean):(\d+):',o):
                nm=decl(SCR+'/'+mm.group(1),int(mm.group(2)))+' @'+mm.group(1)
                if nm not in fails: fails.append(nm)
            open(f,'w').write(src); reset()
            rec={'file':os.path.basename(f),'definition':name,'before':before,'after':after,'killed':rc!=0,'failed':fails}
            open(out,'a').write(json.dumps(rec,ensure_ascii=False)+'\n')
            print('killed  ' if rc!=0 else 'SURVIVES',rec['file'],name,'|',before.strip(),'=>',after.strip(),'|',fails[:2],flush=True)
