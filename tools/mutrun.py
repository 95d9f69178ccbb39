import subprocess,re,json,sys,os,shutil,time
ROOT='/tmp/mut/lean'
deps={}
def loaddeps():
    for l in open('/tmp/deps.txt'):
        n,r=l.rstrip('\n').split(':',1); 
        if re.match(r'Verif\.Props\.C\d\d+_',n): deps[n]=set(r.split())
DECL=re.compile(r'^(?:@\[[^\]]*\]\s*)?(?:private |protected |noncomputable |partial )*(theorem|lemma|example|def|instance|structure|inductive|abbrev)\b\s*([^\s:({\[]*)')
def decl_at(f,line):
    ls=open(os.path.join(ROOT,f)).read().split('\n')
    for i in range(min(line,len(ls))-1,-1,-1):
        m=DECL.match(ls[i])
        if m: return m.group(1),m.group(2),i+1
    return None,None,0
def run(m):
    f=m['file']; p=os.path.join(ROOT,'Verif',f); orig=open(p).read()
    n=orig.count(m['old'])
    k=m.get('nth')
    if k is None and n!=1: return {'bad':f'count {n}'}
    if k is not None:
        parts=orig.split(m['old']); 
        new=m['old'].join(parts[:k+1])+m['new']+m['old'].join(parts[k+1:])
    else: new=orig.replace(m['old'],m['new'])
    open(p,'w').write(new)
    t=time.time()
    try:
        r=subprocess.run(['lake','build'],cwd=ROOT,capture_output=True,text=True,timeout=1500)
        out=r.stdout+r.stderr; rc=r.returncode
    except subprocess.TimeoutExpired:
        out='TIMEOUT'; rc=99
        subprocess.run(['pkill','-f','/tmp/mut/lean'])
    thm=set();ex=set();dfs=set()
    for mm in re.finditer(r'error: (Verif/\S+\.lean):(\d+):',out):
        kind,name,ln=decl_at(mm.group(1),int(mm.group(2)))
        if kind in('theorem','lemma'): thm.add(name)
        elif kind=='example': ex.add(f'{mm.group(1)}:{ln}')
        else: dfs.add(f'{kind} {name} {mm.group(1)}')
    open(p,'w').write(orig)
    hit=[]
    for P,cl in deps.items():
        if any(any(c==t or c.endswith('.'+t) for c in cl) for t in thm): hit.append(P.split('.')[-1])
    return dict(rc=rc,secs=round(time.time()-t),lemmas=sorted(thm),examples=sorted(ex),defs=sorted(dfs),props=sorted(hit),out=out[-1500:] if not(thm) else '')
if __name__=='__main__':
    loaddeps()
    muts=json.load(open(sys.argv[1])); outp=sys.argv[2]
    done=set()
    if os.path.exists(outp): done={json.loads(l)['id'] for l in open(outp)}
    for m in muts:
        if m['id'] in done: continue
        r=run(m)
        with open(outp,'a') as o: o.write(json.dumps({**m,**r})+'\n')
        print(m['id'],{k:r.get(k) for k in('bad','rc','secs','lemmas','examples','defs')},len(r.get('props',[])),flush=True)
    subprocess.run(['lake','build'],cwd=ROOT,capture_output=True)
