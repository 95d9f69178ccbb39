import subprocess,re,json,sys,os,time,signal,threading
sys.path.insert(0,'/tmp')
import mutrun as R
ROOT=sys.argv[3] if len(sys.argv)>3 else '/tmp/mut2/lean'
R.ROOT=ROOT
deps={}
for l in open('/tmp/deps2.txt'):
    n,r=l.rstrip('\n').split(':',1)
    if re.match(r'Verif\.Props\.C\d\d+_',n): deps[n]=set(r.split())
def run(m):
    p=os.path.join(ROOT,'Verif',m['file']); orig=open(p).read()
    if 'pos' in m:
        a,e=m['pos'],m['end']
        ls=orig.rfind('\n',0,a)+1; le=orig.find('\n',e); le=len(orig) if le<0 else le
        assert orig[ls:le]==m['oldline'],m
        new=orig[:a]+m['rep']+orig[e:]
    else:
        n=orig.count(m['old'])
        if n!=1: return {'bad':f'count {n}'}
        new=orig.replace(m['old'],m['new'])
    open(p,'w').write(new)
    t=time.time(); out=''
    pr=subprocess.Popen(['lake','build'],cwd=ROOT,stdout=subprocess.PIPE,stderr=subprocess.STDOUT,text=True,start_new_session=True)
    def kill():
        try: os.killpg(pr.pid,signal.SIGKILL)
        except Exception: pass
    tm=threading.Timer(1500,kill); tm.start(); tm2=None
    for line in pr.stdout:
        out+=line
        if tm2 is None and line.startswith('error: Verif/'):
            tm2=threading.Timer(12,kill); tm2.start()
    rc=pr.wait(); tm.cancel(); 
    if tm2: tm2.cancel()
    thm=set();ex=set();dfs=set()
    for mm in re.finditer(r'error: (Verif/\S+\.lean):(\d+):',out):
        kind,name,ln=R.decl_at(mm.group(1),int(mm.group(2)))
        if kind in('theorem','lemma'): thm.add(name)
        elif kind=='example': ex.add(f'{mm.group(1)}:{ln}')
        else: dfs.add(f'{kind} {name} {mm.group(1)}')
    open(p,'w').write(orig)
    hit=[P.split('.')[-1] for P,cl in deps.items() if any(any(c==t_ or c.endswith('.'+t_) for c in cl) for t_ in thm)]
    return dict(rc=rc,secs=round(time.time()-t),lemmas=sorted(thm),examples=sorted(ex),defs=sorted(dfs),props=sorted(hit),out=out[-1500:] if not thm else '')
muts=json.load(open(sys.argv[1])); outp=sys.argv[2]
done=set()
if os.path.exists(outp): done={json.loads(l)['id'] for l in open(outp)}
for m in muts:
    if m['id'] in done: continue
    r=run(m)
    with open(outp,'a') as o: o.write(json.dumps({**m,**r},ensure_ascii=False)+'\n')
    print(m['id'],m['file'],m['d'],{k:r.get(k) for k in('bad','rc','secs','lemmas','examples','defs')},len(r.get('props',[])),flush=True)
