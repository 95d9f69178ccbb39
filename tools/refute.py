# usage: refute.py batch.py  ; batch.py defines B = [dict(id,file,d,old,new,claim,refs=[(thm, args, tac)...], imports=[...])]
import sys,os,subprocess,json,re,shutil,runpy
B=runpy.run_path(sys.argv[1])['B']; only=set(sys.argv[2:])
S='/tmp/stub/lean'; D='/tmp/stubm/lean'
out=open('/tmp/refute.jsonl','a')
def mkfile(b):
    t='import Verif\nopen Verif Verif.Spec Verif.Props '+b.get('open','')+'\n'
    t+=b.get('pre','')+'\n'
    marks=[]
    for k,(thm,args,tac) in enumerate(b['refs']):
        marks.append(t.count('\n')+1)
        t+=f'theorem ref{k} : False := by\n  have h := {thm} {args}\n'+'\n'.join('  '+l for l in tac.split('\n'))+'\n'
    return t,marks
def run(dirn,t,marks):
    open('/tmp/ref_run.lean','w').write(t)
    p=subprocess.run('lake env lean /tmp/ref_run.lean',shell=True,cwd=dirn,capture_output=True,text=True)
    o=p.stdout+p.stderr; bad={}
    for m in re.finditer(r'ref_run\.lean:(\d+):\d+: error(?:\([^)]*\))?: ((?:.|\n)*?)(?=\n/tmp|\Z)',o):
        ln=int(m.group(1)); k=max([i for i,x in enumerate(marks) if x<=ln],default=-1)
        bad.setdefault(k,m.group(2)[:600])
    if p.returncode not in (0,1): bad['rc']=p.returncode; print('RC',p.returncode,dirn)
    return bad,o
for b in B:
    if only and b['id'] not in only: continue
    t,marks=mkfile(b)
    p=f"{D}/{b['file']}"
    orig=open(p).read(); 
    if orig.count(b['old'])!=1: print(b['id'],'OLD COUNT',orig.count(b['old'])); continue
    open(p,'w').write(orig.replace(b['old'],b['new']))
    try:
        q=subprocess.run('timeout 800 lake build 2>&1',shell=True,cwd=D,capture_output=True,text=True)
        errs=[l for l in q.stdout.split('\n') if l.startswith('error')]
        if errs: print(b['id'],'BUILD',errs[:5]); continue
        bad,o=run(D,t,marks)
    finally:
        open(p,'w').write(orig)
    if 'rc' in bad: continue
    if -1 in bad: print('PRE',bad[-1]); continue
    good=[k for k in range(len(b['refs'])) if k not in bad]
    bad0,_=run(S,t,marks)
    for k,(thm,a,tac) in enumerate(b['refs']):
        if k in bad: print(b['id'],thm,'NOT REFUTED:',bad[k])
        elif k not in bad0 and -1 not in bad0 and 'rc' not in bad0: print(b['id'],thm,'REFUTED ALSO IN ORIGINAL!!')
        else:
            print(b['id'],thm,'refuted')
            out.write(json.dumps(dict(id=b['id'],definition=b['d'],file=b['file'],old=b['old'],new=b['new'],claim=b['claim'],theorem=thm))+'\n')
    if -1 in bad: print('PRE',bad[-1])
    out.flush()
