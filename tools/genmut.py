import re,json,sys
ROOT='/verif/lean/Verif/'
files=sys.argv[2:]
out=[]
def strip_comments(t):
    # replace comment chars with \0 preserving offsets
    r=list(t)
    for m in re.finditer(r'/-.*?-/|--[^\n]*',t,re.S):
        for i in range(m.start(),m.end()):
            if r[i]!='\n': r[i]='\0'
    return ''.join(r)
OPS=[(r'(?<![<&|>=])<(?![<=|&-])','≤'),(r'≤','<'),(r'(?<![>=|])>(?![>=])','≥'),(r'≥','>'),(r'∧','∨'),(r'∨','∧'),
 (r'&&&','|||'),(r'\|\|\|','&&&'),(r'<<<','>>>'),(r'>>>','<<<'),(r'(?<=\w) \+ (?=\w)',' - '),(r'(?<=\w) - (?=\w)',' + '),
 (r'(?<=\w) \+\+ (?=\w)',None),(r'\btrue\b','false'),(r'\bfalse\b','true'),(r'&&(?!&)','||'),(r'(?<!\|)\|\|(?!\|)','&&'),(r'\^\^\^','|||'),(r' % ',' / '),(r' / ',' % '),(r' \* ',' + ')]
for f in files:
    t=open(ROOT+f).read(); c=strip_comments(t)
    # def regions
    defs=[(m.start(),m.group(2)) for m in re.finditer(r'^(?:@\[[^\]]*\]\s*)?(?:private |protected )?(def|abbrev)\s+([^\s:({\[]+)',c,re.M)]
    stops=[m.start() for m in re.finditer(r'^(?:structure|inductive|theorem|instance|namespace|end|open|variable|deriving|import|set_option)\b',c,re.M)]
    for k,(st,name) in enumerate(defs):
        en=min([s for s in [d[0] for d in defs]+stops if s>st]+[len(t)])
        # body after := or first '|'
        b=re.search(r':=|\n\s*\|',c[st:en])
        if not b: continue
        s0=st+b.start()
        body=c[s0:en]
        cand=[]
        for pat,rep in OPS:
            for m in re.finditer(pat,body):
                if m.group(0)=='|||' and 0: continue
                if rep is None: continue
                cand.append((s0+m.start(),s0+m.end(),rep))
        for m in re.finditer(r'(?<![\w.#])(0x[0-9A-Fa-f]+|\d+)(?![\w.])',body):
            v=int(m.group(1),0)
            cand.append((s0+m.start(),s0+m.end(),str(v+1)))
            if v>0: cand.append((s0+m.start(),s0+m.end(),str(v-1)))
        # equality in conditions
        for m in re.finditer(r'if [^\n]*? (=) ',body):
            cand.append((s0+m.start(1),s0+m.end(1),'≠'))
        for a,e,rep in cand:
            ls=t.rfind('\n',0,a)+1; le=t.find('\n',e); le=len(t) if le<0 else le
            if rep=='≤' and t[a-1:e+1].strip()!='<': pass
            old=t[ls:le]; new=t[ls:a]+rep+t[e:le]
            out.append(dict(file=f,pos=a,end=e,rep=rep,d=name,oldline=old,newline=new))
json.dump(out,open(sys.argv[1],'w'),ensure_ascii=False)
from collections import Counter
print(len(out),Counter(o['file'] for o in out))
