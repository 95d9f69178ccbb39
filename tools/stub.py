import re,sys,os,shutil,glob
src='/verif/lean'; dst=sys.argv[1]
def stub(t):
    lines=t.split('\n'); out=[]; i=0; n=len(lines)
    top=re.compile(r'^(theorem|private theorem|protected theorem|def|abbrev|structure|inductive|instance|example|namespace|end|open|section|variable|set_option|@\[|/--|/-|/-!|import|mutual|deriving|attribute|local|scoped|noncomputable|macro|syntax|termination_by|decreasing_by|infix|notation|universe|class|-- )')
    def block_end(j):
        k=j+1
        while k<n and not (lines[k] and top.match(lines[k])): k+=1
        return k
    while i<n:
        l=lines[i]
        if l.startswith('/-'):
            # comment copy
            j=i
            while '-/' not in lines[j]: j+=1
            out+=lines[i:j+1]; i=j+1; continue
        if l.startswith('example'):
            i=block_end(i); 
            # drop preceding set_option ... in / doc comment
            while out and re.match(r'^set_option .* in$',out[-1]): out.pop()
            if out and out[-1].endswith('-/'):
                j=len(out)-1
                while not out[j].startswith('/-'): j-=1
                if out[j].startswith('/--'): del out[j:]
            while out and re.match(r'^set_option .* in$',out[-1]): out.pop()
            continue
        m=re.match(r'^(@\[[^\]]*\] )?(private |protected )?theorem ',l)
        if m:
            e=block_end(i); depth=0; done=False
            for k in range(i,e):
                s=lines[k]
                if k>i and s.startswith('  |') and False: pass
                p=0
                st=s.strip()
                islet=st.startswith('let ') or st.startswith('have ')
                cut=None
                while p<len(s):
                    c=s[p]
                    if c=="'" and p+2<len(s) and s[p+2]=="'": p+=3; continue
                    if c in '([{⟨': depth+=1
                    elif c in ')]}⟩': depth-=1
                    elif s.startswith(':=',p) and depth==0:
                        # is there a let before in this line w/o ; after
                        pre=s[:p]
                        lets=len(re.findall(r'(?:^|[\s(])let ',pre)); seen=pre.count(':=')
                        if lets>seen and not s.rstrip().endswith(':= by'): p+=2; continue
                        cut=p; break
                    p+=1
                if cut is not None:
                    out.append(s[:cut].rstrip()+' := stubbed'); done=True; break
                if re.search(r' where$',s) and depth==0:
                    out.append(s[:-6]+' := stubbed'); done=True; break
                # pattern-matching theorem
                if k>i and re.match(r'^  \| ',s) and depth==0:
                    out[-1]=out[-1]+' := stubbed'; done=True; break
                out.append(s)
            if not done: print('NOCUT',l[:80])
            out.append('')
            i=e; continue
        out.append(l); i+=1
    return '\n'.join(out)
if os.path.exists(dst): 
    pass
for r,ds,fs in os.walk(src):
    if '.lake' in r: continue
    for f in fs:
        p=os.path.join(r,f); q=p.replace(src,dst,1); os.makedirs(os.path.dirname(q),exist_ok=True)
        if f.endswith('.lean') and '/Verif/' in p:
            t=stub(open(p).read())
            if p.endswith('/Conform/') : continue
            t='import Verif.Stub\n'+t
            open(q,'w').write(t)
        else: shutil.copy(p,q)

open(dst+'/Verif/Stub.lean','w').write('axiom stubbed {p : Prop} : p\n')
