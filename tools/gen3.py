import re,json,sys,random
sys.argv=['x','/tmp/ops3.json','Protos/Narrow.lean','Protos/Socket.lean','Hpack/Capacity.lean','Hpack/Client.lean','Huffman/Float.lean','Protos/Client.lean']
exec(open('/tmp/genmut.py').read())
ops=json.load(open('/tmp/ops3.json'))
R='/verif/lean/Verif/'
out=[]
def add(f,a,e,rep,t,d,claim=''):
    ls=t.rfind('\n',0,a)+1; le=t.find('\n',e); le=len(t) if le<0 else le
    out.append(dict(file=f,pos=a,end=e,rep=rep,d=d,oldline=t[ls:le],newline=t[ls:a]+rep+t[e:le]))
def defname(t,pos):
    m=list(re.finditer(r'^def\s+([^\s:({\[]+)',t[:pos],re.M))
    return m[-1].group(1) if m else None
HD=['InvalidInput','InvalidIndex','InvalidPrefix','IntegerOverflow','IntegerUnderflow','InvalidMaxDynamicSize']
HE=HD[:4]
PD=['inputUnderflow','invalidInput']
PE=['interrupted','invalidTag','dataOverflow']
for f,C in [('Hpack/Primitives.lean',None),('Hpack/Decoder.lean',HD),('Hpack/Encoder.lean',HE),('Protos/Decoder.lean',PD),('Protos/Encoder.lean',PE)]:
    t=open(R+f).read(); c=strip_comments(t)
    for m in re.finditer(r'(?:\.err |M\.throw |Res\.err )(?:\w+)?\.(\w+)',c):
        d=defname(t,m.start())
        if not d: continue
        k=m.group(1)
        lst=C or (HE if d.startswith('encode') else HD)
        if k not in lst: continue
        if c[m.end():m.end()+3] in (', _',' =>') : continue
        line=c[c.rfind('\n',0,m.start())+1:m.start()]
        if '|' in line and '=>' not in line: continue
        for o in lst:
            if o!=k: add(f,m.start(1),m.end(1),o,t,d)
    # drop whole M.modify lines / replace with pure ()
    for m in re.finditer(r'M\.modify fun s => \{[^}\n]*\}',c):
        add(f,m.start(),m.end(),'pure ()',t,defname(t,m.start()))
    for m in re.finditer(r'\bpure total\b',c):
        d=defname(t,m.start())
        add(f,m.start(),m.end(),'pure 0',t,d)
    for m in re.finditer(r'(?<!Res)\.panic\b(?!, )',c):
        ln=c[c.rfind('\n',0,m.start())+1:m.start()]
        d=defname(t,m.start())
        if not d or '|' in ln and '=>' not in ln: continue
        if '=>' in ln and '.panic' in ln: continue
        if f.startswith('Hpack') or f=='Protos/Decoder.lean':
            if c[m.start()-1]=='M': rep='.throw .InvalidIndex' if f.startswith('Hpack') else '.throw .invalidInput'
            else: rep='.err .IntegerUnderflow' if f.startswith('Hpack') else '.err .inputUnderflow'
            add(f,m.start(),m.end(),rep,t,d)
    # swap argument names
    for x,y in [('name','value'),('h.1','h.2'),('entry.1','value'),('a','b')]:
        for m in re.finditer(r'(?<![\w.])'+re.escape(x)+r' '+re.escape(y)+r'(?![\w.])',c):
            ln=c[c.rfind('\n',0,m.start())+1:m.start()]
            if 'def ' in ln or '| ' in ln: continue
            add(f,m.start(),m.end(),f'{y} {x}',t,defname(t,m.start()))
# arm swaps
t=open(R+'Protos/Encoder.lean').read(); c=strip_comments(t)
i0=c.index('def encode (tag : UInt32) : EncoderLit')
arms=list(re.finditer(r'  \| \.(\w+) v => (\w+) w tag v',c[i0:]))
same={'uint32':'fixed32','uint64':'fixed64','int32':'sint32','int64':'sint64','sint32':'sfixed32','sint64':'sfixed64','fixed32':'float','fixed64':'double','sfixed32':'int32','sfixed64':'int64','float':'uint32','double':'uint64'}
for v in list(same): same[v+'Vec']=same[v]+'Vec'
for m in arms:
    if m.group(1) in same: add('Protos/Encoder.lean',i0+m.start(2),i0+m.end(2),same[m.group(1)],t,'encode')
for m in re.finditer(r'def (\w+) \(tag : UInt32\)[^\n]*\n?[^\n]*keyThen w tag (\.\w+)',c):
    for ty in ['.varint','.bit32','.bit64','.lengthDelimited']:
        if ty!=m.group(2): add('Protos/Encoder.lean',m.start(2),m.end(2),ty,t,m.group(1))
t=open(R+'Protos/Decoder.lean').read(); c=strip_comments(t)
for m in re.finditer(r'  \| \.(\w+) b => \w+ (?:\w+ )?\((decode\w+)',c):
    k=m.group(1); b=k.replace('Vec','')
    s=same.get(b)
    if not s: continue
    need_chk=lambda n: n in('int32','int64','uint32','uint64','sint32','sint64')
    if need_chk(s)==need_chk(b):
        add('Protos/Decoder.lean',m.start(2),m.end(2),'decode'+s[0].upper()+s[1:]+('Vec' if 'Vec' in k else ''),t,'DecoderLit.'+k)
t=open(R+'Protos/From.lean').read(); c=strip_comments(t)
for m in re.finditer(r'EncoderLit := \.(\w+) v',c):
    if m.group(1) in same: add('Protos/From.lean',m.start(1),m.end(1),same[m.group(1)],t,'of'+m.group(1))
for i,o in enumerate(ops): out.append(o)
for i,o in enumerate(out): o['id']=f'b{i:04d}'
json.dump(out,open('/tmp/sel3.json','w'),ensure_ascii=False)
from collections import Counter
print(len(out),len(ops),Counter(o['file'] for o in out))
