#!/usr/bin/env python3
"""Generates Verif/Lemmas/HuffPaths.lean: for every row of every decoding table the bit path leading to it, given as
(length, symbol whose code starts with that path). Proof helper data only: the kernel checks it."""
import re, os
H='/repo/huffman/'
OUT=os.path.join(os.path.dirname(os.path.abspath(__file__)),'..','lean','Verif')
enc=[(int(a),int(b,16)) for a,b in re.findall(r'\((\d+), 0x([0-9a-f]+)\)',open(H+'src/encoder/table.rs').read())]
bits=[format(c,'0%db'%l) for l,c in enc]
def parse(i):
    t=open(H+f'src/decoder/table{i}.rs').read()
    t=t[t.index('= ['):]
    out=[]
    for r in re.findall(r'\[ // \d+\n(.*?)\]',t,re.S):
        f=lambda x:None if x=='None' else int(x[5:-1])
        out.append([(f(a),f(b),int(c)) for a,b,c in re.findall(r'\((None|Some\(\d+\)), (None|Some\(\d+\)), (\d+)\)',r)])
    return out
s='''/-! Generated by tools/gen_paths.py. Proof helper data (checked by the kernel in HuffTables.lean): for every row of
a decoding table the path of bits that leads to it, as `(length, a symbol whose code continues the path)`. -/
namespace Verif.Huffman

'''
for i in range(1,6):
    T=parse(i)
    path=[None]*len(T); path[0]=''
    todo=[0]
    while todo:
        r=todo.pop()
        for k,(n,a,l) in enumerate(T[r]):
            if n is not None:
                assert path[n] is None
                path[n]=path[r]+format(k,'0%db'%i); todo.append(n)
    assert all(p is not None for p in path)
    ws=[(len(p),next(j for j,b in enumerate(bits) if b.startswith(p) and len(b)>len(p))) for p in path]
    s+=f'def PATHS{i} : List (Nat × Nat) := ['+', '.join(f'({a}, {b})' for a,b in ws)+']\n\n'
s+='end Verif.Huffman\n'
open(os.path.join(OUT,'Lemmas/HuffPaths.lean'),'w').write(s)
