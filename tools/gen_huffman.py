#!/usr/bin/env python3
"""Generates Verif/Huffman/{Table,DecodeTable1..5,Asset}.lean and Verif/Spec/RfcCodes.lean from the text of /repo."""
import re, os
H='/repo/huffman/'
OUT=os.path.join(os.path.dirname(os.path.abspath(__file__)),'..','lean','Verif')
def w(p,s):
    open(os.path.join(OUT,p),'w').write(s)

# --- encoder/table.rs
t=open(H+'src/encoder/table.rs').read()
enc=re.findall(r'\((\d+), (0x[0-9a-f]+)\)',t)
assert len(enc)==257
s='''/-! Generated by tools/gen_huffman.py from /repo/huffman/src/encoder/table.rs. Do not edit. -/
namespace Verif.Huffman

/-- `ENCODE_TABLE`, /repo/huffman/src/encoder/table.rs:5-263: `(length, code)` per symbol, 257 entries. -/
def ENCODE_TABLE : List (Nat × Nat) := [
'''
s+=',\n'.join(f'  ({a}, {b})' for a,b in enc)
s+=']\n\nend Verif.Huffman\n'
w('Huffman/Table.lean',s)

# --- decoder/tableN.rs
for i in range(1,6):
    t=open(H+f'src/decoder/table{i}.rs').read()
    t=t[t.index('= ['):]
    rows=re.findall(r'\[ // \d+\n(.*?)\]',t,re.S)
    out=[]
    for r in rows:
        cells=re.findall(r'\((None|Some\(\d+\)), (None|Some\(\d+\)), (\d+)\)',r)
        assert len(cells)==2**i
        f=lambda x:'none' if x=='None' else 'some '+x[5:-1]
        out.append('  ['+', '.join(f'({f(a)}, {f(b)}, {c})' for a,b,c in cells)+']')
    nl=open(H+f'src/decoder/table{i}.rs').read().count('\n')
    s=f'''/-! Generated by tools/gen_huffman.py from /repo/huffman/src/decoder/table{i}.rs. Do not edit. -/
namespace Verif.Huffman

/-- `DECODE_TABLE`, /repo/huffman/src/decoder/table{i}.rs:3-{nl}: rows of `(next_id, ascii, leftover)`. -/
def DECODE_TABLE{i} : List (List (Option Nat × Option Nat × Nat)) := [
'''
    s+=',\n'.join(out)+']\n\nend Verif.Huffman\n'
    w(f'Huffman/DecodeTable{i}.lean',s)

# --- asset
raw=open(H+'assets/hpack-huffman.txt','rb').read()
lines=raw.split(b'\n')
assert len(lines)==257
s='''/-! Generated by tools/gen_huffman.py from /repo/huffman/assets/hpack-huffman.txt. Do not edit. -/
namespace Verif.Huffman

/-- The lines of /repo/huffman/assets/hpack-huffman.txt:1-257. Each line is one numeral whose base-256 digits are
the bytes of the line, preceded by a digit 1 so that the length is determined. -/
def ASSET_LINES : List Nat := [
'''
s+=',\n'.join('  0x01'+l.hex() for l in lines)
s+=''']

/-- Base-256 digits of `n`, most significant first, without the leading marker digit 1. -/
def assetLineBytes : Nat → Nat → List UInt8 → List UInt8
  | 0, _, acc => acc
  | fuel + 1, n, acc => if n ≤ 1 then acc else assetLineBytes fuel (n / 256) (UInt8.ofNat (n % 256) :: acc)

/-- The bytes of the asset file: its lines joined by newline (the file has no newline at its end). -/
def ASSET : List UInt8 :=
  ((ASSET_LINES.map (fun n => assetLineBytes 100 n [])).intersperse [10]).flatten

end Verif.Huffman
'''
w('Huffman/Asset.lean',s)

# --- spec codes: binary column of RFC 7541 Appendix B
s='''/-! Generated by tools/gen_huffman.py: the binary column of the table of RFC 7541 Appendix B
(`/repo/huffman/assets/hpack-huffman.txt`). Do not edit.

This is specification text: the codes as bit strings, most significant bit first, one per line; the line
number is the symbol (0-255 are octets, 256 is EOS). -/
namespace Verif.Spec

local notation "I" => true
local notation "O" => false

def rfcCodes : List (List Bool) := [
'''
def bl(l):
    b=l[12:45].replace(b'|',b'').replace(b' ',b'').decode()
    return '  ['+', '.join('I' if c=='1' else 'O' for c in b)+']'
s+=',\n'.join(bl(l) for l in lines)+']\n\nend Verif.Spec\n'
w('Spec/RfcCodes.lean',s)
