#!/usr/bin/env python3
"""Translates the unit tests of /repo into kernel-checked examples about the model (lean/Verif/Conform/*.lean).

These are tests of the model against what the Rust code is known to do, not proofs of properties."""
import re, os, ast
R='/repo'; OUT=os.path.join(os.path.dirname(os.path.abspath(__file__)),'..','lean','Verif','Conform')
def rd(p): return open(os.path.join(R,p)).read()
def testmod(p): s=rd(p); return s[s.index('#[cfg(test)]'):]
def fn(src,name):
    i=src.index('fn %s('%name); j=src.index('{',i)
    return src[j+1:src.index('\n    }\n',j)]
def nums(s):
    s=re.sub(r'//[^\n]*','',s)
    return [eval(x) for x in s.replace('\n',' ').split(',') if x.strip()]
def bs(lit):  # rust byte string b"..." -> list of ints
    return list(ast.literal_eval(lit))
def L(xs): return '['+', '.join(str(x) for x in xs)+']'
HEAD='''import %s
/-! Generated by tools/gen_conform.py from the unit tests of %s: the model computes what the tests of the repository assert.
Tests of the model, checked by the kernel; the properties are proved elsewhere. -/
namespace Verif.Conform
open Verif %s

'''
# ---------------- huffman
o=(HEAD%('Verif.Huffman.Flattener\nimport Verif.Huffman.Encoder\nimport Verif.Huffman.Parser\nimport Verif.Huffman.Asset\nimport Verif.Props.Huffman','/repo/huffman','Verif.Huffman')).replace('namespace Verif.Conform','namespace Verif.Conform.Huff')
t=testmod('huffman/src/decoder/mod.rs')
chars=re.findall(r'\((&\[\d+\]|b"(?:[^"\\]|\\.)*"),\s*vec!\[([^\]]*)\]\)',fn(t,'valid_characters'))
chars=[(c[2:-1] if c[0]=='&' else bs(c)[0],v) for c,v in chars]
assert len(chars)==256
o+='/-- `decodes_characters`, huffman/src/decoder/mod.rs:126-386 and 480-490. -/\ndef validCharacters : List (Bytes × Bytes) := [\n'
o+=',\n'.join('  ([%s], %s)'%(c,L(nums(v))) for c,v in chars)+']\n\n'
o+='example : ∀ sp ∈ Speed.known, ∀ x ∈ validCharacters, decode x.2 [] sp = (.ok (), x.1) := by decide +kernel\n\n'
lits=re.findall(r'\(\s*(b"(?:[^"\\]|\\.)*"|vec!\[[^\]]*\])(?:\.to_vec\(\))?,\s*vec!\[([^\]]*)\],?\s*\)',fn(t,'valid_literals'))
def lit(x): return bs(x) if x.startswith('b"') else nums(x[5:-1])
assert len(lits)==23,len(lits)
o+='/-- `valid_literals`, huffman/src/decoder/mod.rs:387-460. -/\ndef validLiterals : List (Bytes × Bytes) := [\n'
o+=',\n'.join('  (%s, %s)'%(L(lit(a)),L(nums(b))) for a,b in lits)+']\n\n'
inv=re.findall(r'vec!\[([^\[\]]*)\]',fn(t,'invalid_encodings').split('vec![',1)[1])
assert len(inv)==9,len(inv)
o+='/-- `invalid_encodings`, huffman/src/decoder/mod.rs:462-475. -/\ndef invalidEncodings : List Bytes := [\n'
o+=',\n'.join('  '+L(nums(b)) for b in inv)+']\n\n'
o+='''/-- `decodes_literals`, huffman/src/decoder/mod.rs:494-503. -/
example : ∀ sp ∈ Speed.known, ∀ x ∈ validLiterals, decode x.2 [] sp = (.ok (), x.1) := by decide +kernel
example : ∀ sp ∈ Speed.known, ∀ x ∈ invalidEncodings, (decode x [] sp).1 = .err .InvalidInput := by decide +kernel

'''
t=testmod('huffman/src/encoder/mod.rs')
body=t[t.index('fn encodes_bytes'):]
a,b=body.split('dst.clear();')
def encs(s): return [bs(x) for x in re.findall(r'encode\((b"(?:[^"\\]|\\.)*"), &mut dst\)',s)]
def want(s): return nums(re.search(r'assert_eq!\(dst, (?:vec!|&)\[(.*?)\]\);',s,re.S).group(1))
o+='/-- `encodes_bytes`, huffman/src/encoder/mod.rs:156-. Every call appends to the same vector. -/\n'
o+='def encodeAll (xs : List Bytes) (dst : Bytes) : Res EncErr Unit × Bytes :=\n  xs.foldl (fun (r : Res EncErr Unit × Bytes) x => match r.1 with | .ok _ => encode x r.2 | _ => r) (.ok (), dst)\n\n'
for part in (a,b):
    o+='example : encodeAll %s [] =\n    (.ok (), %s) := by decide +kernel\n\n'%(L([L(x) for x in encs(part)]),L(want(part)))
t=testmod('huffman/src/flattener/mod.rs')
tab=re.findall(r'\((\d+), (0x[0-9a-f]+)\)',fn(t,'sample_encoding_table'))
o+='/-- `sample_encoding_table`, huffman/src/flattener/mod.rs:240-252. -/\ndef sampleTable : List (Nat × Nat) := %s\n\n'%L('(%s, %s)'%x for x in tab)
o+='def cellOf (r : Res Unit (List (List Cell))) (i j : Nat) : Option (Nat × Option Cell) :=\n  match r with | .ok t => some (t.length, (t[i]?).bind (·[j]?)) | _ => none\n\n'
for k,nm in enumerate(['OneBit','TwoBits','ThreeBits','FourBits','FiveBits'],1):
    f=fn(t,'flattens_%dbits'%k)
    n=re.search(r'table.len\(\), (\d+)',f).group(1); i,j=re.search(r'table\[(\d+)\]\[(\d+)\]',f).groups(); x=re.search(r'target.0, Some\((\d+)\)',f).group(1)
    o+='/-- `flattens_%dbits`. -/\nexample : cellOf (flatten sampleTable .%s) %s %s = some (%s, some (some %s, none, 0)) := by decide +kernel\n'%(k,nm,i,j,n,x)
f=fn(t,'generates_coding_paths')
o+='\n/-- `generates_coding_paths`, huffman/src/flattener/mod.rs:321-339. -/\nexample :'
parts=re.findall(r'generate_coding_paths\(&\((\d+), (\d+)\), (\d+)\), vec!\[(.*?)\]\);',f,re.S)
o+=' ∧\n   '.join(' codingPaths (%s, %s) %s = .ok %s'%(a,b,c,L(L(nums(v)) for v in re.findall(r'vec!\[([^\]]*)\]',p))) for a,b,c,p in parts)+' := by decide +kernel\n'
t=testmod('huffman/src/parser/mod.rs')
items=re.findall(r'table\[(\d+)\];\s*assert_eq!\(item.0, (\d+)\);\s*assert_eq!\(item.1, (0x[0-9a-f]+)\)',t)
last=re.search(r'last\(\)\.unwrap\(\);\s*assert_eq!\(item.0, (\d+)\);\s*assert_eq!\(item.1, (0x[0-9a-f]+)\)',t).groups()
o+='\n/-- `parses_huffman_table`, huffman/src/parser/mod.rs:74-93 (`parse ASSET = .ok ENCODE_TABLE` is C11). -/\nexample : parse ASSET = .ok ENCODE_TABLE ∧ ENCODE_TABLE.length = 257 ∧ '
o+=' ∧ '.join('ENCODE_TABLE[%s]? = some (%s, %s)'%x for x in items)+' ∧ ENCODE_TABLE.getLast? = some (%s, %s) :=\n  ⟨Verif.Props.C11_table_is_parse, by decide +kernel⟩\n'%last
o+='\nend Verif.Conform.Huff\n'
open(os.path.join(OUT,'Huffman.lean'),'w').write(o)

# ---------------- hpack
o=(HEAD%('Verif.Hpack.Decoder\nimport Verif.Hpack.Encoder','/repo/hpack','Verif.Hpack')).replace('namespace Verif.Conform','namespace Verif.Conform.Hpack')
def S(x): return L(x.encode())
t=testmod('hpack/src/encoder/primitives.rs')
ex=re.findall(r'\((\d+),\s+(\w+), (\d), vec!\[([^\]]*)\]\)',fn(t,'encodes_integer')); assert len(ex)==13
o+='/-- `encodes_integer`, hpack/src/encoder/primitives.rs:123-145. -/\nexample :\n    '+' ∧\n    '.join('encodeInteger %s %s %s = .ok %s'%(v,eval(fl),p,L(nums(r))) for v,fl,p,r in ex)+' := by decide +kernel\n\n'
ex=re.findall(r'\((b"\w+")\.to_vec\(\), (\w+),\s+vec!\[([^\]]*)\]\)',fn(t,'encodes_string')); assert len(ex)==2
o+='/-- `encodes_string`, hpack/src/encoder/primitives.rs:151-161. -/\nexample : '+' ∧ '.join('encodeString %s %s = .ok %s'%(L(bs(v)),h,L(nums(r))) for v,h,r in ex)+' := by decide +kernel\n\n'
t=testmod('hpack/src/decoder/primitives.rs')
ex=re.findall(r'\(vec!\[([^\]]*)\], (\d), (\d+),\s+(\d)\)',fn(t,'decodes_integer').replace('(vec![254], 8, 254, 1)','(vec![254], 8, 254,  1)').replace(', 1)',',  1)').replace(', 2)',',  2)').replace(', 3)',',  3)').replace(', 5)',',  5)')); assert len(ex)==13,len(ex)
o+='/-- `decodes_integer`, hpack/src/decoder/primitives.rs:136-158. -/\nexample :\n    '+' ∧\n    '.join('decodeInteger %s %s = .ok (%s, %s)'%(L(nums(v)),p,r,n) for v,p,r,n in ex)+' := by decide +kernel\n\n'
ex=re.findall(r'\((b"\w+"), vec!\[([^\]]*)\]\)',fn(t,'decodes_string')); assert len(ex)==2
o+='/-- `decodes_string`, hpack/src/decoder/primitives.rs:164-174. -/\nexample : '+' ∧ '.join('decodeString %s .FourBits = .ok (%s, %d)'%(L(nums(r)),L(bs(v)),len(nums(r))) for v,r in ex)+' := by decide +kernel\n\n'
o+='''/-- Insertions one after the other. -/
def inserts (t : Table) : List (Bytes × Bytes) → Option Table
  | [] => some t
  | (n, v) :: r => match (t.insert n v : Res Unit Table) with | .ok t => inserts t r | _ => none

'''
H=lambda *xs: L('(%s, %s)'%(S(a),S(b)) for a,b in xs)
o+='''/-- `inserts_new_headers`, hpack/src/table/dynamic.rs:118-133 and hpack/src/table/mod.rs:205-220. -/
example : (inserts Table.default []).map (fun t => (t.len, t.dynamicLen, t.dynamicSize)) = some (61, 0, 0) ∧
    (inserts Table.default %s).map (fun t => (t.len, t.dynamicLen, t.dynamicSize)) = some (62, 1, 36) ∧
    (inserts Table.default %s).map (fun t => (t.len, t.dynamicLen, t.dynamicSize)) = some (63, 2, 72) ∧
    (inserts Table.default %s).map (fun t => (t.dynamic.get 0, t.dynamic.get 1)) = some (some (%s, %s), some (%s, %s)) := by
  decide +kernel

'''%(H(('a0','b0')),H(('a0','b0'),('a1','b1')),H(('a0','b0'),('a1','b1')),S('a1'),S('b1'),S('a0'),S('b0'))
o+='''/-- `evicts_headers_on_insert`, hpack/src/table/dynamic.rs:140-151. -/
example : (inserts (Table.withDynamicSize 36) %s).map (fun t => (t.dynamicLen, t.dynamicSize)) = some (1, 36) ∧
    (inserts (Table.withDynamicSize 36) %s).map (fun t => (t.dynamicLen, t.dynamicSize)) = some (1, 36) ∧
    (inserts (Table.withDynamicSize 36) %s).map (fun t => (t.dynamicLen, t.dynamicSize)) = some (0, 0) := by
  decide +kernel

'''%(H(('a0','b0')),H(('a0','b0'),('a1','b1')),H(('a0','b0'),('a1','b1'),('big','big')))
o+='''/-- `evicts_headers_on_size_update`, hpack/src/table/dynamic.rs:157-169. -/
example : ((inserts (Table.withDynamicSize 108) %s).map fun t => (t.dynamicLen, t.dynamicSize)) = some (3, 108) ∧
    ((inserts (Table.withDynamicSize 108) %s).map fun t => match (t.updateMaxDynamicSize 40 : Res Unit Table) with
      | .ok t => (t.dynamicLen, t.dynamicSize, t.dynamic.get 0) | _ => (0, 0, none)) = some (1, 36, some (%s, %s)) := by
  decide +kernel

'''%(H(('a0','b0'),('a1','b1'),('a2','b2')),H(('a0','b0'),('a1','b1'),('a2','b2')),S('a2'),S('b2'))
o+='''/-- `iters_through_all_headers`, hpack/src/table/mod.rs:223-230. -/
example : ((inserts Table.default %s).bind Table.iter).map (fun l => (l.length, l.getLast?)) = some (62, some (%s, %s)) := by decide +kernel

'''%(H(('a0','b0')),S('a0'),S('b0'))
o+='''/-- `find_header_by_index`, hpack/src/table/mod.rs:236-249. -/
example : (inserts Table.default %s).map (fun t => [t.get 0, t.get 1, t.get 2, t.get 61, t.get 62]) =
    some [none, some (%s, []), some (%s, %s), some (%s, []), some (%s, %s)] := by decide +kernel

'''%(H(('a0','b0')),S(':authority'),S(':method'),S('GET'),S('www-authenticate'),S('a0'),S('b0'))
o+='''/-- `find_header_match`, hpack/src/table/mod.rs:255-274. -/
example : (inserts Table.default %s).map (fun t => [t.find %s %s, t.find %s %s, t.find %s %s, t.find %s %s, t.find %s %s]) =
    some [some (some (3, true)), some (some (63, true)), some (some (2, false)), some (some (62, false)), some none] := by decide +kernel

'''%((H(('a','b'),('a','c')),)+tuple(S(x) for x in [':method','POST','a','b',':method','DELETE','a','x','x','x']))
o+='''/-- Calls of `encode` one after the other, into one vector. -/
def encodeAll (s : EncoderState) : List EncoderInput → Option EncoderState
  | [] => some s
  | f :: r => match encode f s with | (.ok _, s) => encodeAll s r | _ => none

/-- The octets written and the number of entries of the table. -/
def written (s : EncoderState) (fs : List EncoderInput) : Option (Bytes × Nat) := (encodeAll s fs).map fun s => (s.dst, s.table.len)

/-- `encodes_indexed`, hpack/src/encoder/mod.rs:420-436 (one vector instead of four). -/
example : (inserts Table.default %s).bind (fun t => written { table := t, dst := [] } [.ofIndex 2, .ofIndex 3, .ofIndex 14, .ofIndex 62]) =
    some ([0x82, 0x83, 0x8e, 0xbe], 62) := by decide +kernel

/-- `encodes_indexed_name_with_indexing`, hpack/src/encoder/mod.rs:443-460. -/
example : written .default [.ofIndexedName (2, %s, 6)] = some ([66, 133, 215, 14, 251, 216, 255], 62) ∧
    (encodeAll .default [.ofIndexedName (2, %s, 6)]).map (fun s => s.table.get 62) = some (some (%s, %s)) := by decide +kernel

/-- `encodes_literal_with_indexing`, hpack/src/encoder/mod.rs:467-485. -/
example : written .default [.ofLiteral (%s, %s, 7)] = some ([64, 130, 148, 231, 131, 140, 118, 127], 62) ∧
    (encodeAll .default [.ofLiteral (%s, %s, 7)]).map (fun s => s.table.get 62) = some (some (%s, %s)) := by decide +kernel

/-- `encodes_indexed_name_without_indexing`, hpack/src/encoder/mod.rs:492-500. -/
example : written .default [.ofIndexedName (13, %s, 0)] = some ([13, 5, 80, 65, 84, 67, 72], 61) := by decide +kernel

/-- `encodes_literal_without_indexing`, hpack/src/encoder/mod.rs:508-517. -/
example : written .default [.ofLiteral (%s, %s, 1)] = some ([0, 130, 148, 231, 3, 98, 97, 114], 61) := by decide +kernel

/-- `encodes_indexed_name_never_indexed`, hpack/src/encoder/mod.rs:526-534. -/
example : written .default [.ofIndexedName (13, %s, 8)] = some ([16 + 13, 5, 80, 65, 84, 67, 72], 61) := by decide +kernel

/-- `encodes_literal_never_indexed`, hpack/src/encoder/mod.rs:542-551. -/
example : written .default [.ofLiteral (%s, %s, 8)] = some ([16, 3, 102, 111, 111, 3, 98, 97, 114], 61) := by decide +kernel

'''%(H(('name62','value62')),S('PATCH'),S('PATCH'),S(':method'),S('PATCH'),S('foo'),S('bar'),S('foo'),S('bar'),S('foo'),S('bar'),S('PATCH'),S('foo'),S('bar'),S('PATCH'),S('foo'),S('bar'))
# the specification says index 13 with a 4-bit prefix: 16 + 13 < 16 + 15, one octet
o+='''/-- `encodes_literal_automatically`, hpack/src/encoder/mod.rs:556-570 (one vector instead of three). -/
example : written .default [.ofLiteral (%s, %s, 0x10), .ofLiteral (%s, %s, 0x14), .ofLiteral (%s, %s, 0x11)] =
    some ([130] ++ [66, 6, 68, 69, 76, 69, 84, 69] ++ [0, 129, 31, 1, 98], 62) := by decide +kernel

/-- `updates_max_dynamic_size`, hpack/src/encoder/mod.rs:573-583. -/
example : (inserts (Table.withDynamicSize 70) %s).map (fun t => match encUpdateMaxDynamicSize 50 { table := t, dst := [] } with
    | (.ok _, s) => (s.dst, s.table.dynamicLen) | _ => ([], 0)) = some ([63, 19], 1) := by decide +kernel

'''%(S(':method'),S('GET'),S(':method'),S('DELETE'),S('a'),S('b'),H(('a','a'),('b','b')))
t=testmod('hpack/src/decoder/mod.rs')
o+='''/-- The headers and the number of entries of the table after a successful `decode`. -/
def decoded (s : DecoderState) (buf : Bytes) : Option (List Field × Nat) :=
  match decode { s with buf := buf } with | (.ok _, s) => some (s.dst, s.table.len) | _ => none

'''
for name,ln,l in [('decodes_indexed','410-424',61),('decodes_indexed_name_with_indexing','431-446',63),('decodes_literal_with_indexing','453-468',63),('decodes_indexed_name_without_indexing','474-489',61),
      ('decodes_literal_without_indexing','495-510',61),('decodes_indexed_name_never_indexed','516-531',61),('decodes_literal_never_indexed','537-552',61)]:
    f=fn(t,name)
    buf=nums(re.search(r'let mut buf = vec!\[(.*?)\];',f,re.S).group(1))
    hs=re.findall(r'\((b"[^"]*")\.to_vec\(\), (b"[^"]*")\.to_vec\(\), (0x\d)\)',f); assert len(hs)==2
    m=re.search(r'table\.len\(\), (\d+)',f)
    assert m is None or int(m.group(1))==l
    o+='/-- `%s`, hpack/src/decoder/mod.rs:%s. -/\nexample : decoded .default %s =\n    some (%s, %d) := by decide +kernel\n\n'%(name,ln,L(buf),L('(%s, %s, %s)'%(L(bs(a)),L(bs(b)),c) for a,b,c in hs),l)
o+='''/-- `decodes_exact`, hpack/src/decoder/mod.rs:554-564. -/
example : (decodeExact 1 { DecoderState.default with buf := [0x82, 0x8e] }).2.dst.length = 1 := by decide +kernel

/-- `decodes_max_dynamic_size`, hpack/src/decoder/mod.rs:568-578. -/
example : (inserts (Table.withDynamicSize 70) %s).map (fun t => match decode { DecoderState.withDynamicSize 70 with table := t, buf := [63, 19] } with
    | (.ok _, s) => (s.dst, s.table.maxDynamicSize, s.table.dynamicLen) | _ => ([], 0, 0)) = some ([], 50, 1) := by decide +kernel

/-- `decodes_incomplete_block`, hpack/src/decoder/mod.rs:582-594. -/
example : (match decode { DecoderState.default with buf := [16, 4, 102, 111, 111, 48, 4, 98, 97, 114, 48, 16, 4, 102, 111, 111] } with
    | (.err _, s) => some (s.dst.length, s.buf) | _ => none) = some (1, [16, 4, 102, 111, 111]) := by decide +kernel

'''%H(('a','a'),('b','b'))
t=rd('hpack/tests/specs.rs')
t=t[t.index('let examples'):t.index('for requests in examples')]
groups=re.split(r'vec!\[ // (?:request|response) examples',t)[1:]; assert len(groups)==4
o+='''/-- `encodes_and_decodes_requests`, hpack/tests/specs.rs: each round is encoded, compared with the expected octets, decoded and compared. -/
def rounds (e : EncoderState) (d : DecoderState) : List (List (Bytes × Bytes × UInt8) × Bytes) → Bool
  | [] => true
  | (fields, wire) :: r =>
    match encodeAll { e with dst := [] } (fields.map EncoderInput.ofLiteral) with
    | none => false
    | some e =>
      if e.dst ≠ wire then false else
      match decode { d with buf := e.dst, dst := [] } with
      | (.ok _, d) => d.dst.map (fun h => (h.1, h.2.1)) = fields.map (fun h => (h.1, h.2.1)) && rounds e d r
      | _ => false

'''
for g in groups:
    rs=re.split(r'\( // (?:request|response) \d',g)[1:]; assert len(rs)==3
    items=[]
    for r in rs:
        fs=re.findall(r'\((b"[^"]*")\.to_vec\(\), (b"[^"]*")\.to_vec\(\), (\d+)\)',r)
        rest=r[r.rindex('.to_vec(), '):]
        rest=re.sub(r'//[^\n]*','',rest)
        wire=bytes.fromhex(''.join(re.findall(r'"([0-9a-f]+)"',rest)))
        items.append('(%s,\n      %s)'%(L('(%s, %s, %s)'%(L(bs(a)),L(bs(b)),c) for a,b,c in fs),L(wire)))
    o+='example : rounds .default .default [\n    '+',\n    '.join(items)+'] = true := by decide +kernel\n\n'
o+='end Verif.Conform.Hpack\n'
open(os.path.join(OUT,'Hpack.lean'),'w').write(o)

# ---------------- protos
o=HEAD%('Verif.Protos.Decoder\nimport Verif.Protos.From','/repo/protos','Verif.Protos')
o=o.replace('namespace Verif.Conform','namespace Verif.Conform.Proto')
C={'u64::MIN':'0','u64::MAX':'18446744073709551615','u32::MIN':'0','u32::MAX':'4294967295','i32::MIN':'(-2147483648)','i32::MAX':'2147483647','i64::MIN':'(-9223372036854775808)','i64::MAX':'9223372036854775807','true':'true','false':'false','f32::MIN':'0xFF7FFFFF','f32::MAX':'0x7F7FFFFF','f64::MIN':'0xFFEFFFFFFFFFFFFF','f64::MAX':'0x7FEFFFFFFFFFFFFF'}
t=testmod('protos/src/encoder/primitives.rs')
def cam(s): return ''.join(x.capitalize() for x in s.split('_'))
calls=re.findall(r'encode_(\w+)\((.*?), &mut dst\)\.unwrap\(\);\s*assert_eq!\(dst, vec!\[([^\]]*)\]\);\s*assert_eq!\(size, (\d+)\)',t); assert len(calls)==31,len(calls)
o+='/-! `encodes_*`, protos/src/encoder/primitives.rs:368-590. `f32::MIN` etc. are given by their bits. -/\n\n'
for f,a,v,n in calls:
    if f=='key': tag,ty=a.split(', Typ::'); arg='%s .%s'%(tag,{'Varint':'varint','Bit32':'bit32'}[ty])
    elif f=='bytes': arg=L(nums(re.search(r'\[(.*)\]',a).group(1)))
    else: arg=C[a]
    o+='example : encode%s vecWriter %s [] = (.ok %s, %s) := by decide +kernel\n'%(cam(f),arg,n,L(nums(v)))
t=testmod('protos/src/decoder/primitives.rs')
o+='\n/-! `decodes_*`, protos/src/decoder/primitives.rs:690-. -/\n\n'
cnt=0
for m in re.finditer(r'let buf = vec!\[([^\]]*)\];\s*(?:assert!\(decode_(\w+)\(&buf, &mut dst\)\.is_err\(\)\)|let size = decode_(\w+)\(&buf, &mut dst\)\.unwrap\(\);\s*assert_eq!\(dst(?:\.0)?, ([^)]*)\);\s*(?:assert_eq!\(dst\.1, Typ::(\w+)\);\s*)?assert_eq!\(size, (\d+)\))',t):
    buf,e,f,v,ty,n=m.groups(); cnt+=1; name=e or f
    chk='' if name in('fixed32','fixed64','sfixed32','sfixed64','float','double') else 'true '
    if e: o+='example : (match decode%s %s%s with | .err _ => true | _ => false) = true := by decide +kernel\n'%(cam(e),chk,L(nums(buf)))
    else:
        val=C.get(v,v)
        if ty: val='(%s, .%s)'%(val,{'Bit32':'bit32','LengthDelimited':'lengthDelimited'}[ty])
        o+='example : decode%s %s%s = .ok (%s, %s) := by decide +kernel\n'%(cam(f),chk,L(nums(buf)),val,n)
assert cnt==37,cnt
t=testmod('protos/src/encoder/mod.rs')
wire=nums(re.search(r'assert_eq!\(dst, vec!\[(.*?)\]\);',t,re.S).group(1))
o+='''
/-- The octets of `encodes_supported` and `decodes_supported`. -/
def wire : Bytes := %s

/-- The fields of `encodes_supported`, protos/src/encoder/mod.rs:682-712. -/
def fields : List (UInt32 × EncoderLit) := [
  (1, .ofBytes [102, 111, 111]), (2, .ofBool true), (3, .ofBoolVec [false, true]), (4, .ofI32 1), (5, .ofI32Vec [-100, 100]), (6, .ofI64 1),
  (7, .ofI64Vec [-100, 100]), (8, .ofU32 1), (9, .ofU32Vec [1, 2]), (10, .ofU64 1), (11, .ofU64Vec [1, 2]), (12, .ofF32 0x3F800000),
  (13, .ofF32Vec [0x3F800000, 0x40000000]), (14, .ofF64 0x3FF0000000000000), (15, .ofF64Vec [0x3FF0000000000000, 0x4000000000000000]),
  (16, .ofBytes [102, 111, 111]), (17, .sint32 (-10)), (18, .sint32Vec [-10, 10]), (19, .sint64 (-10)), (20, .sint64Vec [-10, 10]),
  (21, .fixed32 10), (22, .fixed32Vec [1, 2]), (23, .fixed64 10), (24, .fixed64Vec [1, 2]), (25, .sfixed32 (-10)), (26, .sfixed32Vec [-10, 10]),
  (27, .sfixed64 (-10)), (28, .sfixed64Vec [-10, 10])]

def writeAll : List (UInt32 × EncoderLit) → Nat → Bytes → Option (Nat × Bytes)
  | [], n, dst => some (n, dst)
  | (tag, lit) :: r, n, dst => match Encoder.encode vecWriter tag lit dst with | (.ok k, dst) => writeAll r (n + k) dst | _ => none

example : writeAll fields 0 [] = some (209, wire) := by decide +kernel

'''%L(wire)
t=testmod('protos/src/decoder/mod.rs')
assert nums(re.search(r'let mut src = vec!\[(.*?)\];',t,re.S).group(1))==wire
o+='/-- `decodes_supported`, protos/src/decoder/mod.rs:294-423: tags, wire types and count. -/\nexample : (match decode true (DState.fresh wire) with | (.ok n, s) => some (n, s.dst.map fun f => (f.1, f.2.1)) | _ => none) =\n    some (209, ['
tys=re.findall(r'index == (\d+) \{\s*assert_eq!\(typ, Typ::(\w+)\);(.*?)\}',t,re.S); assert len(tys)==28
T={'Varint':'varint','Bit32':'bit32','Bit64':'bit64','LengthDelimited':'lengthDelimited'}
o+=', '.join('(%s, .%s)'%(i,T[x]) for i,x,_ in tys)+']) := by decide +kernel\n\n'
o+='/-- The values. -/\ndef payloads : List Bytes := (decode true (DState.fresh wire)).2.dst.map fun f => f.2.2\n\nexample :'
conv=[]
TOC={'bool':'toBool','i32':'toI32','i64':'toI64','u32':'toU32','u64':'toU64','f32':'toF32','f64':'toF64'}
F={'1.0f32':'0x3F800000','2.0f32':'0x40000000','1.0f64':'0x3FF0000000000000','2.0f64':'0x4000000000000000'}
def val(v):
    v=v.strip()
    if v in F: return F[v]
    v=re.sub(r'(i|u)(32|64)$','',v)
    return '(%s)'%v if v.startswith('-') else v
for i,x,b in tys:
    m=re.search(r'assert_eq!\((Vec::<(\w+)>|\w+)::from\(DecoderLit::(\w+)\(byt\)\), (.*)\);',b)
    whole,inner,l,v=m.groups()
    l=l[0].lower()+l[1:]
    l={'uInt32':'uint32','uInt64':'uint64','sInt32':'sint32','sInt64':'sint64','sFixed32':'sfixed32','sFixed64':'sfixed64','uInt32Vec':'uint32Vec','uInt64Vec':'uint64Vec','sInt32Vec':'sint32Vec','sInt64Vec':'sint64Vec','sFixed32Vec':'sfixed32Vec','sFixed64Vec':'sfixed64Vec'}.get(l,l)
    k=int(i)-1
    src='(.%s (payloads.getD %d []))'%(l,k)
    if inner=='u8': conv.append('DecoderLit.toBytes %s = %s'%(src,L(nums(re.search(r'\[(.*)\]',v).group(1)))))
    elif inner: conv.append('DecoderLit.%sVec %s%s = .ok [%s]'%(TOC[inner],'' if inner[0]=='f' else 'true ',src,', '.join(val(q) for q in re.search(r'\[(.*)\]',v).group(1).split(','))))
    elif whole=='String': conv.append('DecoderLit.toBytes %s = [102, 111, 111]'%src)
    else: conv.append('DecoderLit.%s %s%s = .ok %s'%(TOC[whole],'' if whole[0]=='f' else 'true ',src,val(v)))
o+='\n    '+' ∧\n    '.join(conv)+' := by\n  decide +kernel\n\n'
o+='/-- The last lines of `decodes_supported`: a key of zero is an error. -/\nexample : ∃ e s, decode true (DState.fresh [0]) = (.err e, s) := ⟨_, _, rfl⟩\n\nend Verif.Conform.Proto\n'
open(os.path.join(OUT,'Protos.lean'),'w').write(o)
