#!/usr/bin/env python3
"""Generates Verif/Hpack/StaticTable.lean from /repo/hpack/src/table/static.rs and Verif/Spec/RfcStatic.lean from the
table of RFC 7541 Appendix A written out below."""
import re, os
OUT=os.path.join(os.path.dirname(os.path.abspath(__file__)),'..','lean','Verif')
src=open('/repo/hpack/src/table/static.rs').read()
ent=re.findall(r'\(b"([^"]*)", b"([^"]*)"\)',src)
assert len(ent)==61
RFC='''1 :authority
2 :method GET
3 :method POST
4 :path /
5 :path /index.html
6 :scheme http
7 :scheme https
8 :status 200
9 :status 204
10 :status 206
11 :status 304
12 :status 400
13 :status 404
14 :status 500
15 accept-charset
16 accept-encoding gzip, deflate
17 accept-language
18 accept-ranges
19 accept
20 access-control-allow-origin
21 age
22 allow
23 authorization
24 cache-control
25 content-disposition
26 content-encoding
27 content-language
28 content-length
29 content-location
30 content-range
31 content-type
32 cookie
33 date
34 etag
35 expect
36 expires
37 from
38 host
39 if-match
40 if-modified-since
41 if-none-match
42 if-range
43 if-unmodified-since
44 last-modified
45 link
46 location
47 max-forwards
48 proxy-authenticate
49 proxy-authorization
50 range
51 referer
52 refresh
53 retry-after
54 server
55 set-cookie
56 strict-transport-security
57 transfer-encoding
58 user-agent
59 vary
60 via
61 www-authenticate'''
rfc=[]
for i,l in enumerate(RFC.split('\n')):
    p=l.split(' ',2); assert int(p[0])==i+1
    rfc.append((p[1],p[2] if len(p)>2 else ''))
def b(s): return '['+', '.join(str(c) for c in s.encode())+']'
def tbl(es): return ',\n'.join(f'  /- {i+1}: {n} = {v} -/ ({b(n)}, {b(v)})' for i,(n,v) in enumerate(es))
open(os.path.join(OUT,'Hpack/StaticTable.lean'),'w').write('''/-! Generated by tools/gen_static.py from /repo/hpack/src/table/static.rs. Do not edit. -/
namespace Verif.Hpack

/-- `STATIC_TABLE`, /repo/hpack/src/table/static.rs:11-73. -/
def STATIC_TABLE : List (List UInt8 × List UInt8) := [
'''+tbl(ent)+']\n\nend Verif.Hpack\n')
open(os.path.join(OUT,'Spec/RfcStatic.lean'),'w').write('''/-! Generated by tools/gen_static.py from the text of RFC 7541 Appendix A contained in that script. Specification. -/
namespace Verif.Spec

/-- RFC 7541 Appendix A. -/
def rfcStatic : List (List UInt8 × List UInt8) := [
'''+tbl(rfc)+']\n\nend Verif.Spec\n')
print(ent==rfc)
