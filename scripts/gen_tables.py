"""Transcribe /repo/pkg/shared/tables.go into lean/Verif/Model/Tables.lean (literal copy of every entry)."""
import re
src=open('/repo/pkg/shared/tables.go').read()
def body(name):
    i=src.index('var %s '%name); j=src.index('{\n',i)+2; k=src.index('\n}\n',j)
    return re.sub(r'//[^\n]*','',src[j:k])
def rows(name):
    return [[int(x,0) for x in r.replace('\n',' ').split(',') if x.strip()] for r in re.findall(r'\{([^}]*)\}',body(name))]
def flat(name):
    return [int(x,0) for x in body(name).replace('\n',' ').split(',') if x.strip()]
num,enc,dec,ln=rows('PerNumLenTable'),rows('EncodeShuffleTable'),rows('DecodeShuffleTable'),flat('PerControlLenTable')
assert len(num)==len(enc)==len(dec)==len(ln)==256 and all(len(r)==4 for r in num) and all(len(r)==16 for r in enc+dec)
def L(r): return '['+', '.join(map(str,r))+']'
o='''/-!
# The lookup tables of `/repo/pkg/shared/tables.go`

GENERATED by `/verif/scripts/gen_tables.py`: a literal copy of every entry of the Go file.
-/
namespace SVB

set_option maxRecDepth 100000

'''
for n,doc,r in [('perNumLenTable','`PerNumLenTable`, `/repo/pkg/shared/tables.go:5-70`.',num),('encodeShuffleTable','`EncodeShuffleTable`, `/repo/pkg/shared/tables.go:107-620` (0xff = 255).',enc),('decodeShuffleTable','`DecodeShuffleTable`, `/repo/pkg/shared/tables.go:622-1135` (0xff = 255).',dec)]:
    o+='/-- %s -/\ndef %s : List (List Nat) := [\n  %s]\n\n'%(doc,n,',\n  '.join(map(L,r)))
o+='/-- `PerControlLenTable`, `/repo/pkg/shared/tables.go:72-105`. -/\ndef perControlLenTable : List Nat := [\n  %s]\n\nend SVB\n'%(',\n  '.join(', '.join(map(str,ln[i:i+16])) for i in range(0,256,16)))
open('/verif/lean/Verif/Model/Tables.lean','w').write(o)
