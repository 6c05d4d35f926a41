#!/usr/bin/env python3
"""Copy the generators, pkg/util/rand.go and tools/parse_and_write_bench.go into lean/Verif/Model/ScriptSources.lean, in the
format of gen_sources.py.  With the argument `check` only compare."""
import os, sys
root = os.path.dirname(os.path.dirname(os.path.abspath(__file__)))
dst = root + "/lean/Verif/Model/ScriptSources.lean"
o = '''/-!
# The texts of the programs of `/repo`: the generators and the benchmark tool

GENERATED by `/verif/scripts/gen_scripts.py`, in the format of `Sources.lean`: one number per line of the file, its bytes
followed by two bytes for the line number, read as a big-endian number.  `Verif.Model.ScriptText` reads them.
-/
set_option autoImplicit false
set_option maxRecDepth 100000

namespace SVB.Sources

'''
for name, path in [("gentablesGo", "pkg/shared/main/gentables.go"), ("sharedAsmGo", "pkg/shared/asm.go"),
                   ("encodeAsmGo", "pkg/encode/main/asm.go"), ("decodeAsmGo", "pkg/decode/main/asm.go"),
                   ("encodeGenGo", "pkg/encode/gen.go"), ("decodeGenGo", "pkg/decode/gen.go"),
                   ("randGo", "pkg/util/rand.go"), ("benchGo", "tools/parse_and_write_bench.go")]:
    b = open("/repo/" + path, "rb").read()
    assert b.endswith(b"\n") and b"\0" not in b
    ls = b[:-1].split(b"\n")
    o += "/-- `/repo/%s`. -/\ndef %s : List Nat := [\n" % (path, name)
    for i, l in enumerate(ls):
        o += "  0x" + l.hex() + "%04x" % (i + 1) + ("]" if i == len(ls) - 1 else ",")
        t = l.decode().replace("\t", " ").strip()
        if t and not t.startswith("//"): o += "  -- " + t
        o += "\n"
    o += "\n"
o += "end SVB.Sources\n"
if sys.argv[1:] == ["check"]:
    same = open(dst).read() == o
    print("same" if same else "DIFFERENT")
    sys.exit(not same)
open(dst, "w").write(o)
