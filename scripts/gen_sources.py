#!/usr/bin/env python3
"""Copy the generated source files of /repo, and the Go files that declare the assembly functions, into lean/Verif/Model/Sources.lean, one number per line of text: its bytes
and the line number (two bytes) read as a big-endian number.  With the argument `check` only compare."""
import os, sys
root = os.path.dirname(os.path.dirname(os.path.abspath(__file__)))
dst = root + "/lean/Verif/Model/Sources.lean"
o = '''/-!
# The texts of the generated files of `/repo` and of the Go files that declare the assembly functions

GENERATED by `/verif/scripts/gen_sources.py`: one number per line of the file, its bytes followed by two bytes for the line
number, read as a big-endian number.  (Without the line numbers many of these numbers would end in the same 64 bits, which
makes the kernel slow.)  `Verif.Model.SourceText` reads them.
-/
set_option autoImplicit false
set_option maxRecDepth 100000

namespace SVB.Sources

'''
for name, path, shown in [("tablesGo", "pkg/shared/tables.go", False), ("encodeS", "pkg/encode/encode_amd64.s", True),
                          ("decodeS", "pkg/decode/decode_amd64.s", True), ("encodeGo", "pkg/encode/encode_amd64.go", False),
                          ("decodeGo", "pkg/decode/decode_amd64.go", False)]:
    b = open("/repo/" + path, "rb").read()
    assert b.endswith(b"\n") and b"\0" not in b
    ls = b[:-1].split(b"\n")
    names = []
    for k in range(0, len(ls), 128):
        part = name if len(ls) <= 128 else "%s%d" % (name, k // 128)
        names.append(part)
        o += "/-- `/repo/%s:%d-%d`. -/\ndef %s : List Nat := [\n" % (path, k + 1, min(k + 128, len(ls)), part)
        for i, l in enumerate(ls[k:k + 128]):
            last = i == len(ls[k:k + 128]) - 1
            o += "  0x" + l.hex() + "%04x" % (k + i + 1) + ("]" if last else ",")
            if shown and l: o += "  -- " + l.decode().replace("\t", " ").strip()
            o += "\n"
        o += "\n"
    if len(names) > 1:
        o += "/-- `/repo/%s`. -/\ndef %s : List Nat :=\n  %s\n\n" % (path, name, " ++ (".join(names) + ")" * (len(names) - 1))
o += "end SVB.Sources\n"
if sys.argv[1:] == ["check"]:
    same = open(dst).read() == o
    print("same" if same else "DIFFERENT")
    sys.exit(not same)
open(dst, "w").write(o)
