#!/usr/bin/env python3
"""Copy the hand-written Go files of /repo/pkg into lean/Verif/Model/GoSources.lean, in the format of gen_sources.py (which
has encode_amd64.go and decode_amd64.go).  With the argument `check` only compare."""
import os, sys
root = os.path.dirname(os.path.dirname(os.path.abspath(__file__)))
dst = root + "/lean/Verif/Model/GoSources.lean"
o = '''/-!
# The texts of the hand-written Go files of `/repo/pkg`

GENERATED by `/verif/scripts/gen_gosources.py`, in the format of `Sources.lean`: one number per line of the file, its bytes
followed by two bytes for the line number, read as a big-endian number.  `Verif.Model.GoText` reads them.
-/
set_option autoImplicit false
set_option maxRecDepth 100000

namespace SVB.Sources

'''
for name, path in [("genGo", "shared/gen.go"), ("modeGo", "shared/mode.go"),
                   ("encodeMainGo", "encode/encode.go"), ("encodeBaseGo", "encode/encode_base.go"),
                   ("decodeMainGo", "decode/decode.go"), ("decodeBaseGo", "decode/decode_base.go"),
                   ("writerGo", "stream/writer/writer.go"), ("writerAmd64Go", "stream/writer/writer_amd64.go"),
                   ("writerBaseGo", "stream/writer/writer_base.go"),
                   ("readerGo", "stream/reader/reader.go"), ("readerAmd64Go", "stream/reader/reader_amd64.go"),
                   ("readerBaseGo", "stream/reader/reader_base.go"),
                   ("varintGo", "util/varint.go"), ("utilGo", "util/util.go")]:
    b = open("/repo/pkg/" + path, "rb").read()
    assert b.endswith(b"\n") and b"\0" not in b
    ls = b[:-1].split(b"\n")
    o += "/-- `/repo/pkg/%s`. -/\ndef %s : List Nat := [\n" % (path, name)
    for i, l in enumerate(ls):
        o += "  0x" + l.hex() + "%04x" % (i + 1) + ("]" if i == len(ls) - 1 else ",")
        t = l.decode().replace("\t", " ").strip()
        if t and not t.startswith("//"): o += "  -- " + t
        o += "\n"
    o += "\n"
o += "end SVB.Sources\n"
if sys.argv[1:] == ["check"]:
    same = open(dst).read() == o
    print("same" if same else "DIFFERENT")
    sys.exit(not same)
open(dst, "w").write(o)
