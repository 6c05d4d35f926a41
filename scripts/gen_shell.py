#!/usr/bin/env python3
"""Copy the shell scripts and the Makefile into lean/Verif/Model/ShellSources.lean, in the format of
gen_sources.py.  With the argument `check` only compare."""
import os, sys
root = os.path.dirname(os.path.dirname(os.path.abspath(__file__)))
dst = root + "/lean/Verif/Model/ShellSources.lean"
o = '''/-!
# The texts of the shell scripts and of the Makefile of `/repo`

GENERATED by `/verif/scripts/gen_shell.py`, in the format of `Sources.lean`: one number per line of the file, its bytes
followed by two bytes for the line number, read as a big-endian number.  `Verif.Model.Shell` reads them.
-/
set_option autoImplicit false

namespace SVB.Sources

'''
for name, path in [("checkSh", "tools/generate_and_check.sh"), ("updateSh", "tools/update_bench.sh"), ("makefile", "Makefile")]:
    b = open("/repo/" + path, "rb").read()
    assert b"\0" not in b
    if b.endswith(b"\n"): b = b[:-1]
    ls = b.split(b"\n")
    o += "/-- `/repo/%s`. -/\ndef %s : List Nat := [\n" % (path, name)
    for i, l in enumerate(ls):
        o += "  0x" + l.hex() + "%04x" % (i + 1) + ("]" if i == len(ls) - 1 else ",")
        t = l.decode().replace("\t", " ").strip()
        if t: o += "  -- " + t
        o += "\n"
    o += "\n"
o += "end SVB.Sources\n"
if sys.argv[1:] == ["check"]:
    same = open(dst).read() == o
    print("same" if same else "DIFFERENT")
    sys.exit(not same)
open(dst, "w").write(o)
