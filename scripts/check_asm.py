#!/usr/bin/env python3
"""Compare lean/Verif/Model/Asm.lean with /repo/pkg/*/*_amd64.s: print every modelled instruction in Go syntax and
compare it with the instruction lines of the TEXT blocks (spacing and parameter names aside)."""
import os, re, sys
root = os.path.dirname(os.path.dirname(os.path.abspath(__file__)))
lean = open(root + "/lean/Verif/Model/Asm.lean").read()

def items(name):
    """The list `name`, definitions it mentions unfolded."""
    m = re.search(r"^def %s : List Instr := (.*?)\n\n" % name, lean, re.S | re.M)
    body = re.sub(r"--[^\n]*", "", m.group(1))
    out = []
    for part in re.split(r"\+\+", body):
        part = part.strip()
        if part.startswith("["):
            out += [i.split() for i in part.strip("[]\n ").split(",")]
        else:
            out += items(part)
    return out

low = {"AX": "AL", "BX": "BL", "CX": "CL", "DX": "DL"}
def mem(d, b): return ("" if d == "0" else d) + "(%s)" % b
def imm(n): return "$0x%02x" % int(n)
def show(i):
    op, a = i[0], i[1:]
    if op in ("MOVQ_arg", "MOVWQZX_arg", "VBROADCASTSS_arg"): return [op[:-4], "+%s(FP)" % a[0], a[1]]
    if op == "MOVW_ret": return ["MOVW", a[0], "+%s(FP)" % a[1]]
    if op == "MOVBQZX": return [op, low[a[0]], a[1]]
    if op == "MOVBQZX_mem": return ["MOVBQZX", mem("0", a[0]), a[1]]
    if op == "VLDDQU": return [op, mem(a[0], a[1]), a[2]]
    if op == "VMOVDQU": return [op, a[0], mem(a[1], a[2])]
    if op == "VPBROADCASTW": return [op, a[0][1:] + "<>+0(SB)", a[1]]
    if op in ("SHLQ", "SHRQ", "VPALIGNR", "VPSLLDQ", "VPSHUFD"): return [op, imm(a[0])] + a[1:]
    if op == "VPSHUFB": return [op, mem("0", a[0])] + a[1:]
    return [op] + a

def texts(path):
    out, cur = {}, None
    for line in open(path):
        line = line.split("//")[0].strip()
        m = re.match(r"TEXT ·(\w+)\(SB\)", line)
        if m:
            cur = out[m.group(1)] = []
        elif cur is not None and line and not re.match(r"(DATA|GLOBL|#)", line):
            w = line.split(None, 1)
            ops = [re.sub(r"^[a-zA-Z_]\w*(\+\d+\(FP\))", r"\1", o.strip()) for o in w[1].split(",")] if len(w) > 1 else []
            cur.append([w[0]] + ops)
    return out

src = {**texts("/repo/pkg/encode/encode_amd64.s"), **texts("/repo/pkg/decode/decode_amd64.s")}
bad = 0
for go, name in [("Put8uint32FastAsm", "put8uint32FastText"), ("Put8uint32DeltaFastAsm", "put8uint32DeltaFastText"),
                 ("Get8uint32FastAsm", "get8uint32FastText"), ("Get8uint32DeltaFastAsm", "get8uint32DeltaFastText")]:
    want, got = src.pop(go), [show(i) for i in items(name)] + [["RET"]]
    print(go, len(want), "instructions:", "same" if want == got else "DIFFERENT")
    if want != got:
        bad += 1
        for w, g in zip(want, got):
            if w != g: print("  ", w, g)
if src:
    bad += 1
    print("not modelled:", list(src))
sys.exit(bad)
