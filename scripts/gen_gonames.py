#!/usr/bin/env python3
"""Write lean/Verif/Proofs/GoNames.lean: what the package-level names in the Go files refer to.

Reads lean/Verif/Model/GoFiles.lean.  Every line of the output is a theorem checked by Lean.
"""
import re

SRC = '/verif/lean/Verif/Model/GoFiles.lean'
DST = '/verif/lean/Verif/Proofs/GoNames.lean'

BUILTINS = {
    'shared': ['int'],
    'encode': ['uint8', 'byte', 'uint16', 'panic'],
    'decode': ['uint8', 'int', 'uint32', 'panic'],
    'writer': ['len', 'make', 'uint8', 'panic'],
    'reader': ['uint16', 'panic'],
    'util': ['len', 'uint32', 'uint64'],
}
CONSTS = {
    ('shared', 'Normal'): '.int 0', ('shared', 'Fast'): '.int 1', ('encode', 'MaxBytesPerNum'): '.const 4',
    ('writer', 'jump'): '.const 16', ('writer', 'jumpCtrl'): '.const 4',
    ('reader', 'jump'): '.const 16', ('reader', 'jumpCtrl'): '.const 4',
}
TABLES = [('PerControlLenTable', '.table .ctrlLen [256]'), ('PerNumLenTable', '.table .numLen [256, 4]'),
          ('EncodeShuffleTable', '.table .encShuf [256, 16]'), ('DecodeShuffleTable', '.table .decShuf [256, 16]')]
VARS = '(c : Cpu) (vars : List Nat → Option Val)'

src = open(SRC).read()
files = {}
for m in re.finditer(r'/-- `/repo/pkg/(\S+)` -/\ndef (\w+) : File where\n  pkg := n!"(\w+)"\n  imports.*\n  types.*\n  consts := \[(.*)\]\n'
                     r'  vars := \[(.*)\]\n  funcs := \[(.*)\]', src):
    files[m[2]] = dict(pkg=m[3], consts=re.findall(r'\(n!"(\w+)", (?:none|\(some)', m[4]),
                       vars=re.findall(r'\(n!"(\w+)", \(\.', m[5]), funcs=[f for f in m[6].split(', ') if f])

out = []


def path(p, n):
    return f'n!"{p}", n!"{n}"'


def two(p, n):
    return f'n!"{p}" n!"{n}"'


def both(p, n, rhs):
    out.append(f'@[go] theorem global_{p}_{n} {VARS} :\n    (filesFor c).global c vars [{path(p, n)}] = {rhs} := by\n'
               '  unfold filesFor; cases c.amd64 <;> rfl')


for k in ['gen', 'mode', 'enc', 'dec', 'wr', 'rd', 'vint', 'util']:
    F = files[k]
    p = F['pkg']
    for n in F['consts']:
        both(p, n, f'some ({CONSTS[p, n]})')
    for n in F['vars']:
        both(p, n, f'vars [{path(p, n)}]')
    for f in F['funcs']:
        n = f.split('_', 1)[1]
        if n != 'init':
            both(p, n, f'some (.fn {two(p, n)})')
        out.append(f'theorem func_{p}_{n} (c : Cpu) : (filesFor c).func {two(p, n)} = some Files.{f} := by\n'
                   '  unfold filesFor; cases c.amd64 <;> rfl')
for p, bs in BUILTINS.items():
    for b in bs:
        both(p, b, 'none')
for t, v in TABLES:
    both('shared', t, f'some ({v})')
for b, f in [('HasAVX', 'avx'), ('HasAVX2', 'avx2')]:
    out.append(f'@[go] theorem global_cpu_{b} {VARS} :\n'
               f'    (filesFor c).global c vars [n!"cpu", n!"X86", n!"{b}"] = some (.bool c.{f}) := rfl')

out.append('\n/-! ## Only in a build for amd64 -/\n')
base = {(files[k]['pkg'], f.split('_', 1)[1]) for k in ['encBase', 'decBase', 'wrBase', 'rdBase'] for f in files[k]['funcs']}
for k in ['encAmd64', 'decAmd64', 'wrAmd64', 'rdAmd64']:
    p = files[k]['pkg']
    for f in files[k]['funcs']:
        n = f.split('_', 1)[1]
        out.append(f'theorem amd64_{p}_{n} (c : Cpu) (h : c.amd64 = true) :\n'
                   f'    (filesFor c).func {two(p, n)} = some Files.{f} := by\n  unfold filesFor; rw [h]; rfl')
        if (p, n) in base:
            both(p, n, f'some (.fn {two(p, n)})')
        else:
            out.append(f'theorem amd64_global_{p}_{n} {VARS} (h : c.amd64 = true) :\n'
                       f'    (filesFor c).global c vars [{path(p, n)}] = some (.fn {two(p, n)}) := by\n'
                       '  unfold filesFor; rw [h]; rfl')

out.append('\n/-! ## Only in a build for another target -/\n')
for k in ['encBase', 'decBase', 'wrBase', 'rdBase']:
    p = files[k]['pkg']
    for f in files[k]['funcs']:
        n = f.split('_', 1)[1]
        out.append(f'theorem other_{p}_{n} (c : Cpu) (h : c.amd64 = false) :\n'
                   f'    (filesFor c).func {two(p, n)} = some Files.{f} := by\n  unfold filesFor; rw [h]; rfl')

out.append('\n/-! ## The standard library is not part of the program -/\n')
for p, n in [('bits', 'LeadingZeros32'), ('binary', 'PutUvarint'), ('binary', 'Uvarint')]:
    out.append(f'theorem none_{p}_{n} (c : Cpu) : (filesFor c).func {two(p, n)} = none := by\n'
               '  unfold filesFor; cases c.amd64 <;> rfl')

head = '''import Verif.Proofs.GoAttr
import Verif.Proofs.GoBasics

/-!
# What the names in the Go files refer to

GENERATED by `/verif/scripts/gen_gonames.py` from `GoFiles.lean`.
-/

set_option autoImplicit false

namespace SVB.Go

'''
open(DST, 'w').write(head + '\n'.join(out) + '\n\nend SVB.Go\n')
