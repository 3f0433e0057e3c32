#!/usr/bin/env python3
"""Writes lean/Verif/Decode/Ops.lean, Groups.lean and Decoders.lean from the .bin_fmt files."""
import sys, os
sys.path.insert(0, '/verif/tools')
from binfmt import *
from gen_formats import lname

FILES = ['riscv32g', 'riscv32zb', 'riscv64g', 'riscv64zb', 'riscv_vector', 'riscv_zfh32',
         'riscv_zfh64', 'riscv_zvbb', 'riscv_zicond', 'riscv_zimop', 'riscv_zhintpause',
         'riscv_zihintntl', 'riscv_zicbop', 'riscv_zc']
DECODERS = ['riscv32g', 'riscv32gzb', 'riscv32v', 'riscv64g', 'riscv64gzb', 'riscv64v',
            'riscv_zfh32', 'riscv_zfh64', 'riscv_zvbb', 'rvm23']
REL = {'==': 'eq', '!=': 'ne', '<': 'lt', '>': 'gt', '<=': 'le', '>=': 'ge'}
KEYWORDS = {'or', 'and', 'not', 'xor', 'where', 'end', 'fun', 'do', 'at', 'mut'}

def oname(n): return n + '_' if n in ('end', 'fun', 'at', 'do') else n

def gname(fname, g):
    stem = os.path.basename(fname)[:-len('.bin_fmt')]
    return 'g_%s_%s' % (stem, g)

def all_groups():
    """[(file, group name, insts)] for the groups defined in FILES."""
    out = []
    for fn in FILES:
        _, gs, _, _ = parse(fn + '.bin_fmt')
        for n, g in gs.items():
            if g['file'] == fn + '.bin_fmt':
                out.append((g['file'], n, g['insts']))
    return out

def decoders():
    """[(lean name, file, decoder, slot, [(file, group)])]"""
    out = []
    for fn in DECODERS:
        _, gs, cs, ds = parse(fn + '.bin_fmt')
        for dn, d in ds.items():
            for gn, g in d['groups'].items():
                names = expand(g, gs, cs)
                w = gs[names[0]]['width']
                if fn.startswith('riscv_zfh'): ln = 'zfh' + fn[-2:]
                else: ln = {'RiscV32G': 'rv32g', 'RiscV32GZB': 'rv32gzb', 'RiscV32GV': 'rv32gv', 'RiscV32GVZB': 'rv32gvzb',
                      'RiscV64G': 'rv64g', 'RiscV64GZB': 'rv64gzb', 'RiscV64GV': 'rv64gv', 'RiscV64GVZB': 'rv64gvzb',
                      'ZVBB': 'zvbb', 'RVM23': 'rvm23'}[dn]
                w = 16 if gn.endswith('16') else 32
                out.append((ln + '_' + str(w), fn + '.bin_fmt', dn, gn, [(gs[n]['file'], n) for n in names]))
    return out

def con(c):
    l, op, r = c
    rhs = '.fld .%s' % lname(r) if isinstance(r, str) else '.num %d' % r
    return '⟨.%s, .%s, %s⟩' % (lname(l), REL[op], rhs)

def main():
    groups = all_groups()
    ops = []
    for _, _, insts in groups:
        for i in insts:
            if i[0] not in ops: ops.append(i[0])
    with open('/verif/lean/Verif/Decode/Ops.lean', 'w') as o:
        o.write('''/-!
# Instruction names

The instruction names of the `.bin_fmt` files.  Written by
`tools/gen_decode.py`.
-/

namespace Verif.Decode

/-- Instruction names (%s). -/
inductive Op where
''' % ', '.join(f + '.bin_fmt' for f in FILES))
        for n in ops: o.write('  | %s\n' % ('«%s»' % n if n in KEYWORDS else n))
        o.write('  deriving DecidableEq, Repr\n\nend Verif.Decode\n')
    q = lambda n: '.«%s»' % n if n in KEYWORDS else '.' + n
    with open('/verif/lean/Verif/Decode/Groups.lean', 'w') as o:
        o.write('''import Verif.Decode.Model

/-!
# The instruction groups

A transcription of every `instruction group` of the `.bin_fmt` files.  Written
by `tools/gen_decode.py`.
-/

namespace Verif.Decode

''')
        for f, n, insts in groups:
            o.write('/-- `instruction group %s` (%s:%d-%d). -/\n' % (n, f, insts[0][3], insts[-1][3]))
            o.write('def %s : List Inst :=\n  [' % gname(f, n))
            o.write(',\n   '.join('⟨%s, .%s, [%s]⟩' % (q(i[0]), i[1], ', '.join(con(c) for c in i[2])) for i in insts))
            o.write(']\n\n')
        o.write('end Verif.Decode\n')
    fs = {}
    for fn in FILES: fs.update(parse(fn + '.bin_fmt')[0])
    def maskval(i):
        f = fs[i[1]]; m = v = 0
        for l, op, r in i[2]:
            if op == '==' and not isinstance(r, str):
                bs = bits_of(f, l)
                for k, (t, x) in enumerate(bs):
                    if t == 'w': m |= 1 << x; v |= ((r >> (len(bs) - 1 - k)) & 1) << x
        return m, v
    with open('/verif/lean/Verif/Decode/Masks.lean', 'w') as o:
        o.write('''import Verif.Decode.Check
import Verif.Decode.Groups

/-!
# Masks of the instruction groups

The fixed bits of every instruction as numbers, computed by
`tools/gen_decode.py` and checked against `Inst.maskVal` by the kernel.
-/

namespace Verif.Decode

''')
        for f, n, insts in groups:
            g = gname(f, n)
            o.write('/-- Mask and value of each instruction of `%s` (%s:%d-%d). -/\n' % (n, f, insts[0][3], insts[-1][3]))
            o.write('def m%s : List (Nat × Nat) :=\n  [' % g[1:])
            items = ['(0x%x, 0x%x)' % maskval(i) for i in insts]
            o.write(',\n   '.join(', '.join(items[k:k + 4]) for k in range(0, len(items), 4)) + ']\n\n')
            o.write('theorem m%s_eq : %s.map Inst.maskVal = m%s := by decide +kernel\n\n' % (g[1:], g, g[1:]))
        o.write('end Verif.Decode\n')
    ds = decoders()
    used = []
    for d in ds:
        for g in d[4]:
            if g not in used: used.append(g)
    insts_of = {(f, n): insts for f, n, insts in groups}
    short = lambda g: gname(*g)[2:]
    pairs = []
    for d in ds:
        for a in range(len(d[4])):
            for b in range(a + 1, len(d[4])):
                if (d[4][a], d[4][b]) not in pairs: pairs.append((d[4][a], d[4][b]))
    import random
    random.seed(1)
    mv = {}
    for g in used:
        for i in insts_of[g]: mv[(g, i[0])] = maskval(i)
    def overlap(ga, a, gb, b, width):
        m1, v1 = mv[(ga, a[0])]; m2, v2 = mv[(gb, b[0])]
        if (v1 ^ v2) & m1 & m2: return None
        m = m1 | m2; v = v1 | v2
        full = (1 << width) - 1
        for t in range(4000):
            if t < 4: r = [0, full, 0x55555555, 0xaaaaaaaa][t]
            else:
                r = random.getrandbits(width)
                if t % 3 == 1: r &= random.getrandbits(width) & random.getrandbits(width)
            w = (v | (r & ~m)) & full
            if matches(fs, a, w) and matches(fs, b, w): return w
        return None
    known = []   # (ga, gb, [(op, op, witness)])
    for ga, gb in [(g, g) for g in used] + pairs:
        ia, ib = insts_of[ga], insts_of[gb]
        width = fs[ia[0][1]].width
        l = []
        for x in range(len(ia)):
            for y in range(x + 1 if ga == gb else 0, len(ib)):
                w = overlap(ga, ia[x], gb, ib[y], width)
                if w is not None: l.append((ia[x][0], ib[y][0], w))
        if l: known.append((ga, gb, l))
    with open('/verif/lean/Verif/Decode/Decoders.lean', 'w') as o:
        o.write('''import Verif.Decode.Groups

/-!
# The decoders

Which instruction groups each decoder tries on a word.  Written by
`tools/gen_decode.py`.
-/

namespace Verif.Decode

/-- The instruction groups used by decoders. -/
inductive Grp where
''')
        for g in used: o.write('  | %s\n' % short(g))
        o.write('  deriving DecidableEq, Repr\n\n')
        o.write('/-- The instructions of a group. -/\ndef Grp.insts : Grp → List Inst\n')
        for g in used: o.write('  | .%s => %s\n' % (short(g), gname(*g)))
        o.write('''
/-- The decoders: the instruction set and the length of the word. -/
inductive Decoder where
''')
        for d in ds: o.write('  | %s\n' % d[0])
        o.write('  deriving DecidableEq, Repr\n\n')
        o.write('/-- Every decoder. -/\ndef Decoder.all : List Decoder :=\n  [' + ',\n   '.join(
            ', '.join('.' + d[0] for d in ds[k:k + 6]) for k in range(0, len(ds), 6)) + ']\n\n')
        o.write('/-- The length of the words a decoder looks at. -/\ndef Decoder.width : Decoder → Nat\n')
        for d in ds: o.write('  | .%s => %s\n' % (d[0], d[0][-2:]))
        o.write('\n/-- The instruction groups of a decoder. -/\ndef Decoder.groups : Decoder → List Grp\n')
        for ln, fn, dn, gn, gs in ds:
            o.write('  -- decoder %s, group %s (%s)\n' % (dn, gn, fn))
            items = ['.' + short(g) for g in gs]
            o.write('  | .%s =>\n    [%s]\n' % (ln, ',\n     '.join(', '.join(items[k:k + 3]) for k in range(0, len(items), 3))))
        o.write('''
/-- The instructions a decoder knows. -/
def Decoder.insts (d : Decoder) : List Inst := d.groups.flatMap Grp.insts

end Verif.Decode
''')
    with open('/verif/lean/Verif/Decode/Overlaps.lean', 'w') as o:
        o.write('''import Verif.Decode.Decoders
import Verif.Decode.Masks

/-!
# Instructions that match a common word

For each pair of groups tried by one decoder, the pairs of instructions that
both match some word, with such a word.  Written by `tools/gen_decode.py`.
-/

namespace Verif.Decode

/-- Pairs of instructions, the first from the first group, with a word that
matches both. -/
def clashes : Grp → Grp → List (Op × Op × Nat)
''')
        for ga, gb, l in known:
            o.write('  | .%s, .%s =>\n    [%s]\n' % (short(ga), short(gb), ',\n     '.join('(%s, %s, 0x%x)' % (q(a), q(b), w) for a, b, w in l)))
        o.write('  | _, _ => []\n\n')
        o.write('/-- Mask and value of the instructions of a group. -/\ndef Grp.masks : Grp → List (Nat × Nat)\n')
        for g in used: o.write('  | .%s => m_%s\n' % (short(g), short(g)))
        o.write('\ntheorem Grp.masks_eq (g : Grp) : g.insts.map Inst.maskVal = g.masks := by\n  cases g\n')
        for g in used: o.write('  · exact m_%s_eq\n' % short(g))
        o.write('\nend Verif.Decode\n')
    with open('/verif/lean/Verif/Decode/Apart.lean', 'w') as o:
        o.write('''import Verif.Decode.Pairs

/-!
# Kernel checks of the instruction groups

Written by `tools/gen_decode.py`.
-/

namespace Verif.Decode

''')
        for g in used:
            o.write('theorem self_%s : selfOk .%s = true := by decide +kernel\n' % (short(g), short(g)))
        o.write('\ntheorem self_all (g : Grp) : selfOk g = true := by\n  cases g\n')
        for g in used: o.write('  · exact self_%s\n' % short(g))
        o.write('\n')
        for a, b in pairs:
            o.write('theorem cross_%s_%s :\n    crossOk .%s .%s = true := by decide +kernel\n' % (short(a), short(b), short(a), short(b)))
        for ln, fn, dn, gn, gs in ds:
            o.write('\ntheorem pairs_%s :\n    (Decoder.groups .%s).Pairwise fun g h => crossOk g h = true := by\n  simp only [Decoder.groups, List.pairwise_cons, List.mem_cons, List.not_mem_nil, or_false,\n    forall_eq_or_imp, forall_eq, false_implies, implies_true, and_true, List.Pairwise.nil,\n    true_and%s]\n' % (ln, ln, ''.join(',\n    cross_%s_%s' % (short(gs[a]), short(gs[b])) for a in range(len(gs)) for b in range(a + 1, len(gs)))))
        o.write('\ntheorem pairs_all (d : Decoder) :\n    d.groups.Pairwise fun g h => crossOk g h = true := by\n  cases d\n')
        for d in ds: o.write('  · exact pairs_%s\n' % d[0])
        o.write('\nend Verif.Decode\n')
    # numbers of the ISA instructions the entries stand for
    isa = open('/verif/lean/Verif/Decode/Isa.lean').read()
    c = isa[isa.index('def canon'):]
    canon = {}
    for lhs, rhs in re.findall(r'\n  ((?:\| \.[^=]*?)+)=> \.(\S+)', c):
        for x in re.findall(r'\.(\S+)', lhs): canon[x.strip('«»')] = rhs.strip('«»')
    idx = {x: k for k, x in enumerate(ops)}
    with open('/verif/lean/Verif/Decode/Codes.lean', 'w') as o:
        o.write('''import Verif.Decode.Decoders
import Verif.Decode.Isa

/-!
# Numbers of the instructions of each group

The position in `Op` of the ISA instruction each entry stands for, computed by
`tools/gen_decode.py` and checked by the kernel.
-/

namespace Verif.Decode

/-- The numbers of the entries of a group. -/
def Grp.codes : Grp → List Nat
''')
        for g in used:
            l = [str(idx[canon.get(i[0], i[0])]) for i in insts_of[g]]
            o.write('  | .%s =>\n    [%s]\n' % (short(g), ',\n     '.join(', '.join(l[k:k + 16]) for k in range(0, len(l), 16))))
        o.write('\ntheorem Grp.codes_eq (g : Grp) :\n    (g.insts.map fun i => (Isa.canon i.op).ctorIdx) = g.codes := by\n  cases g <;> decide +kernel\n\nend Verif.Decode\n')
    print(len(ops), 'ops', sum(len(g[2]) for g in groups), 'insts', len(ds), 'decoders')

if __name__ == '__main__': main()
