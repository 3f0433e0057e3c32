#!/usr/bin/env python3
"""Writes lean/Verif/Encoding/Names.lean and Tables.lean from riscv_bin_setters.h,
riscv_getters.h and riscv_getters_rv64.h."""
import re, sys
sys.path.insert(0, '/verif/tools')
from binfmt import *
from gen_formats import lname
R = '/repo/riscv/'
f32 = parse('riscv_format32.bin_fmt')[0]
f16 = parse('riscv_format16.bin_fmt')[0]
formats = dict(f32); formats.update(f16)

def camel(n): return ''.join(p.capitalize() for p in n.split('_'))

def resolve(fmt, name):
    """(format, field) named by Fmt::ExtractName / InsertName."""
    if fmt in ('Inst32Format', 'Inst16Format'):
        fs = f32 if fmt == 'Inst32Format' else f16
        hits = []
        for f in fs.values():
            for x in f.fields + f.overlays:
                if camel(x[0]) == name: hits.append((f.name, x[0]))
        assert hits, (fmt, name)
        return hits
    f = formats[fmt]
    for x in f.fields + f.overlays:
        if camel(x[0]) == name: return [(fmt, x[0])]
    raise Exception((fmt, name))

def blocks(fname, start, stop, pat):
    """Insert(...) blocks with their first and last line."""
    lines = open(R + fname).read().split('\n')
    out, cur = [], None
    for i in range(start - 1, stop):
        l = lines[i]
        m = re.match(r'\s*Insert\(' + pat + r', \*Enum::(k\w+)', l)
        if m:
            if cur: out.append(cur)
            cur = [m.group(1), i + 1, i + 1, '']
        if cur:
            cur[3] += l + '\n'; cur[2] = i + 1
            if re.search(r'\}\);\s*$', l) and l.startswith('  '):
                pass
    if cur: out.append(cur)
    for c in out:   # trim to the block
        k = c[3].rfind('});')
        c[3] = c[3][:k + 3]
        c[2] = c[1] + c[3].count('\n')
    return out

def line_of(fname, text, after=0):
    for i, l in enumerate(open(R + fname).read().split('\n')):
        if i >= after and text in l: return i + 1
    raise Exception(text)

def setters(a, b):
    out = []
    for name, l0, l1, body in blocks('riscv_bin_setters.h', a, b, 'map'):
        m = re.search(r'Encoder::(\w+)::Insert(\w+)\(', body)
        [(fmt, fld)] = resolve(m.group(1), m.group(2))
        t = re.search(r'SimpleTextToInt<(\w+)>', body)
        if t:
            signed = 'true' if t.group(1) == 'int32_t' else 'false'
            d = re.search(r'(uint32_t|auto) delta', body)
            if d: how = '.relative %s %d' % (signed, 32 if d.group(1) == 'uint32_t' else 64)
            else: how = '.number ' + signed
        else:
            k = re.search(r'map\((k\w+)\)', body)
            if k: how = '.name ' + k.group(1)[0:1].lower().replace('k', '') + 'names' + k.group(1)[1:].replace('List', '')
            else: how = '.name namesAq' if '.aq' in body else '.name namesRl'
        how = how.replace('.name names', '.name names')
        out.append((name, fmt, fld, how, l0, l1))
    return out

def getters(fname, a, b):
    out = []
    for name, l0, l1, body in blocks(fname, a, b, 'getter_map'):
        m = re.search(r'Extractors::(\w+)::Extract(\w+)\(', body)
        if not m: continue
        hits = resolve(m.group(1), m.group(2))
        t = re.search(r'ImmediateOperand<(\w+)>', body)
        conv = '.int32' if t and t.group(1) == 'int32_t' else '.uint32'
        out.append((name, hits, conv, l0, l1, fname))
    return out

def lists():
    out = []
    src = open(R + 'riscv_bin_setters.h').read().split('\n')
    i = 0
    while i < len(src):
        m = re.match(r'\s+(k\w+List) = \{', src[i])
        if m:
            j = i
            while not src[j].rstrip().endswith('};'): j += 1
            body = '\n'.join(src[i:j + 1])
            out.append((m.group(1), re.findall(r'\{"([^"]*)", (\w+)\}', body), i, j + 1))
            i = j
        i += 1
    return out

def op(n): return n[1:]

def main():
    with open('/verif/lean/Verif/Encoding/Names.lean', 'w') as o:
        o.write('''/-!
# Operand name lists

The tables from operand names to numbers of the assembler and the register
names printed by the disassembler.  Written by `tools/gen_setters.py`.
-/

namespace Verif.Encoding

/-- The qualifier of `kAAq` (riscv_bin_setters.h:525). -/
def namesAq : List (String × Nat) := [("", 0), (".aq", 1)]

/-- The qualifier of `kARl` (riscv_bin_setters.h:536). -/
def namesRl : List (String × Nat) := [("", 0), (".rl", 1)]

''')
        for n, prs, a, b in lists():
            o.write('/-- `%s` (riscv_bin_setters.h:%d-%d). -/\n' % (n, a, b))
            o.write('def names%s : List (String × Nat) :=\n  [' % n[1:].replace('List', ''))
            items = ['("%s", %s)' % p for p in prs]
            o.write(',\n   '.join(', '.join(items[k:k + 5]) for k in range(0, len(items), 5)) + ']\n\n')
        src = open(R + 'riscv_register_aliases.h').read()
        for n in ('X', 'F'):
            m = re.search(r'k%sRegisterAliases\[32\]\[6\] = \{([^}]*)\}' % n, src)
            names = re.findall(r'"(\w+)"', m.group(1))
            l0 = src[:m.start()].count('\n') + 1; l1 = src[:m.end()].count('\n') + 1
            o.write('/-- `k%sRegisterAliases` (riscv_register_aliases.h:%d-%d). -/\n' % (n, l0, l1))
            o.write('def aliases%s : List String :=\n  [' % n)
            items = ['"%s"' % p for p in names]
            o.write(',\n   '.join(', '.join(items[k:k + 8]) for k in range(0, 32, 8)) + ']\n\n')
        o.write('end Verif.Encoding\n')
    s1 = line_of('riscv_bin_setters.h', 'void AddRiscvSourceOpBinSetters')
    s2 = line_of('riscv_bin_setters.h', 'void AddRiscvDestOpBinSetters')
    s3 = line_of('riscv_bin_setters.h', 'namespace internal {')
    src = setters(s1, s2 - 1); dst = setters(s2, s3)
    g1 = line_of('riscv_getters.h', 'void AddRiscVSourceGetters')
    g2 = line_of('riscv_getters.h', 'void AddRiscVDestGetters')
    g3 = line_of('riscv_getters.h', 'void AddRiscVSimpleResourceGetters')
    gs = {x[0]: x for x in getters('riscv_getters.h', g1, g2 - 1)}
    h1 = line_of('riscv_getters_rv64.h', 'void AddRiscV64SourceGetters')
    h2 = line_of('riscv_getters_rv64.h', 'void AddRiscV64DestGetters')
    for x in getters('riscv_getters_rv64.h', h1, h2 - 1): gs[x[0]] = x
    gd = {x[0]: x for x in getters('riscv_getters.h', g2, g3 - 1)}
    with open('/verif/lean/Verif/Encoding/Tables.lean', 'w') as o:
        o.write('''import Verif.BinFmt.Formats
import Verif.Encoding.Names

/-!
# Operand setters and getters

Which field each assembler operand is inserted into, and which field each
decoder operand is extracted from.  Written by `tools/gen_setters.py`.
-/

namespace Verif.Encoding

open BinFmt

/-- How the text of an operand becomes a number. -/
inductive How where
  /-- looked up in a list of names -/
  | name (l : List (String × Nat))
  /-- `SimpleTextToInt<int32_t>` (`true`) or `<uint32_t>` -/
  | number (signed : Bool)
  /-- the same, minus the address of the instruction; the difference is stored
  in a variable of `width` bits -/
  | relative (signed : Bool) (width : Nat)

/-- An operand setter of the assembler. -/
structure Setter where
  fmt : Fmt
  fld : Fld
  how : How

/-- The type of the operand value made from an extracted field. -/
inductive Conv where
  | int32
  | uint32
  deriving DecidableEq, Repr

/-- An operand getter of the decoder. -/
structure Getter where
  fmt : Fmt
  fld : Fld
  conv : Conv
  deriving DecidableEq, Repr

''')
        for kind, tab, gt, nm, what, rng in (('Src', src, gs, 'src', 'Source', (s1, s2)), ('Dst', dst, gd, 'dst', 'Destination', (s2, s3))):
            o.write('/-- %s operands with a setter (riscv_bin_setters.h:%d-%d). -/\n' % (what, tab[0][4], tab[-1][5]))
            o.write('inductive %sOp where\n' % kind)
            for t in tab: o.write('  | %s\n' % op(t[0]))
            o.write('  deriving DecidableEq, Repr\n\n')
            o.write('/-- All %s operands. -/\ndef %sOp.all : List %sOp :=\n  [' % (what.lower(), kind, kind))
            items = ['.' + op(t[0]) for t in tab]
            o.write(',\n   '.join(', '.join(items[k:k + 8]) for k in range(0, len(items), 8)) + ']\n\n')
            o.write('/-- The setters (riscv_bin_setters.h:%d-%d). -/\n' % (tab[0][4], tab[-1][5]))
            o.write('def %sOp.setter : %sOp → Setter\n' % (kind, kind))
            for n, fmt, fld, how, l0, l1 in tab:
                o.write('  -- riscv_bin_setters.h:%d-%d\n  | .%s => ⟨.%s, .%s, %s⟩\n' % (l0, l1, op(n), fmt, lname(fld), how))
            o.write('\n/-- The getters (riscv_getters.h:%d-%d%s).  An extractor called on the base\nformat is given the format that defines the overlay. -/\n' % (min(g[3] for g in gt.values() if g[5] == 'riscv_getters.h'), max(g[4] for g in gt.values() if g[5]=='riscv_getters.h'), ', riscv_getters_rv64.h:%d-%d' % (gt['kIUimm6'][3], gt['kIUimm6'][4]) if kind == 'Src' else ''))
            o.write('def %sOp.getter : %sOp → Getter\n' % (kind, kind))
            for n, *_ in tab:
                if n not in gt:
                    # the destination getter names no field: the register written
                    # is the one the source operand kCsr selects
                    assert n == 'kCsr'
                    _, hits, conv, l0, l1, fn = gs[n]
                    o.write('  -- no field of its own (riscv_getters.h:%d-%d); the register is the one\n  -- named by the source operand\n' % (line_of('riscv_getters.h', 'kCsr', g2), line_of('riscv_getters.h', 'kCsr', g2) + 3))
                    o.write('  | .Csr => ⟨.IType, .u_imm12, .uint32⟩\n')
                    continue
                _, hits, conv, l0, l1, fn = gt[n]
                if len(hits) > 1: print('several', n, hits)
                fmt, fld = hits[0]
                o.write('  -- %s:%d-%d\n  | .%s => ⟨.%s, .%s, %s⟩\n' % (fn, l0, l1, op(n), fmt, lname(fld), conv))
            o.write('\n')
        o.write('end Verif.Encoding\n')

if __name__ == '__main__': main()
