#!/usr/bin/env python3
"""Writes lean/Verif/Getters/Tables.lean: what each operand getter of each
encoding class makes of the instruction word."""
import re, sys
sys.path.insert(0, '/verif/tools')
from gen_setters import resolve, formats, camel
from gen_formats import lname
from binfmt import *
R = '/repo/riscv/'

# the format name behind the namespace of the generated C++ functions
NS = {}
NS.update({'inst32_format': 'Inst32Format', 'inst16_format': 'Inst16Format',
  'r_type': 'RType', 'r_s_type': 'RSType', 'r4_type': 'R4Type', 'i_type': 'IType',
  's_type': 'SType', 'b_type': 'BType', 'u_type': 'UType', 'j_type': 'JType',
  'fence': 'Fence', 'a_type': 'AType', 'v_mem': 'VMem', 'v_arith': 'VArith',
  'v_config': 'VConfig', 'c_r': 'CR', 'c_i': 'CI', 'c_s': 'CS', 'c_l': 'CL'})

def layout(fmt, name): return str(bits_of(formats[fmt], name))

def keyed_blocks(fname, a, b):
    """(kind, key, first line, last line, body) for every getter registered."""
    lines = open(R + fname).read().split('\n')
    text = '\n'.join(lines[a - 1:b])
    starts = [(m.start(), m.group(1), m.group(2)) for m in re.finditer(
        r'(SourceOpEnum|DestOpEnum|Enum)::k(\w+)', text)]
    out = []
    for i, (p, kind, key) in enumerate(starts):
        e = starts[i + 1][0] if i + 1 < len(starts) else len(text)
        body = text[p:e]
        k = body.rfind('});')
        k2 = body.rfind('}));')
        k = max(k + 3 if k >= 0 else -1, k2 + 4 if k2 >= 0 else -1)
        if k > 0: body = body[:k]
        l0 = a + text[:p].count('\n')
        out.append((key, l0, l0 + body.count('\n'), body))
    return out

def func_range(fname, start, stop=None):
    lines = open(R + fname).read().split('\n')
    a = next(i for i, l in enumerate(lines) if start in l)
    b = next(i for i in range(a + 1, len(lines)) if lines[i] == '}')
    return a + 1, b + 1

def classify(key, body, dest, where):
    ex = re.findall(r'(\w+)::Extract(\w+)\(', body)
    ex = list(dict.fromkeys(ex))
    assert len(ex) <= 1, (where, ex)
    fld = None
    if ex:
        fmt = NS.get(ex[0][0], ex[0][0])
        if fmt == 'CMMP': fmt = 'CMPP'
        try: hits = resolve(fmt, ex[0][1])
        except Exception: return '.missing'
        fld = hits
        # a name of the base format has the same layout in every format
        assert len({layout(*h) for h in hits}) == 1, (where, hits)
    if '(inst_word_ >> 12) & 0x7' in body: fld = [('RType', 'func3')]
    pref = set(re.findall(r'k([XFV])regPrefix', body))
    if 'kFregNames' in body or 'freg_names_' in body: pref = {'F'}
    imm = re.findall(r'ImmediateOperand<(\w+)>', body)
    lits = re.findall(r'IntLiteralOperand<(\d+)>', body)
    if 'return nullptr' in body and not ex and not pref and not imm and not lits: return '.null'
    def f(): return '.%s .%s' % (fld[0][0], lname(fld[0][1]))
    if 'kSRegToXRegMap' in body: return '.sreg ' + f()
    if 'VectorTrueOperand' in body:
        return '.mask ' + f() if fld else '.allTrue'
    if 'GetVectorRegister' in body: return '.vgroup ' + f()
    if 'GetVectorMaskRegister' in body: return '.vsingle ' + f()
    if 'GetCSRSetBits' in body: return '.flags'
    if 'kCsrName' in body or 'kPcName' in body:
        return '.csr' if 'kCsrName' in body else '.pc'
    if pref:
        assert len(pref) == 1, (where, pref)
        p = pref.pop()
        if not fld:
            m = set(re.findall(r'regPrefix, (\d+)\)', body))
            if not m: return '.pc' if 'kPcName' in body else '.missing'
            assert len(m) == 1, (where, body)
            return '.%sfixed %s' % (p.lower(), m.pop())
        if p == 'X':
            z = 'num == 0' in body
            return '.xreg %s %s' % ('true' if z else 'false', f())
        return '.freg ' + f()
    if '"X0Dest"' in body: return '.discard'
    if imm:
        assert len(set(imm)) == 1, (where, imm)
        if fld:
            t = imm[0]
            if t in ('int32_t',): return '.imm true ' + f()
            if t in ('uint32_t', 'uint8_t', 'bool'): return '.imm false ' + f()
            raise Exception((where, t))
        m = re.search(r'ImmediateOperand<\w+>\((\d+)\)', body)
        return '.const ' + m.group(1)
    if lits:
        if fld:
            assert lits == [str(i) for i in range(8)] or lits == ['1', '0'], (where, lits)
            return '.imm false ' + f()
        assert len(lits) == 1
        return '.const ' + lits[0]
    raise Exception((where, body))

def collect(parts, dest, override):
    """parts: list of (file, function signature).  First insertion wins for
    map::insert; the Insert helper overwrites."""
    tab = {}
    for fname, sig in parts:
        a, b = func_range(fname, sig)
        for key, l0, l1, body in keyed_blocks(fname, a, b):
            if key == 'None': continue
            w = classify(key, body, dest, (fname, l0, key))
            if key in tab and not override: print('dup', fname, key)
            tab[key] = (w, fname, l0, l1)
    return tab

G, GV, G32, G64 = 'riscv_getters.h', 'riscv_getters_vector.h', 'riscv_getters_rv32.h', 'riscv_getters_rv64.h'
ENC = [
 ('rv32g', 'RiscV32GEncoding', [('riscv32g_encoding.cc', '::InitializeSourceOperandGetters()')],
   [('riscv32g_encoding.cc', '::InitializeDestinationOperandGetters()')]),
 ('rv64g', 'RiscV64GEncoding', [('riscv64g_encoding.cc', '::InitializeSourceOperandGetters()')],
   [('riscv64g_encoding.cc', '::InitializeDestinationOperandGetters()')]),
 ('rv32gv', 'RiscV32GVecEncoding', [('riscv32g_vec_encoding.cc', '::InitializeSourceOperandGetters()'), ('riscv32g_vec_encoding.cc', '::InitializeVectorSourceOperandGetters()')],
   [('riscv32g_vec_encoding.cc', '::InitializeDestinationOperandGetters()'), ('riscv32g_vec_encoding.cc', '::InitializeVectorDestinationOperandGetters()')]),
 ('rv64gv', 'RiscV64GVecEncoding', [('riscv64g_vec_encoding.cc', '::InitializeSourceOperandGetters()'), ('riscv64g_vec_encoding.cc', '::InitializeVectorSourceOperandGetters()')],
   [('riscv64g_vec_encoding.cc', '::InitializeDestinationOperandGetters()'), ('riscv64g_vec_encoding.cc', '::InitializeVectorDestinationOperandGetters()')]),
 ('rv32gzb', 'RiscV32GZBEncoding', [(G, 'void AddRiscVSourceGetters'), (G32, 'void AddRiscV32SourceGetters'), ('riscv_getters_zba.h', 'void AddRiscVZbaSourceGetters'), ('riscv_getters_zbb32.h', 'void AddRiscVZbb32SourceGetters')],
   [(G, 'void AddRiscVDestGetters'), (G32, 'void AddRiscV32DestGetters')]),
 ('rv64gzb', 'RiscV64GZBEncoding', [(G, 'void AddRiscVSourceGetters'), (G64, 'void AddRiscV64SourceGetters'), ('riscv_getters_zba.h', 'void AddRiscVZbaSourceGetters'), ('riscv_getters_zbb64.h', 'void AddRiscVZbb64SourceGetters')],
   [(G, 'void AddRiscVDestGetters')]),
 ('rv32gvzb', 'RiscV32GZBVecEncoding', [(G, 'void AddRiscVSourceGetters'), (G32, 'void AddRiscV32SourceGetters'), ('riscv_getters_zba.h', 'void AddRiscVZbaSourceGetters'), ('riscv_getters_zbb32.h', 'void AddRiscVZbb32SourceGetters'), (GV, 'void AddRiscVVectorSourceGetters')],
   [(G, 'void AddRiscVDestGetters'), (G32, 'void AddRiscV32DestGetters'), (GV, 'void AddRiscVVectorDestGetters')]),
 ('rv64gvzb', 'RiscV64GZBVecEncoding', [(G, 'void AddRiscVSourceGetters'), (G64, 'void AddRiscV64SourceGetters'), ('riscv_getters_zba.h', 'void AddRiscVZbaSourceGetters'), ('riscv_getters_zbb64.h', 'void AddRiscVZbb64SourceGetters'), (GV, 'void AddRiscVVectorSourceGetters')],
   [(G, 'void AddRiscVDestGetters'), (GV, 'void AddRiscVVectorDestGetters')]),
 ('zvbb', 'ZVBBEncoding', [('riscv_getters_zvbb.h', 'void AddRiscVZvbbSourceVectorGetters'), ('riscv_getters_zvbb.h', 'void AddRiscvZvbbSourceScalarGetters')],
   [('riscv_getters_zvbb.h', 'void AddRiscVZvbbDestGetters')]),
]

ZC = 'riscv_zc_getters.h'
ENC.append(('zc', 'riscv_zc_getters.h', [(ZC, 'void AddRiscVZcaSourceGetters'), (ZC, 'void AddRiscVZcbSourceGetters'), (ZC, 'void AddRiscVZcfSourceGetters'), (ZC, 'void AddRiscVZcdSourceGetters'), (ZC, 'void AddRiscVZcmpSourceGetters')],
   [(ZC, 'void AddRiscVZcaDestGetters'), (ZC, 'void AddRiscVZcbDestGetters'), (ZC, 'void AddRiscVZcfDestGetters'), (ZC, 'void AddRiscVZcdDestGetters'), (ZC, 'void AddRiscVZcmpDestGetters')]))

def main():
    tabs = []
    for n, cls, s, d in ENC:
        o = n.endswith('zb') or n in ('zvbb', 'zc')
        tabs.append((n, cls, collect(s, False, o), collect(d, True, o)))
    if len(sys.argv) > 1:
        for n, _, S, D in tabs:
            print(n)
            for k in S: print('   s', k, S[k])
            for k in D: print('   d', k, D[k])
        return
    keys = sorted({k for _, _, S, D in tabs for k in list(S) + list(D)})
    with open('/verif/lean/Verif/Getters/Tables.lean', 'w') as o:
        o.write('''import Verif.BinFmt.Formats

/-!
# Operand getters

What the operand getters of each encoding class make an operand from.  Written
by `tools/gen_getters.py` from the encoding classes and `riscv_getters*.h`.
-/

namespace Verif.Getters

open BinFmt

/-- Operand names of the instruction descriptions. -/
inductive Opd where
''')
        for k in keys: o.write('  | %s\n' % k)
        o.write('''  deriving DecidableEq, Repr

/-- Encoding classes, and the collection of getters for the `Zc` extensions
(riscv_zc_getters.h), which no encoding class of the repository uses yet. -/
inductive Enc where
''')
        for n, *_ in tabs: o.write('  | %s\n' % n)
        o.write('''  deriving DecidableEq, Repr

/-- The body of an operand getter. -/
inductive What where
  /-- `ImmediateOperand<int32_t>` (`true`) or an unsigned one of a field; also a
  choice between literal operands by the value of a field -/
  | imm (signed : Bool) (fmt : Fmt) (fld : Fld)
  /-- integer register; with `zero`, register 0 becomes the literal 0 as a
  source and the discarding register as a destination -/
  | xreg (zero : Bool) (fmt : Fmt) (fld : Fld)
  /-- floating-point register -/
  | freg (fmt : Fmt) (fld : Fld)
  /-- vector register group -/
  | vgroup (fmt : Fmt) (fld : Fld)
  /-- one vector register -/
  | vsingle (fmt : Fmt) (fld : Fld)
  /-- all true when the field is 1, otherwise vector register 0 -/
  | mask (fmt : Fmt) (fld : Fld)
  /-- integer register numbered through `kSRegToXRegMap` -/
  | sreg (fmt : Fmt) (fld : Fld)
  /-- a literal -/
  | const (n : Nat)
  /-- a fixed integer register -/
  | xfixed (n : Nat)
  | allTrue
  | discard
  | pc
  | csr
  | flags
  /-- returns a null pointer -/
  | null
  /-- calls an extractor that the formats do not define -/
  | missing
  deriving DecidableEq, Repr

''')
        for kind, idx in (('source', 2), ('dest', 3)):
            for t in tabs:
                T = t[idx]
                cite = {}
                for k in T: cite.setdefault(T[k][1], []).append(T[k])
                c = ', '.join('%s:%d-%d' % (f, min(x[2] for x in v), max(x[3] for x in v)) for f, v in cite.items())
                o.write('/-- %s getters of `%s` (%s). -/\n' % (kind.capitalize() if kind == 'source' else 'Destination', t[1], c))
                o.write('def %s_%s : Opd → Option What\n' % (kind, t[0]))
                for k in T: o.write('  | .%s => some (%s)\n' % (k, T[k][0]))
                o.write('  | _ => none\n\n')
            o.write('/-- The %s getters of an encoding class. -/\ndef Enc.%s : Enc → Opd → Option What\n' % (kind, kind))
            for t in tabs: o.write('  | .%s => %s_%s\n' % (t[0], kind, t[0]))
            o.write('\n')
        o.write('/-- Every operand name. -/\ndef Opd.all : List Opd :=\n  [')
        items = ['.' + k for k in keys]
        o.write(',\n   '.join(', '.join(items[k:k + 8]) for k in range(0, len(items), 8)) + ']\n\n')
        o.write('/-- Every encoding class. -/\ndef Enc.all : List Enc := [%s]\n\n' % ', '.join('.' + t[0] for t in tabs))
        o.write('end Verif.Getters\n')

if __name__ == '__main__': main()
