#!/usr/bin/env python3
"""Reads the instruction descriptions (*.isa) and the semantic functions
(*_instructions.cc, *_helpers.h) of /repo/riscv and writes
lean/Verif/Operands/Tables.lean: for every instruction of every slot the operands the
description supplies, and for every function the operand indices it uses directly and the
functions it hands its instruction to."""
import re, os, sys, glob
R = '/repo/riscv/'
OUT = '/verif/lean/Verif/Operands/Tables.lean'

def strip(s):
    out, i = [], 0
    while i < len(s):
        if s[i] == '"':
            j = i + 1
            while s[j] != '"':
                j += 2 if s[j] == '\\' else 1
            out.append(s[i:j+1]); i = j + 1
        elif s.startswith('//', i):
            while i < len(s) and s[i] != '\n': i += 1
        elif s.startswith('/*', i):
            j = s.index('*/', i + 2) + 2
            out.append('\n' * s.count('\n', i, j)); i = j
        else:
            out.append(s[i]); i += 1
    return ''.join(out)

def match(s, i, o, c):
    d = 0
    while True:
        if s[i] == '"':
            i += 1
            while s[i] != '"': i += 2 if s[i] == '\\' else 1
        elif s[i] == o: d += 1
        elif s[i] == c:
            d -= 1
            if d == 0: return i
        i += 1

def split(s, ch):
    out, d, cur, q = [], 0, '', False
    for x in s:
        if x == '"': q = not q
        if not q:
            if x in '([{': d += 1
            if x in ')]}': d -= 1
            if x == ch and d == 0:
                out.append(cur); cur = ''; continue
        cur += x
    out.append(cur)
    return [x.strip() for x in out]

def ops(s):
    """`pred : a, b : c, d(1)` -> ([a, b], [c, d])"""
    parts = split(s, ':')
    parts += [''] * (3 - len(parts))
    clean = lambda p: [re.sub(r'\(.*\)$', '', re.sub(r'^%reloc\((\w+)\)$', r'\1', x)).strip()
                       for x in split(p, ',') if x.strip()]
    return clean(parts[1]), clean(parts[2])

class Slot: pass

def parse_isa(fname):
    s = strip(open(R + fname).read())
    slots, isas = {}, {}
    for m in re.finditer(r'^slot\s+(\w+)\s*(:[^{]*)?\{', s, re.M):
        sl = Slot(); sl.name = m.group(1); sl.file = fname
        sl.line = s.count('\n', 0, m.start()) + 1
        sl.bases = [x.strip() for x in (m.group(2) or ':')[1:].split(',') if x.strip()]
        end = match(s, m.end() - 1, '{', '}')
        body = s[m.end():end]
        sl.ops = []
        om = re.search(r'\bopcodes\s*\{', body)
        if om:
            oe = match(body, om.end() - 1, '{', '}')
            ob = body[om.end():oe]
            base = m.end() + om.end()
            pos = 0
            for st in split(ob, ';'):
                at = ob.index(st, pos) if st else pos
                pos = at + len(st)
                if not st: continue
                line = s.count('\n', 0, base + at) + 1
                fns = []
                fm = re.search(r'semfunc\s*:\s*("[^"]*"(?:\s*,\s*"[^"]*")*)', st, re.S)
                if fm:
                    for q in re.findall(r'"([^"]*)"', fm.group(1)):
                        q = re.sub(r'/\*.*?\*/', '', q)
                        mm = re.search(r'&\s*([\w:]+)', q) or re.match(r'\s*([\w:]+)', q)
                        if not mm: print('?? fn', fname, line, q); continue
                        bm = re.match(r'\s*absl::bind_front\s*\(\s*&[\w:]+\s*,(.*)\)\s*$', q, re.S)
                        args = [x.strip() for x in bm.group(1).split(',')] if bm else []
                        fns.append((mm.group(1), args))
                m2 = re.match(r'(\w+)\s*=\s*override', st)
                m3 = re.match(r'(\w+)\s*(?:\[[^\]]*\])?\s*\{', st)
                if m2:
                    sl.ops.append((m2.group(1), None, fns, line))
                elif m3:
                    e = match(st, m3.end() - 1, '{', '}')
                    o = st[m3.end():e].strip()
                    if o.startswith('('):
                        ph = []
                        i = 0
                        while i < len(o):
                            if o[i] == '(':
                                j = match(o, i, '(', ')')
                                ph.append(ops(o[i+1:j])); i = j
                            i += 1
                    else:
                        ph = [ops(o)]
                    sl.ops.append((m3.group(1), ph, fns, line))
                elif re.match(r'\w+\s*=\s*delete', st):
                    sl.ops.append((st.split('=')[0].strip(), 'delete', [], line))
                else:
                    print('?? statement', fname, line, st[:60])
        slots[sl.name] = sl
    for m in re.finditer(r'^isa\s+(\w+)\s*\{', s, re.M):
        end = match(s, m.end() - 1, '{', '}')
        body = s[m.end():end]
        sm = re.search(r'slots\s*\{([^}]*)\}', body)
        isas[m.group(1)] = [x.strip() for x in sm.group(1).split(';') if x.strip()]
    return slots, isas

def nslots():
    g = {}
    isas = []
    for f in sorted(glob.glob(R + '*.isa')):
        f = os.path.basename(f)
        sl, isa = parse_isa(f)
        g[f] = sl
        for k, v in isa.items(): isas.append((k, f, v))
    return g, isas

def includes(f, seen=None):
    seen = seen if seen is not None else []
    if f in seen: return seen
    seen.append(f)
    for m in re.finditer(r'#include\s+"(?:riscv/)?(\w+\.isa)"', open(R + f).read()):
        includes(m.group(1), seen)
    return seen

def flatten(scope, name):
    sl = scope[name]
    res = {}
    for b in sl.bases:
        res.update(flatten(scope, b))
    for (n, ph, fns, line) in sl.ops:
        if ph is None:
            res[n] = (res[n][0] if n in res else None, fns, sl.file, line) if n in res else (None, fns, sl.file, line)
        elif ph == 'delete': res.pop(n, None)
        else: res[n] = (ph, fns, sl.file, line)
    return res

# ---- semantic functions ---------------------------------------------------------------
def parse_cc():
    """functions[(ns, name)] = (file, line, src set, dst set, calls, dynamic accesses)"""
    funcs = {}
    files = sorted(glob.glob(R + '*_instructions.cc')) + [R + 'riscv_instruction_helpers.h', R + 'riscv_vector_instruction_helpers.h']
    for path in files:
        s = strip(open(path).read())
        s2 = re.sub(r'"(?:[^"\\\n]|\\.)*"', lambda m: '"' + ' ' * (len(m.group(0)) - 2) + '"', s)
        stack = []  # namespaces
        i = 0
        depth = 0
        pat = re.compile(r'namespace\s*([\w:]*)\s*\{|[{}]')
        while True:
            m = pat.search(s2, i)
            if not m: break
            if m.group(0).startswith('namespace'):
                stack.append(m.group(1)); i = m.end(); continue
            if m.group(0) == '}':
                if stack: stack.pop()
                i = m.end(); continue
            # an opening brace at namespace level: a function, a struct or a lambda table
            start = max(s2.rfind(c, 0, m.start()) for c in ';}{')
            # the header may contain '{' of namespace, fine
            head = s2[start+1:m.start()]
            end = match(s2, m.start(), '{', '}')
            hm = re.search(r'(\w+)\s*\(([^;]*)\)\s*(?:const)?\s*$', head, re.S)
            if hm and not re.search(r'\b(struct|class|enum)\b', head.split('(')[0].replace('template', '')[-40:] if False else ''):
                name = hm.group(1)
                # name of the function is the identifier before the first '(' that closes at the end
                d = 0; k = len(head.rstrip()) - 1
                h = head.rstrip()
                if h.endswith('const'): h = h[:-5].rstrip()
                k = len(h) - 1
                while True:
                    if h[k] == ')': d += 1
                    if h[k] == '(':
                        d -= 1
                        if d == 0: break
                    k -= 1
                nm = re.search(r'(\w+)\s*$', h[:k]).group(1)
                params = h[k+1:-1]
                ns = [y for x in stack for y in x.split('::') if y in ('RV32', 'RV64')]
                body = s2[m.start():end]
                line = s2.count('\n', 0, start + 1 + len(h) - len(h.lstrip())) + 1
                line = s2.count('\n', 0, start + 1 + (len(head) - len(head.lstrip()))) + 1
                funcs.setdefault((ns[0] if ns else '', nm), []).append(
                    dict(file=os.path.basename(path), line=line, end=s2.count('\n', 0, end) + 1, params=params, body=body, head=head))
            i = end + 1
    return funcs

def argsplit(body, i):
    e = match(body, i, '(', ')')
    return [re.sub(r'\s+', ' ', x) for x in split(body[i+1:e].replace('<', '\x01').replace('>', '\x02'), ',')]

def analyse(funcs):
    names = {}
    for (ns, n) in funcs: names.setdefault(n, []).append(ns)
    res = {}
    for (ns, n), defs in funcs.items():
        for d in defs:
            b = d['body']
            src, dst, calls, other = [], [], [], []
            iv = re.search(r'const\s+(?:generic::)?Instruction\s*\*\s*(\w+)', d['params']) or re.search(r'Instruction\s*\*\s*(\w+)', d['params'])
            if not iv:
                if re.fullmatch(r'\s*const (generic::)?Instruction\s*\*\s*', d['params']): res.setdefault((ns, n), []).append((d, [], [], [], []))
                continue
            iv = iv.group(1)
            for m in re.finditer(r'\b' + iv + r'\b', b):
                pre, post = b[:m.start()], b[m.end():]
                # iv->Source(k) ...
                pm = re.match(r'\s*->\s*(\w+)\s*\(', post)
                if pm:
                    meth = pm.group(1)
                    a = argsplit(b, m.end() + pm.end() - 1)
                    if meth == 'Source': src.append(a[0])
                    elif meth == 'Destination': dst.append(a[0])
                    elif meth in ('SourcesSize', 'DestinationsSize'): other.append(meth)
                    elif meth in ('state', 'address', 'size', 'child', 'context', 'opcode', 'AsString', 'IncRef', 'DecRef'): pass
                    else: other.append('->' + meth)
                    continue
                # argument position: find enclosing call
                k, dd = m.start() - 1, 0
                while k >= 0:
                    if b[k] == ')': dd += 1
                    if b[k] == '(':
                        if dd == 0: break
                        dd -= 1
                    k -= 1
                h = b[:k].rstrip()
                if h.endswith('>'):
                    t, dd = len(h) - 1, 0
                    while True:
                        if h[t] == '>' and h[t-1] != '-': dd += 1
                        if h[t] == '<':
                            dd -= 1
                            if dd == 0: break
                        t -= 1
                    h = h[:t].rstrip()
                fm = re.search(r'([\w:.>-]*\w)$', h)
                f = fm.group(1).split('::')[-1]
                a = argsplit(b, k)
                rest = a[a.index(iv)+1:] if iv in a else None
                if f == 'GetInstructionSource' or f == 'GetNaNBoxedSource':
                    src.append(rest[0])
                elif f == 'RiscVWriteReg':
                    dst.append(rest[0])
                elif f in names:
                    calls.append(f)
                else:
                    other.append(f)
            u = lambda x: sorted(set(x))
            res.setdefault((ns, n), []).append((d, u(src), u(dst), u(calls), u(other)))
    return res


# functions of mpact-sim (assumed): generic::BinaryOp of mpact/sim/generic/instruction_helpers.h
EXT = {'BinaryOp': (['.src 0', '.src 1', '.dst 0'], 'mpact/sim/generic/instruction_helpers.h, assumed')}
# functions whose use of operands depends on how many there are, read by hand
HAND = {
  'RiscVZCmpPush': ['.srcFrom 3', '.src 0', '.src 1', '.src 2', '.dst 0'],
  'RiscVZCmpPopRet': ['.src 3', '.dstFromEnd 2 1'],
  'RiscVZCmpPopRetz': ['.dstFromEnd 3 1', '.src 3', '.dstFromEnd 3 2'],
  'RiscVZCmpPop': [],
  'RiscVSetMaskBinaryVectorMaskOp': ['.dst 0', '.src 1', '.src 2', '.srcOver 3 3', '.src 0'],
  'RiscVMaskBinaryVectorMaskOp': ['.dst 0', '.src 1', '.src 2', '.srcOver 3 3', '.src 0'],
  'RiscVMaskNullaryVectorOp': ['.dst 0', '.srcOver 1 0', '.srcOver 1 1', '.srcUpTo 1 0'],
}
POP = {'RiscVZCmpPop': 1, 'RiscVZCmpPopRet': 2, 'RiscVZCmpPopRetz': 3}
ISAS = [('RiscV32G', 'rv32g'), ('RiscV64G', 'rv64g'), ('RiscV32GV', 'rv32gv'), ('RiscV64GV', 'rv64gv'),
        ('RiscV32GZB', 'rv32gzb'), ('RiscV64GZB', 'rv64gzb'), ('RiscV32GVZB', 'rv32gvzb'),
        ('RiscV64GVZB', 'rv64gvzb')]

def camel(n): return ''.join(x[:1].upper() + x[1:] for x in n.split('_'))
def ident(key): return (key[0].lower() + '_' if key[0] else 'fn_') + key[1]

def main():
    g, isas = nslots()
    an = analyse(parse_cc())
    have = set(re.findall(r'^  \| (\w+)$', open('/verif/lean/Verif/Getters/Tables.lean').read().split('inductive Enc')[0], re.M))
    used, order, extra = set(), [], []
    def key_of(fn):
        p = fn.split('::'); ns = [x for x in p if x in ('RV32', 'RV64')]
        k = (ns[0] if ns else '', p[-1])
        assert k in an, fn
        return k
    def visit(k):
        if k in used: return
        used.add(k)
        for (d, s, t, c, o) in an[k]:
            for x in c:
                kk = (k[0], x) if (k[0], x) in an else ('', x)
                if kk != k: visit(kk)
        order.append(k)
    slots = {}
    def opd(x):
        if x == '[rlist]': return '.regs'
        n = camel(x)
        if n in have: return '.one .' + n
        if n not in extra: extra.append(n)
        return '.other "%s"' % x
    def instr(n, e):
        ph, fns, f, line = e
        out = []
        for i, (s, d) in enumerate(ph):
            fn = 'none'; args = ''
            if i < len(fns):
                k = key_of(fns[i][0]); visit(k); fn = 'some ' + ident(k)
                if fns[i][1]:
                    args = ', args := [' + ', '.join({'true': '1', 'false': '0'}.get(a, a) for a in fns[i][1]) + ']'
            out.append('{ srcs := [%s], dsts := [%s], fn := %s%s }' % (', '.join(map(opd, s)), ', '.join(map(opd, d)), fn, args))
        assert len(fns) <= len(ph), n
        return '{ name := "%s", phases := [%s] }' % (n, ', '.join(out))
    body, done = [], {}
    def lines(f, sl):
        ls = [l for (_, _, _, l) in sl.ops]
        return '%s:%d' % (f, sl.line) + ('-%d' % max(ls) if ls else '')
    def slot(scope, name):
        sl = scope[name]
        k = (sl.file, name)
        if k in done: return done[k]
        idn = 'slot_' + name + ('' if not any(kk[1] == name for kk in done) else '64')
        done[k] = idn
        if sl.ops:
            es = flatten(scope, name)
            assert all(e[0] is not None for e in es.values()), name
            body.append('/-- Slot `%s` (%s).%s -/\ndef %s : List Instr := [\n  %s]\n' % (name, lines(sl.file, sl),
              ' Inherited instructions are listed with the overrides applied.' if sl.bases else '', idn,
              ',\n  '.join(instr(n, e) for n, e in es.items())))
        else:
            bs = [slot(scope, b) for b in sl.bases]
            body.append('/-- Slot `%s` (%s). -/\ndef %s : List Instr := %s\n' % (name, lines(sl.file, sl), idn, ' ++ '.join(bs)))
        return idn
    isadefs = []
    for (k, f, v) in isas:
        scope = {}
        for x in includes(f): scope.update(g[x])
        # no instruction is described by two of the slots put together
        for sl in v:
            idn = slot(scope, sl)
        isadefs.append((k, f, [slot(scope, sl) for sl in v]))
    for f, name in [('riscv_zc.isa', 'riscv_zcmp64'), ('riscv_zc.isa', 'riscv_zca64'), ('riscv_zc.isa', 'riscv_zcd32'), ('riscv_vector.isa', 'riscv_zve32x'),
                    ('riscv_zicond.isa', 'riscv64_zicond'), ('riscv_zimop.isa', 'riscv64_zimop'), ('riscv_zicbop.isa', 'riscv_zicbop64')]:
        slot(g[f], name)
    o = []
    o.append("""import Verif.Getters.Tables

/-!
# Instruction descriptions and the operands their functions use

Written by `tools/gen_operands.py` from `*.isa`, `*_instructions.cc` and
`*_instruction_helpers.h`.
-/

namespace Verif.Operands

open Getters (Opd)

/-- One use of an operand in the text of a semantic function. -/
inductive Acc where
  /-- `Source(k)`, `GetInstructionSource<..>(inst, k)`, `GetNaNBoxedSource<..>(inst, k)` -/
  | src (k : Nat)
  /-- `Destination(k)`, `RiscVWriteReg<..>(inst, k, ..)` -/
  | dst (k : Nat)
  /-- source `k`, under `if (inst->SourcesSize() > n)` -/
  | srcOver (n k : Nat)
  /-- source `k`, in the `else` of `if (inst->SourcesSize() > n)` -/
  | srcUpTo (n k : Nat)
  /-- every source `i + k` with `i < SourcesSize() - k` -/
  | srcFrom (k : Nat)
  /-- every destination `i` with `i < DestinationsSize() - m` -/
  | dstBelow (m : Nat)
  /-- destination `DestinationsSize() - m + k` -/
  | dstFromEnd (m k : Nat)
  deriving DecidableEq, Repr

/-- A semantic function: its own uses of operands, and the functions it hands
its instruction to. -/
inductive Code where
  | mk (name : String) (own : List Acc) (calls : List Code)

/-- An operand named in a description. -/
inductive Arg where
  | one (o : Opd)
  /-- a name no getter of the repository is registered for -/
  | other (name : String)
  /-- `[rlist]`: one operand for each register of the list -/
  | regs
  deriving DecidableEq, Repr

/-- An instruction, or the part of a load that writes back (`child`). -/
structure Phase where
  srcs : List Arg
  dsts : List Arg
  /-- the function named by `semfunc` -/
  fn : Option Code
  /-- leading arguments given by `absl::bind_front` (`true` is 1) -/
  args : List Nat := []

structure Instr where
  name : String
  phases : List Phase
""")
    ob = []
    for n, (accs, why) in EXT.items():
        ob.append('/-- %s -/\ndef ext_%s : Code := .mk "%s" [%s] []\n' % (why, n, n, ', '.join(accs)))
    for k in order:
        accs, calls, where = [], [], []
        for (d, s, t, c, oth) in an[k]:
            where.append('%s:%d-%d' % (d['file'], d['line'], d['end']))
            if k[1] in HAND: a = HAND[k[1]]
            elif k[1] == 'RiscVZCmpPopHelper': a = ['.src 0', '.src 1', '.src 2', '.dstBelow m', '.dstFromEnd m 0']
            elif k[1] in ('GetNaNBoxedSource', 'RiscVWriteReg'): continue
            else:
                assert all(x.isdigit() for x in s + t), (k, s, t)
                a = ['.src ' + x for x in s] + ['.dst ' + x for x in t]
            for x in a:
                if x not in accs: accs.append(x)
            for x in c:
                kk = (k[0], x) if (k[0], x) in an else ('', x)
                if kk == k: continue
                y = ident(kk) if x != 'RiscVZCmpPopHelper' else '%s %d' % (ident(kk), POP[k[1]])
                if y not in calls: calls.append(y)
            for x in oth:
                if x in EXT:
                    if 'ext_' + x not in calls: calls.append('ext_' + x)
                else:
                    assert '->' in x or (x in ('SourcesSize', 'DestinationsSize') and k[1] in HAND), (k, x)
        param = ' (m : Nat)' if k[1] == 'RiscVZCmpPopHelper' else ''
        doc = ', '.join(where)
        ob.append('/-- %s -/\ndef %s%s : Code := .mk "%s" [%s] [%s]\n' % (doc, ident(k), param, (k[0] + '::' if k[0] else '') + k[1], ', '.join(accs), ', '.join(calls)))
    o += ob + body
    o.append('/-- The instruction set descriptions. -/\ninductive Isa where')
    for (k, f, v) in isadefs: o.append('  | ' + k.lower())
    o.append('  deriving DecidableEq, Repr\n')
    o.append('/-- Instructions of each description. -/\ndef Isa.instrs : Isa → List Instr')
    for (k, f, v) in isadefs: o.append('  -- ' + f + '\n  | .%s => %s' % (k.lower(), ' ++ '.join(v)))
    o.append('\n/-- The encoding class that supplies the operands of a description, for the\ndescriptions that have one. -/\ndef Isa.enc : Isa → Option Getters.Enc')
    for (k, e) in ISAS: o.append('  | .%s => some .%s' % (k.lower(), e))
    o.append('  | _ => none\n')
    o.append('end Verif.Operands')
    os.makedirs(os.path.dirname(OUT), exist_ok=True)
    open(OUT, 'w').write('\n'.join(o) + '\n')
    print(len(order), 'functions', extra)

if __name__ == '__main__': main()
