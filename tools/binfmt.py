#!/usr/bin/env python3
"""Parser for the .bin_fmt files of /repo/riscv (formats, overlays, instruction
groups, decoders).  Used by gen_decode.py to write the Lean tables."""
import re, os

REPO = '/repo/riscv/'

def num(s):
    s = s.replace("'", '').strip()
    if s.startswith('0b'):
        return int(s[2:], 2)
    if s.startswith('0x'):
        return int(s, 16)
    return int(s, 10)

def strip(text):
    return re.sub(r'//[^\n]*', lambda m: ' ' * 0, text)

class Format:
    def __init__(self, name, width, line):
        self.name, self.width, self.line = name, width, line
        self.fields = []      # (name, width, signed)
        self.overlays = []    # (name, width, signed, pieces)

def split_top(s):
    out, depth, cur = [], 0, ''
    for c in s:
        if c == '[': depth += 1
        if c == ']': depth -= 1
        if c == ',' and depth == 0:
            out.append(cur.strip()); cur = ''
        else:
            cur += c
    if cur.strip(): out.append(cur.strip())
    return out

def ranges(s):
    r = []
    for p in s.split(','):
        p = p.strip()
        if '..' in p:
            a, b = p.split('..')
            r.append((int(a), int(b)))
        else:
            r.append((int(p), int(p)))
    return r

def parse(fname, seen=None):
    """Returns (formats, groups, composites, decoders) of a file with its includes."""
    seen = set() if seen is None else seen
    formats, groups, composites, decoders = {}, {}, {}, {}
    if fname in seen:
        return formats, groups, composites, decoders
    seen.add(fname)
    raw = open(REPO + fname).read()
    for inc in re.findall(r'#include "(riscv[^"]*\.bin_fmt)"', raw):
        f, g, c, d = parse(inc, seen)
        formats.update(f); groups.update(g); composites.update(c)
    text = strip(raw)
    lineof = lambda pos: text.count('\n', 0, pos) + 1
    for m in re.finditer(r'^format (\w+)\[(\d+)\](?:\s*:\s*\w+)?\s*\{(.*?)^\}', text, re.S | re.M):
        f = Format(m.group(1), int(m.group(2)), lineof(m.start()))
        f.file = fname
        f.endline = lineof(m.end())
        body = m.group(3)
        parts = re.split(r'overlays:', body)
        for x in re.finditer(r'(unsigned|signed)\s+(\w+)\[(\d+)\]\s*;', parts[0]):
            f.fields.append((x.group(2), int(x.group(3)), x.group(1) == 'signed'))
        if len(parts) > 1:
            for x in re.finditer(r'(unsigned|signed)\s+(\w+)\[(\d+)\]\s*=\s*([^;]*);', parts[1]):
                pieces = []
                for p in split_top(x.group(4)):
                    if p.startswith('0b'):
                        b = p[2:].replace("'", '')
                        pieces.append(('const', len(b), int(b, 2)))
                    elif p.startswith('['):
                        for a, b in ranges(p[1:-1]): pieces.append(('word', a, b))
                    elif '[' in p:
                        n, r = p[:-1].split('[')
                        for a, b in ranges(r): pieces.append(('part', n, a, b))
                    else:
                        pieces.append(('field', p))
                f.overlays.append((x.group(2), int(x.group(3)), x.group(1) == 'signed', pieces))
        formats[f.name] = f
    for m in re.finditer(r'instruction group (\w+)\[(\d+)\]\s*:\s*(\w+)\s*\{(.*?)\}', text, re.S):
        insts = []
        off = m.start(4)
        for x in re.finditer(r'(\w+)\s*:\s*(\w+)\s*:\s*([^;]*);', m.group(4)):
            cons = []
            for c in x.group(3).split(','):
                c = c.strip()
                y = re.match(r"(\w+)\s*(==|!=|<=|>=|<|>)\s*([\w']+)$", c)
                lhs, op, rhs = y.groups()
                if re.match(r'[0-9]', rhs):
                    cons.append((lhs, op, num(rhs)))
                else:
                    cons.append((lhs, op, rhs))
            insts.append((x.group(1), x.group(2), cons, lineof(off + x.start())))
        groups[m.group(1)] = dict(file=fname, insts=insts, width=int(m.group(2)))
    for m in re.finditer(r'instruction group (\w+)\s*=\s*\{(.*?)\}', text, re.S):
        composites[m.group(1)] = [x.strip() for x in m.group(2).split(',') if x.strip()]
    for m in re.finditer(r'^decoder (\w+) \{(.*?)^\}', text, re.S | re.M):
        body = re.sub(r'includes \{.*?\}', '', m.group(2), flags=re.S)
        ds = {}
        for x in re.finditer(r'(\w+)\s*=\s*\{(.*?)\}\s*;', body, re.S):
            ds[x.group(1)] = [y.strip() for y in x.group(2).split(',') if y.strip()]
        for x in re.finditer(r'^\s*(RiscV\w+);', body, re.M):
            ds[x.group(1)] = [x.group(1)]
        decoders[m.group(1)] = dict(file=fname, groups=ds)
    return formats, groups, composites, decoders

def expand(names, groups, composites):
    out = []
    for n in names:
        if n in composites: out += expand(composites[n], groups, composites)
        else: out.append(n)
    return out

def bits_of(f, name):
    """msb-first list of word bits ('w', i) or constants ('c', b)."""
    pos = f.width
    where = {}
    for n, w, s in f.fields:
        where[n] = (pos - 1, pos - w); pos -= w
    assert pos == 0, f.name
    if name in where:
        a, b = where[name]
        return [('w', i) for i in range(a, b - 1, -1)]
    for n, w, s, pieces in f.overlays:
        if n == name:
            r = []
            for p in pieces:
                if p[0] == 'const':
                    r += [('c', (p[2] >> i) & 1) for i in range(p[1] - 1, -1, -1)]
                elif p[0] == 'word':
                    r += [('w', i) for i in range(p[1], p[2] - 1, -1)]
                elif p[0] == 'part':
                    lo = where[p[1]][1]
                    r += [('w', lo + i) for i in range(p[2], p[3] - 1, -1)]
                else:
                    a, b = where[p[1]]
                    r += [('w', i) for i in range(a, b - 1, -1)]
            assert len(r) == w, (f.name, name, len(r), w)
            return r
    raise KeyError((f.name, name))

def value(f, name, w):
    v = 0
    for k, x in bits_of(f, name):
        v = v * 2 + (((w >> x) & 1) if k == 'w' else x)
    return v

def matches(formats, inst, w):
    f = formats[inst[1]]
    for l, op, r in inst[2]:
        a = value(f, l, w)
        b = value(f, r, w) if isinstance(r, str) else r
        ok = {'==': a == b, '!=': a != b, '<': a < b, '>': a > b, '<=': a <= b, '>=': a >= b}[op]
        if not ok: return False
    return True
