#!/usr/bin/env python3
"""Writes lean/Verif/BinFmt/Fields.lean and Formats.lean from the .bin_fmt files."""
import sys
sys.path.insert(0, '/verif/tools')
from binfmt import *

def lname(n):
    """Lean identifier of a field name."""
    return {'end': 'end_'}.get(n, n)

def main():
    f32 = parse('riscv_format32.bin_fmt')[0]
    f16 = parse('riscv_format16.bin_fmt')[0]
    names = []
    for f in list(f32.values()) + list(f16.values()):
        for x in f.fields + f.overlays:
            if x[0] not in names: names.append(x[0])
    with open('/verif/lean/Verif/BinFmt/Fields.lean', 'w') as o:
        o.write('''/-!
# Names of instruction fields

The field and overlay names used in `riscv_format32.bin_fmt` and
`riscv_format16.bin_fmt`.  Written by `tools/gen_formats.py`.
-/

namespace Verif.BinFmt

/-- A field or overlay name (riscv_format32.bin_fmt:19-243,
riscv_format16.bin_fmt:20-240). -/
inductive Fld where
''')
        for n in names: o.write('  | %s\n' % lname(n))
        o.write('''  deriving DecidableEq, Repr

end Verif.BinFmt
''')
    with open('/verif/lean/Verif/BinFmt/Formats.lean', 'w') as o:
        o.write('''import Verif.BinFmt.Model

/-!
# The instruction formats

A transcription of every `format` declaration of `riscv_format32.bin_fmt` and
`riscv_format16.bin_fmt`.  Written by `tools/gen_formats.py`.
-/

namespace Verif.BinFmt

/-- The names of the formats (riscv_format32.bin_fmt:19-243,
riscv_format16.bin_fmt:20-240). -/
inductive Fmt where
''')
        allf = list(f32.values()) + list(f16.values())
        for f in allf: o.write('  | %s\n' % f.name)
        o.write('  deriving DecidableEq, Repr\n\n')
        b = lambda x: 'true' if x else 'false'
        for f in allf:
            o.write('/-- `format %s` (%s:%d-%d). -/\n' % (f.name, f.file, f.line, f.endline))
            o.write('def fmt%s : Format where\n  width := %d\n  fields :=\n    [' % (f.name, f.width))
            o.write(',\n     '.join('⟨.%s, %d, %s⟩' % (lname(n), w, b(s)) for n, w, s in f.fields) + ']\n')
            o.write('  overlays :=\n    [')
            def pc(p):
                if p[0] == 'const': return '.const %d %d' % (p[1], p[2])
                if p[0] == 'word': return '.word %d %d' % (p[1], p[2])
                if p[0] == 'part': return '.part .%s %d %d' % (lname(p[1]), p[2], p[3])
                return '.whole .%s' % lname(p[1])
            o.write(',\n     '.join('⟨.%s, %d, %s, [%s]⟩' % (lname(n), w, b(s), ', '.join(map(pc, ps)))
                                    for n, w, s, ps in f.overlays) + ']\n\n')
        o.write('/-- The declaration of a format. -/\ndef Fmt.decl : Fmt → Format\n')
        for f in allf: o.write('  | .%s => fmt%s\n' % (f.name, f.name))
        o.write('\n/-- Every format. -/\ndef Fmt.all : List Fmt :=\n  [' +
                ',\n   '.join('.' + f.name for f in allf) + ']\n\nend Verif.BinFmt\n')

if __name__ == '__main__': main()
