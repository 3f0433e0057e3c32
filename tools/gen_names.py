#!/usr/bin/env python3
"""Writes lean/Verif/Exec/Names.lean: the text of every instruction name of
lean/Verif/Decode/Ops.lean (the names of the .bin_fmt files)."""
import pathlib, re
root = pathlib.Path(__file__).resolve().parent.parent / "lean" / "Verif"
text = (root / "Decode" / "Ops.lean").read_text()
body = text[text.index("inductive Op where"):]
body = body[:body.index("deriving")]
names = re.findall(r"^\s*\|\s*(\S+)\s*$", body, re.M)
out = ["import Verif.Decode.Ops", "", "/-!", "# The names of the instructions as text", "",
       "Written by `tools/gen_names.py`.", "-/", "", "namespace Verif.Exec", "", "open Decode", "",
       "/-- The name an entry has in the `.bin_fmt` files, which is also the opcode name of",
       "the `.isa` files. -/", "def opName : Op → String"]
for n in names:
    out.append(f'  | .{n} => "{n.strip("«»")}"')
out += ["", "end Verif.Exec", ""]
(root / "Exec" / "Names.lean").write_text("\n".join(out))
print(len(names))
