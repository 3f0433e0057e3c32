/-
Model of the relocations the assembler appends for operands that name symbols:
`riscv/riscv_bin_setters.{h,cc}` and `riscv/riscv64g_bin_encoder_interface.cc`.

The text of an operand reaches this code after its setter has accepted it: it is a relocation
function applied to an argument, or an argument, with spaces around (`SimpleTextToInt`,
riscv_bin_setters.h:477-515). Other texts have been refused. Text is a list of characters.
-/
namespace Verif.Reloc

/-- `RelocType` (riscv_bin_setters.cc:34-44). -/
inductive Kind where
  | branch | jal | pcrelHi20 | pcrelLo12I | pcrelLo12S | hi20 | lo12I | lo12S
deriving DecidableEq, Repr

def Kind.number : Kind → Nat
  | .branch => 16
  | .jal => 17
  | .pcrelHi20 => 23
  | .pcrelLo12I => 24
  | .pcrelLo12S => 25
  | .hi20 => 26
  | .lo12I => 27
  | .lo12S => 28

/-- A relocation: offset 0, the symbol, the type, addend 0, section 0
(e.g. riscv_bin_setters.cc:62). -/
structure Relocation where
  symbol : List Char
  type : Nat
deriving DecidableEq, Repr

/-- An operand text its setter has accepted: `%name spaces (arg spaces)` or `arg`, followed by
spaces (riscv_bin_setters.h:483-486). Leading spaces play no role. -/
inductive Text where
  | func (name arg inner : List Char)
  | plain (arg after : List Char)
deriving DecidableEq, Repr

/-- Letters and underscore. -/
def isStart (c : Char) : Bool := c.isAlpha || c = '_'

/-- The second group of the expression `[a-zA-Z_][^)]+` takes what is left up to a closing
parenthesis or the end, spaces included; it needs a letter or underscore and one more
character (riscv_bin_setters.cc:51-52). -/
def symbolGroup (s : List Char) : Option (List Char) :=
  match s with
  | c :: _ :: _ => if isStart c then some s else none
  | _ => none

/-- `RE2::FullMatch(text, *kSymRe, &relo, &sym)` on such a text (riscv_bin_setters.cc:51-52):
the name of the function, empty if there is none, and the symbol. -/
def fullMatch : Text → Option (List Char × List Char)
  | .func name arg inner => (symbolGroup (arg ++ inner)).map fun s => (name, s)
  | .plain arg after => (symbolGroup (arg ++ after)).map fun s => ([], s)

/-- The result of a relocation function: refused, or the relocations appended. -/
abbrev Result := Option (List Relocation)

def one (k : Kind) (sym : List Char) : Result := some [⟨sym, k.number⟩]

/-- `RelocateAddiIImm12` (riscv_bin_setters.cc:54-74). -/
def addi (t : Text) : Result :=
  match fullMatch t with
  | none => some []
  | some (relo, sym) =>
    if relo = ['l', 'o'] then one .lo12I sym
    else if relo = "pcrel_lo".toList then one .pcrelLo12I sym
    else if relo ≠ [] then none
    else some []

/-- `RelocateJJImm20` (riscv_bin_setters.cc:76-84). -/
def j (t : Text) : Result :=
  match fullMatch t with
  | none => some []
  | some (_, sym) => one .jal sym

/-- `RelocateJrJImm12` (riscv_bin_setters.cc:86-96). -/
def jr (t : Text) : Result :=
  match fullMatch t with
  | none => some []
  | some (relo, sym) =>
    if relo = "pcrel_lo".toList then one .pcrelLo12I sym else some []

/-- `RelocateLuiUImm20` (riscv_bin_setters.cc:98-106). -/
def lui (t : Text) : Result :=
  match fullMatch t with
  | none => some []
  | some (_, sym) => one .hi20 sym

/-- `RelocateSdSImm12` (riscv_bin_setters.cc:108-127). -/
def sd (t : Text) : Result :=
  match fullMatch t with
  | none => some []
  | some (relo, sym) =>
    if relo = ['l', 'o'] then one .lo12S sym
    else if relo = "pcrel_lo".toList then one .pcrelLo12S sym
    else if relo ≠ [] then none
    else some []

/-- `RelocateAuipcUImm20` (riscv_bin_setters.cc:129-139). -/
def auipc (t : Text) : Result :=
  match fullMatch t with
  | none => some []
  | some (relo, sym) =>
    if relo = "pcrel_hi".toList then one .pcrelHi20 sym else some []

/-- The instructions of the 64-bit assembler whose operand may name a symbol: those in the map,
and the loads, stores and branches, which are not (riscv64g.isa). -/
inductive Opcode where
  | addi | jal | j | jr | jalr | lui | auipc | sd
  | lb | lbu | lh | lhu | lw | lwu | ld | flw | fld
  | sb | sh | sw | fsw | fsd
  | beq | bne | blt | bltu | bge | bgeu
deriving DecidableEq, Repr

/-- `AppendSrcOpRelocation` for the immediate operand (riscv64g_bin_encoder_interface.cc:69-76)
with the map of `AddRiscvSourceOpRelocationSetters` (riscv_bin_setters.h:1017-1034). -/
def append (op : Opcode) (t : Text) : Result :=
  match op with
  | .addi => addi t
  | .jal => j t
  | .j => j t
  | .jr => jr t
  | .jalr => jr t
  | .lui => lui t
  | .auipc => auipc t
  | .sd => sd t
  | _ => some []

end Verif.Reloc
