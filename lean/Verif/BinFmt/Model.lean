import Verif.BinFmt.Fields

/-!
# Instruction formats of the `.bin_fmt` files

`riscv_format32.bin_fmt` and `riscv_format16.bin_fmt` describe each instruction
format as a list of fields from the most to the least significant bit, together
with overlays: named values assembled from pieces of fields, from absolute bit
ranges of the word and from constants.  From these files the (external) format
compiler generates one `Extract…` and one `Insert…` function per field and
overlay.  This module gives the meaning of those two functions.

An instruction word is a natural number; only the bits a format names are read.
-/

namespace Verif.BinFmt

/-- One piece of an overlay, in the notation of the format files
(riscv_format32.bin_fmt:86 `imm7[6], imm5[0], …, 0b0`;
riscv_format16.bin_fmt:98 `[12..10, 6..5]`). -/
inductive Piece where
  /-- a binary constant with its number of digits -/
  | const (width value : Nat)
  /-- absolute bits `hi..lo` of the word -/
  | word (hi lo : Nat)
  /-- bits `hi..lo` of a field -/
  | part (f : Fld) (hi lo : Nat)
  /-- a whole field -/
  | whole (f : Fld)
  deriving DecidableEq, Repr

/-- A declared field: name, width, signedness. -/
structure Field where
  name : Fld
  width : Nat
  signed : Bool
  deriving DecidableEq, Repr

/-- A declared overlay: name, declared width, signedness, pieces (most
significant first). -/
structure Overlay where
  name : Fld
  width : Nat
  signed : Bool
  pieces : List Piece
  deriving DecidableEq, Repr

/-- A `format` declaration. -/
structure Format where
  width : Nat
  fields : List Field
  overlays : List Overlay
  deriving DecidableEq, Repr

/-- One bit of an operand: a bit of the word, or a constant. -/
inductive Bit where
  | word (i : Nat)
  | const (b : Bool)
  deriving DecidableEq, Repr

/-- The word bits `lo + n - 1, …, lo`. -/
def down (lo : Nat) : Nat → List Bit
  | 0 => []
  | n + 1 => .word (lo + n) :: down lo n

/-- The bits of an `n` digit constant, most significant first. -/
def digits (v : Nat) : Nat → List Bit
  | 0 => []
  | n + 1 => .const (v.testBit n) :: digits v n

/-- Where a field lies: `(lo, width)`.  Fields are listed from the top bit. -/
def locate (fs : List Field) (top : Nat) (n : Fld) : Option (Nat × Nat) :=
  match fs with
  | [] => none
  | f :: rest =>
    if f.name = n then some (top - f.width, f.width) else locate rest (top - f.width) n

/-- The bits of one piece of an overlay. -/
def Format.piece (f : Format) : Piece → Option (List Bit)
  | .const w v => some (digits v w)
  | .word hi lo => some (down lo (hi + 1 - lo))
  | .part n hi lo => (locate f.fields f.width n).map fun p => down (p.1 + lo) (hi + 1 - lo)
  | .whole n => (locate f.fields f.width n).map fun p => down p.1 p.2

/-- The bits of a list of pieces. -/
def Format.assemble (f : Format) : List Piece → Option (List Bit)
  | [] => some []
  | p :: ps =>
    match f.piece p, f.assemble ps with
    | some a, some b => some (a ++ b)
    | _, _ => none

/-- The overlay of a given name. -/
def Format.overlay? (f : Format) (n : Fld) : Option Overlay :=
  f.overlays.find? fun o => decide (o.name = n)

/-- The bits, most significant first, of a field or overlay. -/
def Format.bits (f : Format) (n : Fld) : Option (List Bit) :=
  match locate f.fields f.width n with
  | some p => some (down p.1 p.2)
  | none =>
    match f.overlay? n with
    | some o => f.assemble o.pieces
    | none => none

/-- Whether a field or overlay is declared `signed`. -/
def Format.isSigned (f : Format) (n : Fld) : Bool :=
  f.fields.any (fun x => decide (x.name = n) && x.signed) ||
    f.overlays.any (fun x => decide (x.name = n) && x.signed)

/-- The value of one bit in a word. -/
def Bit.get (w : Nat) : Bit → Bool
  | .word i => w.testBit i
  | .const b => b

/-- The unsigned value of an operand: what `Extract…` reads, before sign
extension. -/
def value (w : Nat) : List Bit → Nat
  | [] => 0
  | b :: bs => (if b.get w then 2 ^ bs.length else 0) + value w bs

/-- `Extract…`: the value, sign extended from its top bit when declared
signed. -/
def extract (signed : Bool) (bs : List Bit) (w : Nat) : Int :=
  if signed = true ∧ 2 ^ bs.length ≤ 2 * value w bs then (value w bs : Int) - 2 ^ bs.length
  else value w bs

/-- Replace bit `i` of a word. -/
def setBit (w i : Nat) (b : Bool) : Nat :=
  if b then w ||| 2 ^ i else w ^^^ (w &&& 2 ^ i)

/-- `Insert…`: write the bits of `v` into the word bits of the operand.  The
constant pieces of an overlay are not written. -/
def insert (bs : List Bit) (v w : Nat) : Nat :=
  match bs with
  | [] => w
  | .word i :: rest => setBit (insert rest v w) i (v.testBit rest.length)
  | .const _ :: rest => insert rest v w

/-- The word bits an operand occupies. -/
def positions : List Bit → List Nat
  | [] => []
  | .word i :: rest => i :: positions rest
  | .const _ :: rest => positions rest

/-- The bits of an `n` bit operand word for a signed value (two's
complement, as the conversion to `uint64_t` at the call of `Insert…`). -/
def pattern (v : Int) : Nat := (v % (2 : Int) ^ 64).toNat

end Verif.BinFmt
