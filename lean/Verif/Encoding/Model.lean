import Verif.BinFmt.Lemmas
import Verif.Encoding.Tables

/-!
# Assembler operand encoders and decoder operand extractors

riscv_bin_setters.h, riscv_getters.h.  The regular expressions that split the
operand text are not modelled: a `Text` is the result of that split.  A
relocation function `%name(arg)` is the text of its argument
(riscv_bin_setters.h:490-492).
-/

namespace Verif.Encoding

open BinFmt

/-- An operand text after lexing (riscv_bin_setters.h:481-515). -/
inductive Text where
  /-- `0x…` -/
  | hex (n : Nat)
  /-- a decimal number, possibly negative -/
  | dec (i : Int)
  /-- a symbol that resolves to an address -/
  | symbol (a : BitVec 64)
  /-- a register name or qualifier -/
  | name (s : String)

/-- Reduction to `int32_t`. -/
def toInt32 (x : Int) : Int := (BitVec.ofInt 32 x).toInt

/-- Reduction to `uint32_t`. -/
def toUInt32 (x : Int) : Int := (BitVec.ofInt 32 x).toNat

/-- `SimpleTextToInt<T>` with `T = int32_t` when `signed`, else `uint32_t`
(riscv_bin_setters.h:477-515).  `SimpleHexAtoi` and `SimpleAtoi` refuse numbers
outside the range of `T`; a symbol is cast. -/
def parse (signed : Bool) : Text → Option Int
  | .hex n => if n < (if signed then 2 ^ 31 else 2 ^ 32) then some n else none
  | .dec i =>
    if signed then (if -2 ^ 31 ≤ i ∧ i < 2 ^ 31 then some i else none)
    else (if 0 ≤ i ∧ i < 2 ^ 32 then some i else none)
  | .symbol a => some (if signed then toInt32 a.toNat else toUInt32 a.toNat)
  | .name _ => none

/-- The number a setter inserts.  Names: `map.find(text)`
(e.g. riscv_bin_setters.h:553-559).  Relative operands: the difference with the
64 bit address, stored in a `uint32_t` (riscv_bin_setters.h:546) or kept at 64
bits (riscv_bin_setters.h:731). -/
def How.number' (address : BitVec 64) (t : Text) : How → Option Int
  | .name l =>
    match t with
    | .name s => (l.lookup s).map fun n : Nat => (n : Int)
    | _ => none
  | .number signed => parse signed t
  | .relative signed width =>
    (parse signed t).map fun v => (v - address.toNat) % 2 ^ width

/-- An operand of an instruction. -/
inductive Operand where
  | src (o : SrcOp)
  | dst (o : DstOp)
  deriving DecidableEq, Repr

/-- Every operand. -/
def Operand.all : List Operand := SrcOp.all.map .src ++ DstOp.all.map .dst

/-- The setter of an operand. -/
def Operand.setter : Operand → Setter
  | .src o => o.setter
  | .dst o => o.setter

/-- The getter of an operand. -/
def Operand.getter : Operand → Getter
  | .src o => o.getter
  | .dst o => o.getter

/-- The bits of a field; empty when the format has no such field. -/
def bitsOf (f : Fmt) (n : Fld) : List Bit := (f.decl.bits n).getD []

/-- The encoding of an operand: `Encoder::F::InsertX(value, 0ULL)`
(riscv_bin_setters.h:521-987). -/
def encode (o : Operand) (address : BitVec 64) (t : Text) : Option Nat :=
  (o.setter.how.number' address t).map fun v =>
    insert (bitsOf o.setter.fmt o.setter.fld) (pattern v) 0

/-- Conversion to the type of the operand. -/
def Conv.apply : Conv → Int → Int
  | .int32, x => toInt32 x
  | .uint32, x => toUInt32 x

/-- The value of an operand of an instruction word
(riscv_getters.h:55-300, 310-380, riscv_getters_rv64.h:50-53): a register
number or an immediate. -/
def decode (o : Operand) (w : Nat) : Int :=
  o.getter.conv.apply
    (extract (o.getter.fmt.decl.isSigned o.getter.fld) (bitsOf o.getter.fmt o.getter.fld) w)

/-- The assembler ORs the operand encodings into the opcode word (mpact-sim
assembler; stated as an assumption in DESIGN.md). -/
def assemble (base : Nat) (e : Nat) : Nat := base ||| e

end Verif.Encoding
