import Verif.Regs.Model
/-
Model of the base integer computational instructions (riscv/riscv_i_instructions.cc) and of
Zicond (riscv/riscv_zicond_instructions.cc).

Operands come from mpact-sim's `GetInstructionSource<T>`, which truncates a register to a narrower
`T` (assumption, mpact-sim is not in /repo). The code base is compiled as C++17 (.bazelrc), so
overflow of `int` arithmetic and left shifts of negative values or out of range are undefined: the W
forms written with signed arithmetic return `none` there.
-/
namespace Verif.Alu
open Verif.Regs

/-- Two-operand instructions. -/
inductive Op where
  | add | sub | slt | sltu | and | or | xor | sll | srl | sra | czeroEqz | czeroNez
deriving DecidableEq, Repr

/-- RV32 semantic functions (riscv_i_instructions.cc:79-131, riscv_zicond_instructions.cc:28-40). -/
def op32 (o : Op) (a b : BitVec 32) : BitVec 32 :=
  match o with
  | .add => a + b
  | .sub => a - b
  | .slt => if a.slt b then 1#32 else 0#32
  | .sltu => if a.ult b then 1#32 else 0#32
  | .and => a &&& b
  | .or => a ||| b
  | .xor => a ^^^ b
  | .sll => a <<< (b &&& 0x1f#32)
  | .srl => a >>> (b &&& 0x1f#32)
  | .sra => a.sshiftRight (b &&& 0x1f#32).toNat
  | .czeroEqz => if b = 0#32 then 0#32 else a
  | .czeroNez => if b ≠ 0#32 then 0#32 else a

/-- RV64 semantic functions (riscv_i_instructions.cc:201-275, riscv_zicond_instructions.cc:48-60). -/
def op64 (o : Op) (a b : BitVec 64) : BitVec 64 :=
  match o with
  | .add => a + b
  | .sub => a - b
  | .slt => if a.slt b then 1#64 else 0#64
  | .sltu => if a.ult b then 1#64 else 0#64
  | .and => a &&& b
  | .or => a ||| b
  | .xor => a ^^^ b
  | .sll => a <<< (b &&& 0x3f#64)
  | .srl => a >>> (b &&& 0x3f#64)
  | .sra => a.sshiftRight (b &&& 0x3f#64).toNat
  | .czeroEqz => if b = 0#64 then 0#64 else a
  | .czeroNez => if b ≠ 0#64 then 0#64 else a

/-- The W forms of RV64. -/
inductive OpW where
  | addw | subw | sllw | srlw | sraw
deriving DecidableEq, Repr

/-- A mathematical integer as an `int`, if it is representable. -/
def toInt32? (x : Int) : Option (BitVec 32) :=
  if -2147483648 ≤ x ∧ x ≤ 2147483647 then some (BitVec.ofInt 32 x) else none

/-- Left shift of an `int` in C++17: defined if the value is non-negative and the mathematical
result fits the unsigned type. -/
def shl32? (a : BitVec 32) (n : Nat) : Option (BitVec 32) :=
  if 0 ≤ a.toInt ∧ a.toInt * 2 ^ n < 4294967296 then some (BitVec.ofInt 32 (a.toInt * 2 ^ n)) else none

/-- The 32-bit operation of a W form (riscv_i_instructions.cc:206-226, 277-299), before the
sign extension by `static_cast<IntReg>`. -/
def narrow (o : OpW) (a b : BitVec 32) : Option (BitVec 32) :=
  match o with
  | .addw => toInt32? (a.toInt + b.toInt)
  | .subw => toInt32? (a.toInt - b.toInt)
  | .sllw => shl32? a (b &&& 0x1f#32).toNat
  | .srlw => some (a >>> (b &&& 0x1f#32))
  | .sraw => some (a.sshiftRight (b &&& 0x1f#32).toNat)

def opW (o : OpW) (a b : BitVec 64) : Option (BitVec 64) :=
  (narrow o (a.setWidth 32) (b.setWidth 32)).map fun r => r.signExtend 64

/-- lui (riscv_i_instructions.cc:131-134, 286-292). The operand is the immediate already shifted by
the decoder. -/
def lui32 (imm : BitVec 32) : BitVec 32 := imm &&& ~~~0xfff#32
def lui64 (imm : BitVec 32) : BitVec 64 := imm.signExtend 64 &&& ~~~0xfff#64

/-- auipc (riscv_i_instructions.cc:139-144, 296-302); the address of the instruction is 64 bits
wide. -/
def auipc32 (imm : BitVec 32) (address : BitVec 64) : BitVec 32 :=
  ((imm &&& ~~~0xfff#32).setWidth 64 + address).setWidth 32
def auipc64 (imm : BitVec 32) (address : BitVec 64) : BitVec 64 :=
  (imm &&& ~~~0xfff#32).signExtend 64 + address

/-- A register-register or register-immediate instruction: `RiscVBinaryOp`
(riscv_instruction_helpers.h:302-315). Both operands are read before the destination is written. -/
def exec {w : Nat} (f : BitVec w → BitVec w → BitVec w) (r : File w) (rd rs1 : BitVec 5) (s : Src w) :
    File w :=
  write r rd (f (read r rs1) (s.value r))

/-- The same for an operation that may be undefined. -/
def exec? {w : Nat} (f : BitVec w → BitVec w → Option (BitVec w)) (r : File w) (rd rs1 : BitVec 5)
    (s : Src w) : Option (File w) :=
  (f (read r rs1) (s.value r)).map (write r rd)

end Verif.Alu
