import Verif.Getters.Tables

/-!
# What the operand getters return

`Tables.lean` lists the getters of every encoding class; here is what a getter
makes of an instruction word.
-/

namespace Verif.Getters

open BinFmt

/-- An operand, as the instruction's semantic function sees it. -/
inductive Val where
  /-- a number -/
  | number (z : Int)
  /-- an integer register -/
  | x (n : Nat)
  /-- a floating-point register -/
  | f (n : Nat)
  /-- `count` vector registers from number `first` on -/
  | v (first count : Nat)
  /-- a mask that enables every element -/
  | allTrue
  /-- a destination whose value is dropped -/
  | discard
  /-- some other object named by the state: the program counter, a CSR -/
  | other
  /-- no operand -/
  | none
  deriving DecidableEq, Repr

/-- `Extract…` of a named field or overlay (generated code, see
`BinFmt/Model.lean`). -/
def read (fmt : Fmt) (fld : Fld) (w : Nat) : Int :=
  extract (fmt.decl.isSigned fld) ((fmt.decl.bits fld).getD []) w

/-- A register number: `num` in the getters (e.g. riscv_getters.h:75). -/
def num (fmt : Fmt) (fld : Fld) (w : Nat) : Nat := (read fmt fld w).toNat

/-- The conversion to the type argument of `ImmediateOperand`. -/
def convert (signed : Bool) (z : Int) : Int :=
  if signed then (BitVec.ofInt 32 z).toInt else ((BitVec.ofInt 32 z).toNat : Int)

/-- `kNumRegTable` (riscv_getters_vector.h:46, riscv32g_vec_encoding.cc and
riscv64g_vec_encoding.cc have the same table). -/
def numRegs (n : Nat) : Nat := [8, 1, 2, 1, 4, 1, 2, 1].getD (n % 8) 0

/-- `kSRegToXRegMap` (riscv_zc_getters.h:286). -/
def sregs (n : Nat) : Nat := [8, 9, 18, 19, 20, 21, 22, 23].getD n 0

/-- A source operand getter applied to an instruction word. -/
def What.source (w : Nat) : What → Val
  | .imm s fmt fld => .number (convert s (read fmt fld w))
  | .xreg z fmt fld => if z = true ∧ num fmt fld w = 0 then .number 0 else .x (num fmt fld w)
  | .freg fmt fld => .f (num fmt fld w)
  -- GetVectorRegisterSourceOp (riscv_getters_vector.h:61-70)
  | .vgroup fmt fld => .v (num fmt fld w) (numRegs (num fmt fld w))
  -- GetVectorMaskRegisterSourceOp (riscv_getters_vector.h:83-97)
  | .vsingle fmt fld => .v (num fmt fld w) 1
  | .mask fmt fld => if num fmt fld w = 1 then .allTrue else .v 0 1
  | .sreg fmt fld => .x (sregs (num fmt fld w))
  | .const n => .number n
  | .xfixed n => .x n
  | .allTrue => .allTrue
  | .discard => .discard
  | .pc | .csr | .flags => .other
  | .null | .missing => .none

/-- A destination operand getter applied to an instruction word.  Register 0
is replaced by the register `X0Dest`, which nothing reads. -/
def What.dest (w : Nat) : What → Val
  | .xreg z fmt fld => if z = true ∧ num fmt fld w = 0 then .discard else .x (num fmt fld w)
  | o => o.source w

end Verif.Getters
