import Verif.FpClass.Model
import Verif.HalfFp.Model
import Verif.NaNBox.Model
/-
Half-precision comparisons (riscv/riscv_zfh_instructions.cc:529-601): the operands are widened
to single precision and compared by the host.
-/
namespace Verif.HalfCmp
open Verif.Fp Verif.FpClass Verif.HalfFp Verif.NaNBox

/-- The operand: `GetNaNBoxedSource<RVFpRegister::ValueType, HalfFP>`, of a 64-bit register. -/
def source (r : BitVec 64) : BitVec half.bits := boxedSource 64 half r

/-- The integer register's value for a truth value. -/
def flagReg (w : Nat) (b : Bool) : BitVec w := if b then 1#w else 0#w

/-- `RiscVZfhFcmpeqHelper` (riscv_zfh_instructions.cc:530-550): the integer result and the flags
submitted. -/
def feq (w : Nat) (r1 r2 : BitVec 64) : BitVec w × Nat :=
  let a := widen single (source r1)
  let b := widen single (source r2)
  (flagReg w (hostEq a.1 b.1), (a.2 ||| b.2) &&& kInvalidOp)

/-- `RiscVZfhFcmpltHelper` (riscv_zfh_instructions.cc:553-575). -/
def flt (w : Nat) (r1 r2 : BitVec 64) : BitVec w × Nat :=
  let a := (widen single (source r1)).1
  let b := (widen single (source r2)).1
  (flagReg w (hostLt a b), if isNaN a || isNaN b then kInvalidOp else 0)

/-- `RiscVZfhFcmpleHelper` (riscv_zfh_instructions.cc:578-600). -/
def fle (w : Nat) (r1 r2 : BitVec 64) : BitVec w × Nat :=
  let a := (widen single (source r1)).1
  let b := (widen single (source r2)).1
  (flagReg w (hostLe a b), if isNaN a || isNaN b then kInvalidOp else 0)

end Verif.HalfCmp
