import Verif.VecLoop.Model
import Verif.VecMask.Model
import Verif.FpClass.Model
/-
Vector floating-point minimum, maximum, sign injection, merge (riscv/riscv_vector_fp_instructions.cc:663-842) and
compares (riscv/riscv_vector_fp_compare_instructions.cc).
-/
namespace Verif.VecFp
open Verif.Fp Verif.FpClass Verif.VecState Verif.VecLoop

/-- The state after a refused element width: the vector exception flag. -/
def refuse (c : VCore) : VCore := { c with vs := { c.vs with exception := true } }

/-- The scalar operand of a `.vf` instruction with 32-bit elements: `GetInstructionSource<float>` of a 64-bit register
takes the low half (riscv_vector_instruction_helpers.h:536-537; riscv_instruction_helpers.h:286-299 checks the upper
half for scalar instructions, the vector helpers do not). -/
def scalar4 (reg : BitVec 64) : BitVec (8 * 4) := reg.setWidth 32

section
variable {f : Fmt}

/-- `(vs1 < vs2) ? vs1 : vs2` and `(vs1 > vs2) ? vs1 : vs2` of the lambdas of `Vfmin` and `Vfmax` (769, 778, 799, 808). -/
def pick {α : Type} (isMax : Bool) (lt : α → α → Bool) (vs2 vs1 : α) : α :=
  if isMax then (if lt vs2 vs1 then vs1 else vs2) else (if lt vs1 vs2 then vs1 else vs2)

/-- `MaxMinHelper` (riscv_vector_fp_instructions.cc:731-756): the value and the flags. -/
def maxMin (isMax : Bool) (vs2 vs1 : BitVec f.bits) : BitVec f.bits × Nat :=
  let flag := if isSNaN vs1 || isSNaN vs2 then kInvalidOp else 0
  if isNaN vs2 && isNaN vs1 then (canonicalNaN f, flag)
  else if isNaN vs2 then (vs1, flag)
  else if isNaN vs1 then (vs2, flag)
  else if hostZero vs2 && hostZero vs1 then
    let tmp2 : Int := if signBit vs2 then -1 else 1
    let tmp1 : Int := if signBit vs1 then -1 else 1
    (if pick isMax (fun a b => decide (a < b)) tmp2 tmp1 = tmp2 then vs2 else vs1, 0)
  else (pick isMax hostLt vs2 vs1, flag)

end

/-- `Vfmin`, `Vfmax` (758-816) on `RiscVBinaryVectorOpWithFflags` (riscv_vector_instruction_helpers.h:480-567); the second
component is the value submitted to the set-bits destination of fflags. -/
def vfminmax (isMax : Bool) (c : VCore) (vd vs2 : Nat) (src1 : (n : Nat) → Src n) (mask : Buf) : Option (VCore × Nat) :=
  match c.vs.sew with
  | 4 => binary c 4 4 4 vd vs2 (src1 4) mask
      (fun a b fl => ((maxMin (f := single) isMax a b).1, fl ||| (maxMin (f := single) isMax a b).2)) 0
  | 8 => binary c 8 8 8 vd vs2 (src1 8) mask
      (fun a b fl => ((maxMin (f := double) isMax a b).1, fl ||| (maxMin (f := double) isMax a b).2)) 0
  | _ => some (refuse c, 0)

inductive Sgn where
  | j | jn | jx

/-- The lambdas of `Vfsgnj` (672, 677-678), `Vfsgnjn` (697, 702-703) and `Vfsgnjx` (722, 727-728: the 64-bit one joins the
parts with `^`). -/
def Sgn.op4 : Sgn → BitVec 32 → BitVec 32 → BitVec 32
  | .j, vs2, vs1 => (vs2 &&& 0x7fffffff#32) ||| (vs1 &&& 0x80000000#32)
  | .jn, vs2, vs1 => (vs2 &&& 0x7fffffff#32) ||| (~~~vs1 &&& 0x80000000#32)
  | .jx, vs2, vs1 => (vs2 &&& 0x7fffffff#32) ||| ((vs1 ^^^ vs2) &&& 0x80000000#32)
def Sgn.op8 : Sgn → BitVec 64 → BitVec 64 → BitVec 64
  | .j, vs2, vs1 => (vs2 &&& 0x7fffffffffffffff#64) ||| (vs1 &&& 0x8000000000000000#64)
  | .jn, vs2, vs1 => (vs2 &&& 0x7fffffffffffffff#64) ||| (~~~vs1 &&& 0x8000000000000000#64)
  | .jx, vs2, vs1 => (vs2 &&& 0x7fffffffffffffff#64) ^^^ ((vs1 ^^^ vs2) &&& 0x8000000000000000#64)

/-- `Vfsgnj`, `Vfsgnjn`, `Vfsgnjx` (663-729). -/
def vfsgnj (k : Sgn) (c : VCore) (vd vs2 : Nat) (src1 : (n : Nat) → Src n) (mask : Buf) : Option VCore :=
  match c.vs.sew with
  | 4 => (binary c 4 4 4 vd vs2 (src1 4) mask (fun a b (_ : Unit) => (k.op4 a b, ())) ()).map (·.1)
  | 8 => (binary c 8 8 8 vd vs2 (src1 8) mask (fun a b (_ : Unit) => (k.op8 a b, ())) ()).map (·.1)
  | _ => some (refuse c)

/-- `Vfmerge` (818-842). -/
def vfmerge (c : VCore) (vd vs2 : Nat) (src1 : (n : Nat) → Src n) (mask : Buf) : Option VCore :=
  match c.vs.sew with
  | 4 => (maskBinary c 4 4 4 vd vs2 (src1 4) mask (fun a b m (_ : Unit) => (some (if m then b else a), ())) ()).map (·.1)
  | 8 => (maskBinary c 8 8 8 vd vs2 (src1 8) mask (fun a b m (_ : Unit) => (some (if m then b else a), ())) ()).map (·.1)
  | _ => some (refuse c)

/-- The instruction vfmerge.vfm: its description names `vs1`, a vector register, as the second source
(riscv_vector.isa:1110-1112).  `fregs` are the floating-point registers; they are not used. -/
def vfmergeVf (c : VCore) (_fregs : Nat → BitVec 64) (vd vs2 rs1 : Nat) (mask : Buf) : Option VCore :=
  vfmerge c vd vs2 (fun _ => .vec rs1) mask

inductive Cmp where
  | eq | le | lt | ne | gt | ge
  deriving DecidableEq

/-- The lambdas of `Vmfeq` (27-44) to `Vmfge` (127-144): host comparisons. -/
def Cmp.fn {f : Fmt} : Cmp → BitVec f.bits → BitVec f.bits → Bool
  | .eq, a, b => hostEq a b
  | .le, a, b => hostLe a b
  | .lt, a, b => hostLt a b
  | .ne, a, b => !hostEq a b
  | .gt, a, b => hostLt b a
  | .ge, a, b => hostLe b a

/-- The compare instructions (riscv_vector_fp_compare_instructions.cc).  They have no flags destination
(riscv_vector.isa:1113-1142) and establish no `ScopedFPStatus`: the second component, the flags raised, is 0. -/
def vmf (k : Cmp) (c : VCore) (vd vs2 : Nat) (src1 : (n : Nat) → Src n) (mask : Buf) : VCore × Nat :=
  match c.vs.sew with
  | 4 => (VecMask.compare (n2 := 4) (n1 := 4) c vd vs2 (src1 4) mask (k.fn (f := single)), 0)
  | 8 => (VecMask.compare (n2 := 8) (n1 := 8) c vd vs2 (src1 8) mask (k.fn (f := double)), 0)
  | _ => (refuse c, 0)

end Verif.VecFp
