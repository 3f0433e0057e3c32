import Verif.VecLoop.Model
import Verif.FpArith.Model
import Verif.FpClass.Model
/-
Vector reductions (riscv/riscv_vector_reduction_instructions.cc, riscv/riscv_vector_fp_reduction_instructions.cc)
on top of `VecLoop.reduction`, the model of `RiscVBinaryReductionVectorOp`.
-/
namespace Verif.VecRed
open Verif.Fp Verif.FpHost.Spec Verif.VecState Verif.VecLoop Verif.FpClass

/-- The integer reductions that do not widen. -/
inductive IntOp where
  | sum | and | or | xor | minu | min | maxu | max
  deriving DecidableEq, Repr

/-- The lambdas (riscv_vector_reduction_instructions.cc: Vredsum 29-57, Vredand 60-88, Vredor 91-119, Vredxor
122-150, Vredminu 153-184, Vredmin 187-217, Vredmaxu 220-251, Vredmax 254-284).  `std::min(a, b)` is
`b < a ? b : a`, `std::max(a, b)` is `a < b ? b : a`. -/
def IntOp.fn {m : Nat} : IntOp → BitVec m → BitVec m → BitVec m
  | .sum, acc, v => acc + v
  | .and, acc, v => acc &&& v
  | .or, acc, v => acc ||| v
  | .xor, acc, v => acc ^^^ v
  | .minu, acc, v => if v.ult acc then v else acc
  | .min, acc, v => if v.slt acc then v else acc
  | .maxu, acc, v => if acc.ult v then v else acc
  | .max, acc, v => if acc.slt v then v else acc

def refuse (c : VCore) : VCore := { c with vs := { c.vs with exception := true } }

/-- The eight functions: the switch on SEW and the reduction with all types equal. -/
def vred (op : IntOp) (c : VCore) (vd vs2 vs1 : Nat) (mask : Buf) : Option VCore :=
  if c.vs.sew = 1 ∨ c.vs.sew = 2 ∨ c.vs.sew = 4 ∨ c.vs.sew = 8 then
    reduction c c.vs.sew c.vs.sew c.vs.sew vd vs2 vs1 mask id op.fn
  else some (refuse c)

/-- A conversion between integer types of the same signedness. -/
def ext (sgn : Bool) {m : Nat} (n : Nat) (v : BitVec m) : BitVec n := if sgn then v.signExtend n else v.setWidth n

/-- `Vwredsumu` and `Vwredsum` (riscv_vector_reduction_instructions.cc:287-346): the accumulator has twice the
width, but `vs1[0]` is read with the width SEW and converted.  The signed addition of the widest type does not
overflow as long as there are fewer than 2^SEW elements (`Props.signed_sum_bound`). -/
def vwredsum (sgn : Bool) (c : VCore) (vd vs2 vs1 : Nat) (mask : Buf) : Option VCore :=
  if c.vs.sew = 1 ∨ c.vs.sew = 2 ∨ c.vs.sew = 4 then
    reduction c (2 * c.vs.sew) c.vs.sew c.vs.sew vd vs2 vs1 mask (ext sgn _) (fun acc v => acc + ext sgn _ v)
  else some (refuse c)

/-- `Vfredosum` (riscv_vector_fp_reduction_instructions.cc:38-64), also used for vfredusum.  `valid`:
`rounding_mode_valid()`. -/
def vfredosum (h4 : FpArith.Host single) (h8 : FpArith.Host double) (valid : Bool) (d : Dir) (c : VCore)
    (vd vs2 vs1 : Nat) (mask : Buf) : Option VCore :=
  if !valid then some (refuse c)
  else match c.vs.sew with
    | 4 => reduction c 4 4 4 vd vs2 vs1 mask id (h4.add d)
    | 8 => reduction c 8 8 8 vd vs2 vs1 mask id (h8.add d)
    | _ => some (refuse c)

/-- `Vfwredosum` (riscv_vector_fp_reduction_instructions.cc:66-88).  `widen` is the host's conversion from float
to double. -/
def vfwredosum (widen : BitVec single.bits → BitVec double.bits) (h8 : FpArith.Host double) (valid : Bool) (d : Dir)
    (c : VCore) (vd vs2 vs1 : Nat) (mask : Buf) : Option VCore :=
  if !valid then some (refuse c)
  else match c.vs.sew with
    | 4 => reduction c 8 4 8 vd vs2 vs1 mask id (fun acc v => h8.add d acc (widen v))
    | _ => some (refuse c)

variable {f : Fmt}

/-- `MaxMinHelper` of the reductions (riscv_vector_fp_reduction_instructions.cc:90-105); it touches no flags. -/
def maxMin (vs2 vs1 : BitVec f.bits) (op : BitVec f.bits → BitVec f.bits → BitVec f.bits) : BitVec f.bits :=
  if isSNaN vs1 || isSNaN vs2 || (isNaN vs2 && isNaN vs1) then canonicalNaN f
  else if isNaN vs2 then vs1
  else if isNaN vs1 then vs2
  else op vs2 vs1

/-- The lambdas of `Vfredmin` (108-142) and `Vfredmax` (145-179): called as `MaxMinHelper(acc, vs2, ...)`. -/
def redMin (acc v : BitVec f.bits) : BitVec f.bits := maxMin acc v fun acc v => if hostLt v acc then v else acc
def redMax (acc v : BitVec f.bits) : BitVec f.bits := maxMin acc v fun acc v => if hostLt acc v then v else acc

/-- `Vfredmin` and `Vfredmax` (riscv_vector_fp_reduction_instructions.cc:107-179). -/
def vfredminmax (isMax : Bool) (valid : Bool) (c : VCore) (vd vs2 vs1 : Nat) (mask : Buf) : Option VCore :=
  if !valid then some (refuse c)
  else match c.vs.sew with
    | 4 => reduction c 4 4 4 vd vs2 vs1 mask id (if isMax then redMax (f := single) else redMin (f := single))
    | 8 => reduction c 8 8 8 vd vs2 vs1 mask id (if isMax then redMax (f := double) else redMin (f := double))
    | _ => some (refuse c)

end Verif.VecRed
