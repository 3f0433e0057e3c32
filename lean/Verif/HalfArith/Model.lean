import Verif.FpArith.Model
import Verif.HalfFp.Model

/-!
# Half precision arithmetic

The arithmetic instructions of riscv_zfh_instructions.cc: the operands are widened
to `float`, the host computes in `float`, and the result is narrowed.  Operands and
results are the unboxed numbers (area NaNBox); the rounding mode is a valid one
(areas FpState and FpHost).  The flags are not modelled here.
-/

namespace Verif.HalfArith

open Verif.Fp Verif.FpHost.Spec Verif.FpFma
open Verif.HalfFp (widen narrow)

abbrev F16 := BitVec half.bits
abbrev F32 := BitVec single.bits

/-- The direction the host is set to for a rounding mode (riscv_fp_host_x86.cc:156-159;
see the area FpHost). -/
def hostDir : Nat → Dir
  | 1 => .towardZero
  | 2 => .down
  | 3 => .up
  | _ => .nearestEven

/-- `ConvertFromHalfFP<float>` (riscv_zfh_instructions.cc:88-142; area HalfFp). -/
def w (a : F16) : F32 := (widen single a).1

/-- `RiscVZfhUnaryHelper` (350-392) within `RiscVUnaryFloatNaNBoxOp`, which makes a
negative NaN infinity (riscv_instruction_helpers.h:507-512). -/
def unary (op : Dir → F32 → F32) (rm : Nat) (a : F16) : F16 :=
  let r := (narrow single rm (op (hostDir rm) (w a))).1
  if isNaN r && r.msb then r &&& posInf half else r

/-- `RiscVZfhBinaryHelper` (394-438) within `RiscVBinaryFloatNaNBoxOp`. -/
def binary (op : Dir → F32 → F32 → F32) (rm : Nat) (a b : F16) : F16 :=
  FpArith.binary (fun a b => (narrow single rm (op (hostDir rm) (w a) (w b))).1) a b

/-- `RiscVZfhTernaryHelper` (440-491) within `RiscVTernaryFloatNaNBoxOp`. -/
def ternary (op : Dir → F32 → F32 → F32 → F32) (rm : Nat) (a b c : F16) : F16 :=
  (narrow single rm (op (hostDir rm) (w a) (w b) (w c))).1

variable (h : FpArith.Host single)

/-- `RiscVZfhFadd` (786-789). -/
def fadd := binary h.add
/-- `RiscVZfhFsub` (792-795). -/
def fsub := binary h.sub
/-- `RiscVZfhFmul` (798-801). -/
def fmul := binary h.fma.mul
/-- `RiscVZfhFdiv` (804-807). -/
def fdiv := binary h.div
/-- `RiscVZfhFsqrt` (847-850). -/
def fsqrt := unary h.sqrt

/-- `RiscVZfhFmadd` (890-894).  Should the unqualified `fma` be the function of `double`
numbers, its result is converted to `float` by the return. -/
def fmadd := ternary h.fma.fma
/-- `RiscVZfhFmsub` (898-902). -/
def fmsub := ternary fun d a b c => h.fma.fma d a b (neg c)
/-- `RiscVZfhFnmadd` (906-910). -/
def fnmadd := ternary fun d a b c => h.fma.fma d (neg a) b (neg c)
/-- `RiscVZfhFnmsub` (914-918). -/
def fnmsub := ternary fun d a b c => h.fma.fma d (neg a) b c

/-- `RiscVZfhCvtHw`, `Hwu`, `Hl`, `Hlu` (714-729, 921-939): the host converts the integer `n`
to `float`. -/
def ofInt (conv : Dir → Int → F32) (rm : Nat) (n : Int) : F16 :=
  (narrow single rm (conv (hostDir rm) n)).1

end Verif.HalfArith
