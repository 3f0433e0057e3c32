import Verif.FpConvert.Model
import Verif.FpConvert.Spec

/-!
# Vector conversions from floating point to integer

`CvtHelper` (riscv_instruction_helpers.h:43-72) and the instructions built on it
(riscv_vector_fp_unary_instructions.cc:159-213, 269-359, 431-521, 633-677).  The value of a
finite operand is `num / den`; the host compares values exactly.
-/

namespace Verif.VecCvt

open Verif.Fp Verif.FpConvert Verif.FpConvert.Spec

variable {f : Fmt}

/-- `value > k` on the host, for an operand that is not a NaN. -/
def above (u : BitVec f.bits) (k : Int) : Bool :=
  if isInf u then !signBit u else decide (k * den u < num u)

/-- `value < k` on the host, for an operand that is not a NaN. -/
def below (u : BitVec f.bits) (k : Int) : Bool :=
  if isInf u then signBit u else decide (num u < k * den u)

/-- Number of value bits of the integer type. -/
def width (t : To) : Nat := if t.signed then t.bits - 1 else t.bits

/-- `static_cast<From>(std::numeric_limits<To>::max())`: the constant 2^n - 1, rounded
to nearest when it has more bits than the significand (riscv_instruction_helpers.h:46). -/
def kMaxF (f : Fmt) (t : To) : Int :=
  if width t ≤ f.s + 1 then 2 ^ width t - 1 else 2 ^ width t

/-- The operand without its fraction. -/
def trunc (u : BitVec f.bits) : Int := (num u).tdiv (den u)

/-- `static_cast<To>(value)`: undefined if the truncated value is out of range. -/
def cast (t : To) (u : BitVec f.bits) : Outcome :=
  if isInf u then .ub
  else if t.kMin ≤ trunc u ∧ trunc u ≤ t.kMax then .done (trunc u) 0
  else .ub

/-- `CvtHelper` (riscv_instruction_helpers.h:43-72). -/
def cvt (t : To) (u : BitVec f.bits) : Outcome :=
  if isNaN u then .done t.kMax NV
  else if above u (kMaxF f t) then .done t.kMax NV
  else if below u t.kMin then
    if !t.signed && above u (-1) then
      -- the cast to the signed type is in range here
      if trunc u = 0 then .done 0 NX else .done t.kMin NV
    else .done t.kMin NV
  else cast t u

/-- The instructions that use the dynamic rounding mode: it must be valid, otherwise
the vector exception is set (`ignored`).  riscv_vector_fp_unary_instructions.cc:159-213,
315-359, 467-521. -/
def vfcvt (t : To) (frm : Nat) (u : BitVec f.bits) : Outcome :=
  if 4 < frm then .ignored else cvt t u

/-- The `.rtz` instructions.  riscv_vector_fp_unary_instructions.cc:269-313, 431-465,
633-677. -/
def vfcvtRtz (t : To) (u : BitVec f.bits) : Outcome := cvt t u

/-- The integer types of narrowing conversions (SEW = 16). -/
def int16 : To := ⟨16, true⟩
def uint16 : To := ⟨16, false⟩

end Verif.VecCvt
