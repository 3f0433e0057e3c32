import Verif.FpFma.Model

/-!
# Conversions to floating-point formats

The scalar conversions of riscv_f_instructions.cc and riscv_d_instructions.cc and the
element operations of riscv_vector_fp_unary_instructions.cc.  Operands and results are
the unboxed numbers (area NaNBox); the rounding mode is valid (areas FpState, FpHost).
-/

namespace Verif.FpCvt

open Verif.Fp Verif.FpHost.Spec

abbrev F32 := BitVec single.bits
abbrev F64 := BitVec double.bits

/-- The host's `static_cast`s. -/
structure Host where
  /-- `double` to `float` -/
  narrow : Dir → F64 → F32
  /-- `float` to `double` -/
  widen : F32 → F64
  /-- an integer of up to 64 bits to `float` -/
  toSingle : Dir → Int → F32
  /-- an integer of up to 64 bits to `double` -/
  toDouble : Dir → Int → F64

variable (h : Host)

/-- `RiscVUnaryFloatNaNBoxOp` masks a negative NaN (riscv_instruction_helpers.h:507-512). -/
def unary {f : Fmt} (r : BitVec f.bits) : BitVec f.bits :=
  if isNaN r && r.msb then r &&& posInf f else r

/-- `RiscVDCvtSd` (riscv_d_instructions.cc:309-319). -/
def fcvtSD (d : Dir) (a : F64) : F32 :=
  unary (if isNaN a then canonicalNaN single else h.narrow d a)

/-- `RiscVDCvtDs` (riscv_d_instructions.cc:322-331). -/
def fcvtDS (a : F32) : F64 :=
  if isNaN a then canonicalNaN double else h.widen a

/-- `RiscVFCvtSw`, `Swu`, `Sl`, `Slu` of the integer `n` (riscv_f_instructions.cc:355-376). -/
def fcvtSInt (d : Dir) (n : Int) : F32 := unary (h.toSingle d n)

/-- `RiscVDCvtDw`, `Dwu`, `Dl`, `Dlu` (riscv_d_instructions.cc:297-306, 522-531). -/
def fcvtDInt (d : Dir) (n : Int) : F64 := h.toDouble d n

/-- An element of `Vfncvtffw` (riscv_vector_fp_unary_instructions.cc:521-543). -/
def vfncvtFF (d : Dir) (vs2 : F64) : F32 := h.narrow d vs2

/-- An element of `Vfwcvtffv` (362-375). -/
def vfwcvtFF (vs2 : F32) : F64 := h.widen vs2

/-- An element of `Vfcvtfxuv`, `Vfcvtfxv`, `Vfwcvtfxuv`, `Vfwcvtfxv`, `Vfncvtfxuw` and
`Vfncvtfxw` with single precision results (212-266, 377-429, 587-635). -/
def vfcvtSInt (d : Dir) (n : Int) : F32 := h.toSingle d n

/-- The same with double precision results. -/
def vfcvtDInt (d : Dir) (n : Int) : F64 := h.toDouble d n

/-- An element of `Vfncvtrodffw` (546-584).  The host's direction is not set: `d` is
the one it happens to have. -/
def vfncvtRod (d : Dir) (vs2 : F64) : F32 :=
  if isNaN vs2 || isInf vs2 then h.narrow d vs2
  else
    let sigDiff := double.s - single.s
    let bit : F32 := if vs2.toNat % 2 ^ sigDiff ≠ 0 then 1 else 0
    let res := h.narrow d vs2
    if isInf res then res else res ||| bit

end Verif.FpCvt
