import Verif.Fp.Fmt
/-
Narrow floating-point values in wide registers: reading operands and writing results.
-/
namespace Verif.NaNBox
open Verif.Fp

/-- GetInstructionSource<Argument> on a register operand: the low bits.
riscv/riscv_instruction_helpers.h:289, 298 (mpact-sim accessor). -/
def plainSource {R : Nat} (f : Fmt) (r : BitVec R) : BitVec f.bits := r.setWidth f.bits

/-- GetNaNBoxedSource<RegValue, Argument>.  riscv/riscv_instruction_helpers.h:284-300.
`R` is the width of `RegValue`, which is the template argument and not necessarily the width of the
floating-point register. -/
def boxedSource (R : Nat) {W : Nat} (f : Fmt) (r : BitVec W) : BitVec f.bits :=
  if R ≤ f.bits then plainSource f r
  else
    let uval := r.setWidth R
    let mask := BitVec.allOnes R <<< f.bits
    if mask &&& uval ≠ mask then canonicalNaN f else plainSource f r

/-- The write-back of RiscVBinaryNaNBoxOp, RiscVUnaryNaNBoxOp, RiscVUnaryFloatNaNBoxOp,
RiscVBinaryFloatNaNBoxOp and RiscVTernaryFloatNaNBoxOp:
`reg_value = (~0 << 8 * (sizeof(Register) - sizeof(Result))) | dest_u_value`.
riscv/riscv_instruction_helpers.h:442-454, 468-480, 519-531, 635-647, 679-691.
`R` is the register width.  (When the result is as wide as the register it is stored as is.) -/
def writeGeneric (R : Nat) (f : Fmt) (v : BitVec f.bits) : BitVec R :=
  if R > f.bits then (BitVec.allOnes R <<< (R - f.bits)) ||| v.setWidth R else v.setWidth R

/-- The write-back of RiscVZfhCvtHelper, RiscVZfhFMvhxHelper, RiscVZfhFlhChild and RiscVIFlwChild:
`reg_value = (~0 << 8 * sizeof(Result)) | dest_u_value`.
riscv/riscv_zfh_instructions.cc:335-347, 518-525, 742-750; riscv/riscv_f_instructions.cc:148-156. -/
def writeShift (R : Nat) (f : Fmt) (v : BitVec f.bits) : BitVec R :=
  if R > f.bits then (BitVec.allOnes R <<< f.bits) ||| v.setWidth R else v.setWidth R

/-- The integer register width of the two architectures. -/
inductive XLen | rv32 | rv64
  deriving DecidableEq, Repr

/-- Instructions with a narrow floating-point operand (`fmt` is the operand's format where both
single and half precision versions exist). -/
inductive Reader
  /-- fadd/fsub/fmul/fdiv -/
  | arith (fmt : Fmt)
  | sqrt (fmt : Fmt)
  | minmax (fmt : Fmt)
  | sgnj (fmt : Fmt)
  /-- fmadd/fmsub/fnmadd/fnmsub -/
  | fma (fmt : Fmt)
  | cmp (fmt : Fmt)
  | fclass (fmt : Fmt)
  /-- conversion to an integer -/
  | toInt (fmt : Fmt)
  /-- conversion to another floating-point format -/
  | toFp (src dst : Fmt)
  deriving DecidableEq, Repr

/-- The operand as the semantic function sees it. Registers are 64 bits wide
(RVFpRegister::ValueType is uint64_t).
* arith: RiscVBinaryFloatNaNBoxOp (riscv_f_instructions.cc:160-178, riscv_zfh_instructions.cc:786-807)
* sqrt: RiscVUnaryNaNBoxOp / RiscVZfhUnaryHelper (riscv_f_instructions.cc:182-184, riscv_zfh:847-850, 358)
* minmax: RiscVBinaryNaNBoxOp (riscv_f_instructions.cc:222-249), RiscVZfhBinaryHelper (riscv_zfh:811-843)
* sgnj: riscv_f_instructions.cc:331-352, riscv_zfh:854-886
* fma: RiscVTernaryFloatNaNBoxOp reads the operands with GetInstructionSource
  (riscv_instruction_helpers.h:655-657)
* cmp: `RiscVBinaryNaNBoxOp<XRegister::ValueType, ...>` for single (riscv_f_instructions.cc:86, 102, 118),
  `GetNaNBoxedSource<RVFpRegister::ValueType, HalfFP>` for half (riscv_zfh:533-536, 556-559, 581-584)
* fclass: RiscVUnaryOp (riscv_f_instructions.cc:440, 517; riscv_zfh:645, 695; helpers.h:332)
* toInt: RiscVConvertFloatWithFflagsOp (riscv_instruction_helpers.h:81)
* toFp: half source, or half destination: RiscVZfhCvtHelper (riscv_zfh:303-311); fcvt.d.s:
  RiscVUnaryFloatOp (riscv_d_instructions.cc:322-331, helpers.h:539) -/
def operand (x : XLen) : Reader → BitVec 64 → (Σ f : Fmt, BitVec f.bits)
  | .arith f, r => ⟨f, boxedSource 64 f r⟩
  | .sqrt f, r => ⟨f, boxedSource 64 f r⟩
  | .minmax f, r => ⟨f, boxedSource 64 f r⟩
  | .sgnj f, r => ⟨f, boxedSource 64 f r⟩
  | .fma f, r => ⟨f, plainSource f r⟩
  | .cmp f, r =>
    if f = half then ⟨f, boxedSource 64 f r⟩
    else ⟨f, boxedSource (match x with | .rv32 => 32 | .rv64 => 64) f r⟩
  | .fclass f, r => ⟨f, plainSource f r⟩
  | .toInt f, r => ⟨f, plainSource f r⟩
  | .toFp src dst, r =>
    if src = half ∨ dst = half then ⟨src, boxedSource 64 src r⟩ else ⟨src, plainSource src r⟩

/-- Instructions with a narrow floating-point result. -/
inductive Writer
  | arith (fmt : Fmt)
  | sqrt (fmt : Fmt)
  | minmax (fmt : Fmt)
  | sgnj (fmt : Fmt)
  | fma (fmt : Fmt)
  /-- conversion from an integer -/
  | fromInt (fmt : Fmt)
  /-- conversion from another format -/
  | fromFp (src dst : Fmt)
  /-- fmv.w.x, fmv.h.x -/
  | move (fmt : Fmt)
  /-- flw, flh -/
  | load (fmt : Fmt)
  deriving DecidableEq, Repr

/-- The register value written for a result `v`.  Same citations as `operand`, plus fromInt:
riscv_f_instructions.cc:355-376 (generic) and riscv_zfh_instructions.cc:714-729, 921-938 (own helper);
fromFp: riscv_d_instructions.cc:309-319 (generic, fcvt.s.d), riscv_zfh_instructions.cc:754-783;
move: riscv_f_instructions.cc:379-382, 495-498, riscv_zfh:508-526;
load: riscv_f_instructions.cc:141-157, riscv_zfh:733-751. -/
def result : (w : Writer) → (f : Fmt) → BitVec f.bits → BitVec 64
  | .arith _, f, v | .sqrt _, f, v | .minmax _, f, v | .sgnj _, f, v | .fma _, f, v => writeGeneric 64 f v
  | .fromInt fmt, f, v => if fmt = half then writeShift 64 f v else writeGeneric 64 f v
  | .fromFp src dst, f, v => if src = half ∨ dst = half then writeShift 64 f v else writeGeneric 64 f v
  | .move fmt, f, v => if fmt = half then writeShift 64 f v else writeGeneric 64 f v
  | .load _, f, v => writeShift 64 f v

/-- The format an instruction writes. -/
def Writer.fmt : Writer → Fmt
  | .arith f | .sqrt f | .minmax f | .sgnj f | .fma f | .fromInt f | .move f | .load f => f
  | .fromFp _ dst => dst

/-- The format an instruction reads. -/
def Reader.fmt : Reader → Fmt
  | .arith f | .sqrt f | .minmax f | .sgnj f | .fma f | .cmp f | .fclass f | .toInt f => f
  | .toFp src _ => src

end Verif.NaNBox
