import Verif.FpFma.Model

/-!
# Scalar arithmetic

The instructions of riscv_f_instructions.cc and riscv_d_instructions.cc around the
host's arithmetic: results and the invalid flag.  A flag is raised by submitting it
to the flag destination or by the host operation (the host's flags are merged into
fflags when the scoped status ends: see the area FpHost).  What is submitted while the
scoped status is active is lost (`FpState.scopedFp`).
-/

namespace Verif.FpArith

open Verif.Fp Verif.FpHost.Spec Verif.FpFma

variable {f : Fmt}

/-- The host's arithmetic and whether it raises the invalid flag. -/
structure Host (f : Fmt) where
  fma : FpFma.Host f
  add : Dir → BitVec f.bits → BitVec f.bits → BitVec f.bits
  sub : Dir → BitVec f.bits → BitVec f.bits → BitVec f.bits
  div : Dir → BitVec f.bits → BitVec f.bits → BitVec f.bits
  sqrt : Dir → BitVec f.bits → BitVec f.bits
  fmaNv : BitVec f.bits → BitVec f.bits → BitVec f.bits → Bool
  mulNv : BitVec f.bits → BitVec f.bits → Bool
  sqrtNv : BitVec f.bits → Bool

/-- `RiscVBinaryFloatNaNBoxOp` replaces a NaN by the canonical one
(riscv_instruction_helpers.h:627-630).  Operands and result are the unboxed
numbers (area NaNBox). -/
def binary (op : BitVec f.bits → BitVec f.bits → BitVec f.bits) (a b : BitVec f.bits) :
    BitVec f.bits :=
  let r := op a b
  if isNaN r then canonicalNaN f else r

/-- `RiscVFAdd`, `RiscVDAdd` (riscv_f_instructions.cc:160-163, riscv_d_instructions.cc:63-66). -/
def fadd (h : Host f) (d : Dir) := binary (f := f) (h.add d)
/-- `RiscVFSub`, `RiscVDSub` (riscv_f:165-168, riscv_d:68-71). -/
def fsub (h : Host f) (d : Dir) := binary (f := f) (h.sub d)
/-- `RiscVFMul`, `RiscVDMul` (riscv_f:170-173, riscv_d:73-76). -/
def fmul (h : Host f) (d : Dir) := binary (f := f) (h.fma.mul d)
/-- `RiscVFDiv`, `RiscVDDiv` (riscv_f:175-178, riscv_d:78-81). -/
def fdiv (h : Host f) (d : Dir) := binary (f := f) (h.div d)

/-- `a < 0.0`: false for NaNs and both zeros. -/
def negative (a : BitVec f.bits) : Bool := !isNaN a && !isZero a && a.msb

/-- `RiscVFSqrt`, `RiscVDSqrt`: result and whether invalid is raised
(riscv_f_instructions.cc:182-219, riscv_d_instructions.cc:84-122).  The rounding mode
is valid here (area FpState). -/
def fsqrt (h : Host f) (d : Dir) (a : BitVec f.bits) : BitVec f.bits × Bool :=
  if isNaN a || negative a then (canonicalNaN f, !isQNaN a)
  else if isZero a then (a, false)
  else (h.sqrt d a, h.sqrtNv a)

/-- Whether invalid accrues when it is submitted and when the host raises it, both while
the scoped status of `RiscVTernaryFloatNaNBoxOp` is active
(riscv_instruction_helpers.h:671-674): the submission is lost (`FpState.scopedFp`). -/
def inScope (_submitted host : Bool) : Bool := host

/-- The invalid flag of the single precision fused multiply-adds: the test before
the host operation, and the host operation (riscv_f_instructions.cc:277-328). -/
def fMaddNv (h : Host f) (a b c : BitVec f.bits) : Bool := inScope (invalidProduct a b) (h.fmaNv a b c)
def fMsubNv (h : Host f) (a b c : BitVec f.bits) : Bool :=
  inScope (invalidProduct a b) (h.fmaNv a b (neg c))
def fNmaddNv (h : Host f) (a b c : BitVec f.bits) : Bool :=
  inScope (invalidProduct a b) (h.fmaNv (neg a) b (neg c))
def fNmsubNv (h : Host f) (a b c : BitVec f.bits) : Bool :=
  inScope (invalidProduct a b) (h.fmaNv (neg a) b c)

/-- The control flow of the four double precision functions: `fma` is evaluated in
the last case, `mul` when the addend is zero and the product is not
(riscv_d_instructions.cc:176-292). -/
def dNv (a b c : BitVec f.bits) (mul fma : Bool) : Bool :=
  if isNaN a then false
  else if isNaN b then false
  else
    let submitted := invalidProduct a b
    if isNaN c then inScope submitted false
    else if isInf c && !isInf a && !isInf b then inScope submitted false
    else if isZero c then
      if zeroProduct a b then inScope submitted false else inScope submitted mul
    else inScope submitted fma

/-- `RiscVDMadd` (riscv_d_instructions.cc:176-203). -/
def dMaddNv (h : Host f) (a b c : BitVec f.bits) : Bool := dNv a b c (h.mulNv a b) (h.fmaNv a b c)
/-- `RiscVDMsub` (205-232). -/
def dMsubNv (h : Host f) (a b c : BitVec f.bits) : Bool :=
  dNv a b c (h.mulNv a b) (h.fmaNv a b (neg c))
/-- `RiscVDNmadd` (234-261). -/
def dNmaddNv (h : Host f) (a b c : BitVec f.bits) : Bool :=
  dNv a b c (h.mulNv (neg a) b) (h.fmaNv a b c)
/-- `RiscVDNmsub` (263-292). -/
def dNmsubNv (h : Host f) (a b c : BitVec f.bits) : Bool :=
  dNv a b c (h.mulNv (neg a) b) (h.fmaNv a b (neg c))

/-- `RiscVDCvtSd`, `RiscVDCvtDs`: a NaN is replaced before the host converts, so the
host raises nothing for it (riscv_d_instructions.cc:309-332).  `cvt` is the host's
conversion and its invalid flag. -/
def fcvt {g : Fmt} (cvt : BitVec f.bits → BitVec g.bits × Bool) (a : BitVec f.bits) :
    BitVec g.bits × Bool :=
  if isNaN a then (canonicalNaN g, false) else cvt a

/-! ### Vectors

The element operations of the vector arithmetic instructions are the host's,
without replacement of NaNs (riscv_vector_fp_instructions.cc:38-325). -/

/-- `Vfadd` (38-62). -/
def vfadd (h : Host f) (d : Dir) (vs2 vs1 : BitVec f.bits) : BitVec f.bits := h.add d vs2 vs1
/-- `Vfsub` (65-89). -/
def vfsub (h : Host f) (d : Dir) (vs2 vs1 : BitVec f.bits) : BitVec f.bits := h.sub d vs2 vs1
/-- `Vfrsub` (92-116). -/
def vfrsub (h : Host f) (d : Dir) (vs2 vs1 : BitVec f.bits) : BitVec f.bits := h.sub d vs1 vs2
/-- `Vfmul` (221-245). -/
def vfmul (h : Host f) (d : Dir) (vs2 vs1 : BitVec f.bits) : BitVec f.bits := h.fma.mul d vs2 vs1
/-- `Vfdiv` (248-272). -/
def vfdiv (h : Host f) (d : Dir) (vs2 vs1 : BitVec f.bits) : BitVec f.bits := h.div d vs2 vs1
/-- `Vfrdiv` (275-299). -/
def vfrdiv (h : Host f) (d : Dir) (vs2 vs1 : BitVec f.bits) : BitVec f.bits := h.div d vs1 vs2

/-- `SqrtHelper` of `Vfsqrtv`: result and whether invalid is raised
(riscv_vector_fp_unary_instructions.cc:680-694). -/
def vfsqrt (h : Host f) (d : Dir) (vs2 : BitVec f.bits) : BitVec f.bits × Bool :=
  if isNaN vs2 || negative vs2 then (canonicalNaN f, true)
  else if isZero vs2 then (vs2, false)
  else (h.sqrt d vs2, h.sqrtNv vs2)

end Verif.FpArith
