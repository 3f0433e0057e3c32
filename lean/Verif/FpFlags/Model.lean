import Verif.FpArith.Model
import Verif.FpFlags.Spec

/-!
# Scalar arithmetic with all flags

The functions of the area FpArith together with the five flags the host raises while the scoped status is
active.  What is submitted in the scope is lost (`FpState.scopedFp`) and so is no part of the flags here.
-/

namespace Verif.FpFlags

open Verif.Fp Verif.FpHost.Spec Verif.FpFma Spec

variable {f : Fmt}

/-- The host's arithmetic and the flags it raises (NV DZ OF UF NX from bit 4 down). -/
structure Host (f : Fmt) where
  num : FpArith.Host f
  add : Dir → BitVec f.bits → BitVec f.bits → BitVec 5
  sub : Dir → BitVec f.bits → BitVec f.bits → BitVec 5
  mul : Dir → BitVec f.bits → BitVec f.bits → BitVec 5
  div : Dir → BitVec f.bits → BitVec f.bits → BitVec 5
  sqrt : Dir → BitVec f.bits → BitVec 5
  fma : Dir → BitVec f.bits → BitVec f.bits → BitVec f.bits → BitVec 5

/-- The result of `RiscVFAdd`, … `RiscVDDiv` (riscv_f_instructions.cc:160-178,
riscv_d_instructions.cc:63-81). -/
def binary (h : Host f) (o : BinOp) (d : Dir) (a b : BitVec f.bits) : BitVec f.bits :=
  match o with
  | .add => FpArith.fadd h.num d a b
  | .sub => FpArith.fsub h.num d a b
  | .mul => FpArith.fmul h.num d a b
  | .div => FpArith.fdiv h.num d a b

/-- Its flags: those of the one host operation in the scope (riscv_instruction_helpers.h:622-626). -/
def binaryFlags (h : Host f) (o : BinOp) (d : Dir) (a b : BitVec f.bits) : BitVec 5 :=
  match o with
  | .add => h.add d a b
  | .sub => h.sub d a b
  | .mul => h.mul d a b
  | .div => h.div d a b

/-- The flags of `RiscVFSqrt`, `RiscVDSqrt`: invalid is submitted outside of any scope
(riscv_f_instructions.cc:186-199, 213-217; riscv_d_instructions.cc:89-103, 116-120).  The rounding mode
is valid here. -/
def sqrtFlags (h : Host f) (d : Dir) (a : BitVec f.bits) : BitVec 5 :=
  if isNaN a || FpArith.negative a then (if isQNaN a then 0#5 else 16#5)
  else if isZero a then 0#5
  else h.sqrt d a

/-- The result of `RiscVFMadd`, `RiscVFMsub`, `RiscVFNmadd`, `RiscVFNmsub`
(riscv_f_instructions.cc:277-328). -/
def fmaS (h : Host f) (o : FpFma.Spec.Op) (d : Dir) (a b c : BitVec f.bits) : BitVec f.bits :=
  match o with
  | .madd => fMadd h.num.fma d a b c
  | .msub => fMsub h.num.fma d a b c
  | .nmadd => fNmadd h.num.fma d a b c
  | .nmsub => fNmsub h.num.fma d a b c

/-- Their flags. -/
def fmaSFlags (h : Host f) (o : FpFma.Spec.Op) (d : Dir) (a b c : BitVec f.bits) : BitVec 5 :=
  match o with
  | .madd => h.fma d a b c
  | .msub => h.fma d a b (neg c)
  | .nmadd => h.fma d (neg a) b (neg c)
  | .nmsub => h.fma d (neg a) b c

/-- The result of `RiscVDMadd`, `RiscVDMsub`, `RiscVDNmadd`, `RiscVDNmsub`
(riscv_d_instructions.cc:176-292). -/
def fmaD (h : Host f) (o : FpFma.Spec.Op) (d : Dir) (a b c : BitVec f.bits) : BitVec f.bits :=
  match o with
  | .madd => dMadd h.num.fma d a b c
  | .msub => dMsub h.num.fma d a b c
  | .nmadd => dNmadd h.num.fma d a b c
  | .nmsub => dNmsub h.num.fma d a b c

/-- Which host operation of the four functions raises its flags (same lines). -/
def dFlags (a b c : BitVec f.bits) (mul fma : BitVec 5) : BitVec 5 :=
  if isNaN a then 0#5
  else if isNaN b then 0#5
  else if isNaN c then 0#5
  else if isInf c && !isInf a && !isInf b then 0#5
  else if isZero c then if zeroProduct a b then 0#5 else mul
  else fma

/-- Their flags. -/
def fmaDFlags (h : Host f) (o : FpFma.Spec.Op) (d : Dir) (a b c : BitVec f.bits) : BitVec 5 :=
  match o with
  | .madd => dFlags a b c (h.mul d a b) (h.fma d a b c)
  | .msub => dFlags a b c (h.mul d a b) (h.fma d a b (neg c))
  | .nmadd => dFlags a b c (h.mul d (neg a) b) (h.fma d a b c)
  | .nmsub => dFlags a b c (h.mul d (neg a) b) (h.fma d a b (neg c))

end Verif.FpFlags
