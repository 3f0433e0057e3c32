import Verif.Fp.Fmt
import Verif.FpHost.Spec

/-!
# Fused multiply-add

The host's `fma` and `*` are parameters; `Props.lean` assumes them correct
according to IEEE 754.  Numbers are bit patterns.  The direction `d` is the one
the host is set to while the function runs (`ScopedFPStatus`,
riscv_instruction_helpers.h:672; see the area FpHost).
-/

namespace Verif.FpFma

open Verif.Fp Verif.FpHost.Spec

/-- The host's arithmetic in a format, for each rounding direction. -/
structure Host (f : Fmt) where
  fma : Dir → BitVec f.bits → BitVec f.bits → BitVec f.bits → BitVec f.bits
  mul : Dir → BitVec f.bits → BitVec f.bits → BitVec f.bits

variable {f : Fmt}

/-- `-x`: the host flips the sign bit. -/
def neg (u : BitVec f.bits) : BitVec f.bits := u ^^^ BitVec.ofNat f.bits (2 ^ (f.e + f.s))

/-- `CanonicalizeNaN` (riscv_d_instructions.cc:53-58, riscv_f_instructions.cc:131-136). -/
def canonicalize (u : BitVec f.bits) : BitVec f.bits := if isNaN u then canonicalNaN f else u

/-- `x >> (kBitSize - 1)` of the bits of a number. -/
def top (u : BitVec f.bits) : BitVec f.bits := u >>> (f.bits - 1)

/-- `0.0`. -/
def zero (f : Fmt) : BitVec f.bits := 0#f.bits

/-- The test that submits kInvalidOp to the flag destination, the same in all
eight functions (riscv_d_instructions.cc:182-186, riscv_f_instructions.cc:282-286). -/
def invalidProduct (a b : BitVec f.bits) : Bool := (isInf a && isZero b) || (isInf b && isZero a)

/-- `(a == 0.0 && !isinf(b)) || (b == 0.0 && !isinf(a))` -/
def zeroProduct (a b : BitVec f.bits) : Bool := (isZero a && !isInf b) || (isZero b && !isInf a)

/-! ## Single precision -/

/-- The lambda of `RiscVFMadd` (riscv_f_instructions.cc:277-289). -/
def fMadd (h : Host f) (d : Dir) (a b c : BitVec f.bits) : BitVec f.bits :=
  canonicalize (h.fma d a b c)

/-- The lambda of `RiscVFMsub` (riscv_f_instructions.cc:291-302). -/
def fMsub (h : Host f) (d : Dir) (a b c : BitVec f.bits) : BitVec f.bits :=
  canonicalize (h.fma d a b (neg c))

/-- The lambda of `RiscVFNmadd` (riscv_f_instructions.cc:304-315). -/
def fNmadd (h : Host f) (d : Dir) (a b c : BitVec f.bits) : BitVec f.bits :=
  canonicalize (h.fma d (neg a) b (neg c))

/-- The lambda of `RiscVFNmsub` (riscv_f_instructions.cc:317-328). -/
def fNmsub (h : Host f) (d : Dir) (a b c : BitVec f.bits) : BitVec f.bits :=
  canonicalize (h.fma d (neg a) b c)

/-! ## Double precision -/

/-- The lambda of `RiscVDMadd` (riscv_d_instructions.cc:176-203). -/
def dMadd (h : Host f) (d : Dir) (a b c : BitVec f.bits) : BitVec f.bits :=
  if isNaN a then canonicalize a
  else if isNaN b then canonicalize b
  else if isNaN c then canonicalize c
  else if isInf c && !isInf a && !isInf b then c
  else if isZero c then
    if zeroProduct a b then
      if top (a ^^^ b) ≠ top c then zero f else c
    else canonicalize (h.mul d a b)
  else canonicalize (h.fma d a b c)

/-- The lambda of `RiscVDMsub` (riscv_d_instructions.cc:205-232).  The minus sign
before the bits of `c` negates them as an unsigned number. -/
def dMsub (h : Host f) (d : Dir) (a b c : BitVec f.bits) : BitVec f.bits :=
  if isNaN a then canonicalize a
  else if isNaN b then canonicalize b
  else if isNaN c then canonicalize c
  else if isInf c && !isInf a && !isInf b then neg c
  else if isZero c then
    if zeroProduct a b then
      if top (a ^^^ b) = top (-c) then zero f else neg c
    else canonicalize (h.mul d a b)
  else canonicalize (h.fma d a b (neg c))

/-- The lambda of `RiscVDNmadd` (riscv_d_instructions.cc:234-261). -/
def dNmadd (h : Host f) (d : Dir) (a b c : BitVec f.bits) : BitVec f.bits :=
  if isNaN a then canonicalize a
  else if isNaN b then canonicalize b
  else if isNaN c then canonicalize c
  else if isInf c && !isInf a && !isInf b then neg c
  else if isZero c then
    if zeroProduct a b then
      if top (a ^^^ b) ≠ top c then zero f else neg c
    else canonicalize (h.mul d (neg a) b)
  else canonicalize (neg (h.fma d a b c))

/-- The lambda of `RiscVDNmsub` (riscv_d_instructions.cc:263-292). -/
def dNmsub (h : Host f) (d : Dir) (a b c : BitVec f.bits) : BitVec f.bits :=
  if isNaN a then canonicalize a
  else if isNaN b then canonicalize b
  else if isNaN c then canonicalize c
  else if isInf c && !isInf a && !isInf b then c
  else if isZero c then
    if zeroProduct a b then
      if top (a ^^^ b) ≠ top (-c) then zero f else c
    else canonicalize (h.mul d (neg a) b)
  else canonicalize (neg (h.fma d a b (neg c)))

/-- Does the lambda evaluate a host operation on `a`, `b` and `c`, so that the
host raises its flags for them?  (The double precision functions return before
that when an operand is a NaN.) -/
def dHostRuns (a b c : BitVec f.bits) : Bool := !(isNaN a || isNaN b || isNaN c)

/-! ## Vectors

The lambdas of the vector instructions (riscv_vector_fp_instructions.cc:328-557),
on `vs2`, `vs1` and `vd`. -/

/-- `Vfmadd` (328-354). -/
def vfmadd (h : Host f) (d : Dir) (vs2 vs1 vd : BitVec f.bits) : BitVec f.bits := h.fma d vs1 vd vs2
/-- `Vfnmadd` (357-383). -/
def vfnmadd (h : Host f) (d : Dir) (vs2 vs1 vd : BitVec f.bits) : BitVec f.bits :=
  h.fma d (neg vs1) vd (neg vs2)
/-- `Vfmsub` (386-412). -/
def vfmsub (h : Host f) (d : Dir) (vs2 vs1 vd : BitVec f.bits) : BitVec f.bits :=
  h.fma d vs1 vd (neg vs2)
/-- `Vfnmsub` (415-441). -/
def vfnmsub (h : Host f) (d : Dir) (vs2 vs1 vd : BitVec f.bits) : BitVec f.bits :=
  h.fma d (neg vs1) vd vs2
/-- `Vfmacc` (444-470). -/
def vfmacc (h : Host f) (d : Dir) (vs2 vs1 vd : BitVec f.bits) : BitVec f.bits := h.fma d vs1 vs2 vd
/-- `Vfnmacc` (473-499). -/
def vfnmacc (h : Host f) (d : Dir) (vs2 vs1 vd : BitVec f.bits) : BitVec f.bits :=
  h.fma d (neg vs1) vs2 (neg vd)
/-- `Vfmsac` (502-528). -/
def vfmsac (h : Host f) (d : Dir) (vs2 vs1 vd : BitVec f.bits) : BitVec f.bits :=
  h.fma d vs1 vs2 (neg vd)
/-- `Vfnmsac` (531-557). -/
def vfnmsac (h : Host f) (d : Dir) (vs2 vs1 vd : BitVec f.bits) : BitVec f.bits :=
  h.fma d (neg vs1) vs2 vd

end Verif.FpFma
