import Verif.FpArith.Model

/-!
# Widening vector floating-point instructions

The element operations of riscv_vector_fp_instructions.cc with single precision
operands and a double precision result.  `w` is the host's conversion from `float` to
`double`; the rounding direction is that of the scoped status (area FpHost).
-/

namespace Verif.VecWiden

open Verif.Fp Verif.FpHost.Spec Verif.FpFma

abbrev F32 := BitVec single.bits
abbrev F64 := BitVec double.bits

variable (h : FpArith.Host double) (w : F32 → F64) (d : Dir)

/-- `Vfwadd` (118-142). -/
def vfwadd (vs2 vs1 : F32) : F64 := h.add d (w vs2) (w vs1)
/-- `Vfwsub` (145-169). -/
def vfwsub (vs2 vs1 : F32) : F64 := h.sub d (w vs2) (w vs1)
/-- `Vfwaddw` (172-195). -/
def vfwaddw (vs2 : F64) (vs1 : F32) : F64 := h.add d vs2 (w vs1)
/-- `Vfwsubw` (198-221). -/
def vfwsubw (vs2 : F64) (vs1 : F32) : F64 := h.sub d vs2 (w vs1)
/-- `Vfwmul` (302-325). -/
def vfwmul (vs2 vs1 : F32) : F64 := h.fma.mul d (w vs2) (w vs1)
/-- `Vfwmacc` (560-584): product, then sum. -/
def vfwmacc (vs2 vs1 : F32) (vd : F64) : F64 := h.add d (h.fma.mul d (w vs1) (w vs2)) vd
/-- `Vfwnmacc` (587-611). -/
def vfwnmacc (vs2 vs1 : F32) (vd : F64) : F64 := h.sub d (neg (h.fma.mul d (w vs1) (w vs2))) vd
/-- `Vfwmsac` (614-638). -/
def vfwmsac (vs2 vs1 : F32) (vd : F64) : F64 := h.sub d (h.fma.mul d (w vs1) (w vs2)) vd
/-- `Vfwnmsac` (641-665). -/
def vfwnmsac (vs2 vs1 : F32) (vd : F64) : F64 := h.add d (neg (h.fma.mul d (w vs1) (w vs2))) vd

end Verif.VecWiden
