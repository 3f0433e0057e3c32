/-
The vector configuration (riscv/riscv_vector_state.{h,cc}) and the vset{i}vl{i} instructions
(riscv/riscv_vector_memory_instructions.cc:152-207).

C++ `int` values that cannot be negative are natural numbers; the vector register length in bytes is assumed
small enough for `int` arithmetic (below 2^25), a hypothesis of the theorems where it matters.
-/
namespace Verif.VecState

/-- The fields of `RiscVVectorState` (riscv_vector_state.h:176-195).  `lmul8` is LMUL * 8, `sew` is in bytes. -/
structure VState where
  vlenb : Nat
  vtype : BitVec 32
  vl : Nat := 0
  vmax : Nat := 0
  lmul8 : Nat := 8
  sew : Nat := 1
  ta : Bool := false
  ma : Bool := false
  exception : Bool := false
  vstart : Nat := 0
  vxsat : Bool := false
  vxrm : BitVec 2 := 0#2
  deriving DecidableEq, Repr

/-- A new state (riscv_vector_state.h:176-195, riscv_vector_state.cc:153-176).  `vtype_` is not initialised:
its content is a parameter. -/
def VState.init (vlenb : Nat) (garbage : BitVec 32) : VState := { vlenb := vlenb, vtype := garbage }

/-- `lmul8_values`, `sew_values` (riscv_vector_state.cc:181-182). -/
def lmul8Of (n : Nat) : Nat := [8, 16, 32, 64, 0, 1, 2, 4].getD n 0
def sewOf (n : Nat) : Nat := [8, 16, 32, 64, 0, 0, 0, 0].getD n 0

/-- `SetVectorType` (riscv_vector_state.cc:180-203).  `none` is the division by zero of reserved element
widths, undefined behaviour. -/
def setVectorType (s : VState) (vtype : BitVec 32) : Option VState :=
  let lmul8 := lmul8Of (vtype &&& 0b111#32).toNat
  let sew := sewOf ((vtype >>> 3) &&& 0b111#32).toNat >>> 3
  if 8 * sew = 0 then none
  else some { s with
    vtype := vtype
    lmul8 := lmul8
    sew := sew
    ta := ((vtype >>> 6) &&& 1#32) ≠ 0#32
    ma := ((vtype >>> 7) &&& 1#32) ≠ 0#32
    vmax := s.vlenb * lmul8 / (8 * sew) }

/-- `Vsetvl` (riscv_vector_memory_instructions.cc:155-207).  `src0` and `src1` are the xlen-bit operands, read
as `uint32_t`.  The result is the new state and, if rd is not x0, the value written to it. -/
def vsetvl {w : Nat} (s : VState) (rdZero rs1Zero : Bool) (src0 src1 : BitVec w) : Option (VState × Option (BitVec w)) :=
  let vtype := src1.setWidth 32 &&& 0b11111111#32
  let prev := s.vtype
  let oldMax := s.vmax
  match setVectorType s vtype with
  | none => none
  | some s1 =>
    if rs1Zero && rdZero then
      if oldMax ≠ s1.vmax then
        match setVectorType s1 prev with
        | none => none
        | some s2 => some ({ s2 with exception := true }, none)
      else some ({ s1 with vl := s1.vmax }, none)
    else
      let avl := (src0.setWidth 32 : BitVec 32).toNat
      let vl := if !rs1Zero && avl ≤ s1.vmax then avl else s1.vmax
      some ({ s1 with vl := vl }, if rdZero then none else some (BitVec.ofNat w vl))

/-! ### The control registers -/

/-- The writable vector CSRs. -/
inductive VCsr where
  | vxsat | vxrm | vcsr
  deriving DecidableEq, Repr

/-- Which of the two fields a register contains. -/
def VCsr.isRm : VCsr → Bool
  | .vxsat => false
  | .vxrm | .vcsr => true
def VCsr.isSat : VCsr → Bool
  | .vxrm => false
  | .vxsat | .vcsr => true

/-- `AsUint32` of the three (riscv_vector_state.cc:115, 127, 141-145). -/
def readCsr (s : VState) : VCsr → BitVec 32
  | .vxsat => if s.vxsat then 1#32 else 0#32
  | .vxrm => s.vxrm.setWidth 32
  | .vcsr => ((s.vxrm.setWidth 32 &&& 3#32) <<< 1) ||| (if s.vxsat then 1#32 else 0#32)

/-- `Write` of the three (riscv_vector_state.cc:117, 129-131, 147-152, with `set_vxrm`/`set_vxsat`,
riscv_vector_state.h:156-158). -/
def writeCsr (s : VState) (v : BitVec 32) : VCsr → VState
  | .vxsat => { s with vxsat := (v &&& 1#32) ≠ 0#32 }
  | .vxrm => { s with vxrm := ((v &&& 3#32) &&& 3#32).setWidth 2 }
  | .vcsr => { s with vxrm := ((v >>> 1) &&& 3#32).setWidth 2, vxsat := (v &&& 1#32) ≠ 0#32 }

/-- `SetBits` and `ClearBits` are inherited (riscv_csr.h:459-463): `Write(GetUint32() | value)` and
`Write(GetUint32() & ~value)`.  `GetUint32` is inherited as well and returns the base class's own `value_`,
which these CSRs never change from its initial 0. -/
def setBitsCsr (s : VState) (v : BitVec 32) (c : VCsr) : VState := writeCsr s (0#32 ||| v) c
def clearBitsCsr (s : VState) (v : BitVec 32) (c : VCsr) : VState := writeCsr s (0#32 &&& ~~~v) c

/-- A history of CSR writes. -/
def runWrites (s : VState) (ops : List (VCsr × BitVec 32)) : VState := ops.foldl (fun s op => writeCsr s op.2 op.1) s

end Verif.VecState
