import Verif.Csr.Model
/-
Model of `RiscVMStatus`, `RiscVSStatus` and `RiscVUStatus`
(riscv/riscv_xstatus.h, riscv/riscv_xstatus.cc).

Simplification: `RiscVMStatus::Set(uint64_t)` also calls `CheckForInterrupt`
(riscv_xstatus.cc:107-113); that call only reads mstatus and is modelled in
`Verif.Interrupt`, not here.
-/
namespace Verif.XStatus
open Verif.Csr (Op)

/-- `RiscVMStatus::kReadMask` (riscv_xstatus.h:37). -/
def mReadMask : BitVec 64 := 0x8000000f007ff9bb
/-- `RiscVMStatus::kWriteMask` (riscv_xstatus.h:38). -/
def mWriteMask : BitVec 64 := 0x007ff9bb
/-- `RiscVSStatus::kReadMask` (riscv_xstatus.h:146). -/
def sReadMask : BitVec 64 := 0x80000003000de133
/-- `RiscVSStatus::kWriteMask` (riscv_xstatus.h:147). -/
def sWriteMask : BitVec 64 := 0x000de133
/-- `RiscVUStatus::kWriteMask` (riscv_xstatus.h:209). -/
def uWriteMask : BitVec 64 := 0x11

/-- `StretchMStatus32` (riscv_xstatus.cc:31-35). -/
def stretch (v : BitVec 32) : BitVec 64 :=
  ((v.setWidth 64 &&& 0xc0000000) <<< 32) ||| (v.setWidth 64 &&& 0x03ffffff)

/-- `CompressMStatus64` (riscv_xstatus.cc:37-40). -/
def compress (v : BitVec 64) : BitVec 32 :=
  (((v >>> 32) &&& 0xc0000000) ||| (v &&& 0x3fffffff)).setWidth 32

/-- `set_mask_from_32_` (riscv_xstatus.cc:60). -/
def setMaskFrom32 : BitVec 64 := 0xfffffff0ffffffff

/-- State of a `RiscVMStatus` object: the stored value, the update buffer, and whether misa
reports supervisor mode. `HasUserMode` is the constant true (riscv_misa.cc:78). -/
structure MStatus where
  value : BitVec 64
  buffer : BitVec 64
  bufferMask : BitVec 64
  hasS : Bool
deriving DecidableEq, Repr

namespace MStatus

/-- `RiscVMStatus::RiscVMStatus` (riscv_xstatus.cc:53-75) as called by `CreateCsrs`
(riscv_state.cc:224-226) with `kMstatusInitialValue` = 0xa_0000_2000
(riscv_state.cc, `CsrInfo<uint64_t>`): the `xlen_val` or-ed in is `0b10` masked by `0b0011`
if supervisor mode is present and by `0b1100` since user mode is, hence zero. -/
def init (hasS : Bool) : MStatus :=
  let xlen : BitVec 64 := (if hasS then 0b10 &&& 0b0011 else 0b10) &&& 0b1100
  { value := 0xa00002000 ||| (xlen <<< 32), buffer := 0, bufferMask := 0, hasS := hasS }

/-- `read_mask_32_` / `write_mask_32_` (riscv_xstatus.cc:73-74). -/
def readMask32 : BitVec 32 := compress mReadMask
def writeMask32 : BitVec 32 := compress mWriteMask

/-- `Set(uint64_t)` (riscv_xstatus.cc:107-113), stored value only. -/
def set64 (s : MStatus) (v : BitVec 64) : MStatus := { s with value := v }

/-- `GetUint32` (riscv_xstatus.cc:95-98). -/
def get32 (s : MStatus) : BitVec 32 := compress s.value

/-- `AsUint32` (riscv_xstatus.cc:78-81). -/
def as32 (s : MStatus) : BitVec 32 := s.get32 &&& readMask32

/-- `AsUint64`, inherited (riscv_csr.h:446-448). -/
def as64 (s : MStatus) : BitVec 64 := s.value &&& mReadMask

/-- `Set(uint32_t)` (riscv_xstatus.cc:100-105). -/
def set32 (s : MStatus) (v : BitVec 32) : MStatus :=
  s.set64 ((stretch v &&& setMaskFrom32) ||| (s.value &&& ~~~setMaskFrom32))

/-- `Write(uint32_t)` (riscv_xstatus.cc:83). -/
def write32 (s : MStatus) (v : BitVec 32) : MStatus := s.set32 (v &&& writeMask32)

/-- `SetBits(uint32_t)` (riscv_xstatus.cc:85-88). -/
def setBits32 (s : MStatus) (v : BitVec 32) : MStatus :=
  s.set32 (s.get32 ||| (v &&& writeMask32))

/-- `ClearBits(uint32_t)` (riscv_xstatus.cc:90-93). -/
def clearBits32 (s : MStatus) (v : BitVec 32) : MStatus :=
  s.set32 (s.get32 &&& ~~~(v &&& writeMask32))

/-- `Write(uint64_t)`, inherited (riscv_csr.h:454-457), calling the overridden `Set`. -/
def write64 (s : MStatus) (v : BitVec 64) : MStatus :=
  s.set64 ((v &&& mWriteMask) ||| (s.value &&& ~~~mWriteMask))

/-- `SetBits(uint64_t)`, inherited (riscv_csr.h:460). -/
def setBits64 (s : MStatus) (v : BitVec 64) : MStatus := s.write64 (s.value ||| v)

/-- `ClearBits(uint64_t)`, inherited (riscv_csr.h:463). -/
def clearBits64 (s : MStatus) (v : BitVec 64) : MStatus := s.write64 (s.value &&& ~~~v)

/-- CSR operations arriving through the `RiscVCsrInterface` virtual functions. -/
def csrOp (s : MStatus) : Op → MStatus
  | .write32 v => s.write32 v
  | .write64 v => s.write64 v
  | .setBits32 v => s.setBits32 v
  | .setBits64 v => s.setBits64 v
  | .clearBits32 v => s.clearBits32 v
  | .clearBits64 v => s.clearBits64 v

end MStatus

/-- The fields that have a `set_<field>` function (riscv_xstatus.h:94-109). -/
inductive Field where
  | tsr | tw | tvm | mxr | sum | mprv | xs | fs | mpp | spp | mpie | spie | upie | mie | sie | uie
deriving DecidableEq, Repr

/-- The `Shift` template argument of the field's getter and setter (riscv_xstatus.h:63-109). -/
def Field.shift : Field → Nat
  | .tsr => 22 | .tw => 21 | .tvm => 20 | .mxr => 19 | .sum => 18 | .mprv => 17 | .xs => 15
  | .fs => 13 | .mpp => 11 | .spp => 8 | .mpie => 7 | .spie => 5 | .upie => 4 | .mie => 3
  | .sie => 1 | .uie => 0

/-- The `BitMask` template argument (riscv_xstatus.h:63-109). -/
def Field.mask : Field → BitVec 64
  | .xs | .fs | .mpp => 0b11
  | _ => 0b1

namespace MStatus

/-- `GetterHelper<Shift, BitMask>` (riscv_xstatus.h:122-125). -/
def getter (s : MStatus) (f : Field) : BitVec 64 := (s.value >>> f.shift) &&& f.mask

/-- `sd()` (riscv_xstatus.h:57). -/
def sd (s : MStatus) : Bool := s.value.getLsbD 31 || s.value.getLsbD 63

/-- `SetterHelper<Shift, BitMask>` (riscv_xstatus.h:127-131). -/
def setter (s : MStatus) (f : Field) (v : BitVec 32) : MStatus :=
  { s with
    buffer := (s.buffer &&& ~~~(f.mask <<< f.shift)) ||| ((v.setWidth 64 &&& f.mask) <<< f.shift)
    bufferMask := s.bufferMask ||| (f.mask <<< f.shift) }

/-- `set_<field>`: the setter, except for `set_mpp` (riscv_xstatus.cc:115-121), which ignores
the value 1 (supervisor) when misa has no supervisor mode. The test for the value 0 never
fires because `HasUserMode` is constant true. -/
def setField (s : MStatus) (f : Field) (v : BitVec 32) : MStatus :=
  if f = .mpp ∧ v = 1 ∧ s.hasS = false then s else s.setter f v

/-- `Submit` (riscv_xstatus.h:110-115). `Write(new_value)` can only resolve to the class's own
`Write(uint32_t)`, which hides the inherited 64-bit overload, so the value is truncated. -/
def submit (s : MStatus) : MStatus :=
  let newValue := (s.value &&& ~~~s.bufferMask) ||| s.buffer
  { s.write32 (newValue.setWidth 32) with buffer := 0, bufferMask := 0 }

/-- A batch of `set_<field>` calls followed by `Submit`. -/
def update (s : MStatus) (us : List (Field × BitVec 32)) : MStatus :=
  (us.foldl (fun s u => s.setField u.1 u.2) s).submit

end MStatus

/-! ### sstatus and ustatus: views of mstatus -/

/-- `RiscVSStatus::AsUint64` / `RiscVUStatus::AsUint64` (riscv_xstatus.cc:136, 178). -/
def viewAs64 (m : MStatus) : BitVec 64 := m.as64

/-- `RiscVSStatus::AsUint32` / `RiscVUStatus::AsUint32` (riscv_xstatus.cc:134, 176). -/
def viewAs32 (m : MStatus) : BitVec 32 := compress (viewAs64 m)

/-- `Set(uint64_t)` (riscv_xstatus.cc:144-147, 198-201); `wm` is the view's write mask. -/
def viewSet64 (wm : BitVec 64) (m : MStatus) (v : BitVec 64) : MStatus :=
  m.set64 ((m.value &&& ~~~wm) ||| (v &&& wm))

/-- `Set(uint32_t)` (riscv_xstatus.cc:138-141, 192-195). -/
def viewSet32 (wm : BitVec 64) (m : MStatus) (v : BitVec 32) : MStatus :=
  viewSet64 wm m (stretch v)

/-- 32-bit `Write`/`SetBits`/`ClearBits` of the view, overridden (riscv_xstatus.cc:149-159,
180-190). -/
def viewWrite32 (wm : BitVec 64) (m : MStatus) (v : BitVec 32) : MStatus :=
  viewSet32 wm m (v &&& compress wm)
def viewSetBits32 (wm : BitVec 64) (m : MStatus) (v : BitVec 32) : MStatus :=
  viewSet32 wm m (compress m.value ||| (v &&& compress wm))
def viewClearBits32 (wm : BitVec 64) (m : MStatus) (v : BitVec 32) : MStatus :=
  viewSet32 wm m (compress m.value &&& ~~~(v &&& compress wm))

/-- 64-bit `Write`/`SetBits`/`ClearBits` of the view, inherited (riscv_csr.h:454-463) and calling
the overridden `Set`/`GetUint64` (riscv_xstatus.cc:163, 205). -/
def viewWrite64 (wm : BitVec 64) (m : MStatus) (v : BitVec 64) : MStatus :=
  viewSet64 wm m ((v &&& wm) ||| (m.value &&& ~~~wm))
def viewSetBits64 (wm : BitVec 64) (m : MStatus) (v : BitVec 64) : MStatus :=
  viewWrite64 wm m (m.value ||| v)
def viewClearBits64 (wm : BitVec 64) (m : MStatus) (v : BitVec 64) : MStatus :=
  viewWrite64 wm m (m.value &&& ~~~v)

/-- CSR operations on the view. -/
def viewOp (wm : BitVec 64) (m : MStatus) : Op → MStatus
  | .write32 v => viewWrite32 wm m v
  | .setBits32 v => viewSetBits32 wm m v
  | .clearBits32 v => viewClearBits32 wm m v
  | .write64 v => viewWrite64 wm m v
  | .setBits64 v => viewSetBits64 wm m v
  | .clearBits64 v => viewClearBits64 wm m v

/-- `RiscVSStatus` operations. -/
def sstatusOp : MStatus → Op → MStatus := viewOp sWriteMask

/-- `RiscVUStatus` operations. -/
def ustatusOp : MStatus → Op → MStatus := viewOp uWriteMask

/-- All ways in which simulated software or the simulator itself changes mstatus. -/
inductive Event where
  | csr (op : Op)
  | sstatus (op : Op)
  | ustatus (op : Op)
  | update (us : List (Field × BitVec 32))

/-- One event. -/
def stepE (m : MStatus) : Event → MStatus
  | .csr op => m.csrOp op
  | .sstatus op => sstatusOp m op
  | .ustatus op => ustatusOp m op
  | .update us => m.update us

/-- A history of events. -/
def run (m : MStatus) (es : List Event) : MStatus := es.foldl stepE m

end Verif.XStatus
