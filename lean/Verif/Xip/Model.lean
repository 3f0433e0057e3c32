import Verif.Csr.Model
/-
Model of `RiscVMIp`, `RiscVSIp`, `RiscVMIe` and `RiscVSIe`
(riscv/riscv_xip_xie.h, riscv/riscv_xip_xie.cc).

The `CheckForInterrupt` call made by `Set` (riscv_xip_xie.cc:32-34, 68-70) is modelled in
`Verif.Hart`; here only the register contents are.
-/
namespace Verif.Xip
open Verif.Csr (Op)

/-- `RiscVMIp` (riscv_xip_xie.h:45-103): the stored value and the external line `ext_seip_`
(non-zero exactly when the line is high). -/
structure MIp where
  stored : BitVec 64
  ext : Bool
deriving DecidableEq, Repr

/-- Masks (riscv_xip_xie.h:49-50). -/
def mipReadMask : BitVec 64 := 0b101110111011
def mipWriteMask : BitVec 64 := 0b001100111011

namespace MIp

/-- `ext_seip_`: `(value != 0) << 9` (riscv_xip_xie.h:69). -/
def extBits (m : MIp) : BitVec 64 := if m.ext then 0x200 else 0

/-- `GetUint64` (riscv_xip_xie.cc:41-43). -/
def get (m : MIp) : BitVec 64 := m.stored ||| m.extBits

/-- `Set(uint64_t)` (riscv_xip_xie.cc:30-35), register contents. -/
def set (m : MIp) (v : BitVec 64) : MIp := { m with stored := v }

/-- `AsUint64`, `AsUint32` (riscv_csr.h:443-448 with the overridden getters). -/
def as64 (m : MIp) : BitVec 64 := m.get &&& mipReadMask
def as32 (m : MIp) : BitVec 32 := (m.get &&& mipReadMask).setWidth 32

/-- `Write(uint64_t)` (riscv_csr.h:454-457). -/
def write64 (m : MIp) (v : BitVec 64) : MIp :=
  m.set ((v &&& mipWriteMask) ||| (m.get &&& ~~~mipWriteMask))

/-- `Write(uint32_t)` (riscv_csr.h:450-453); `GetUint32` truncates (riscv_xip_xie.cc:39). -/
def write32 (m : MIp) (v : BitVec 32) : MIp :=
  m.set ((v.setWidth 64 &&& mipWriteMask) |||
    ((m.get.setWidth 32).setWidth 64 &&& ~~~mipWriteMask))

/-- CSR operations (riscv_csr.h:450-463). -/
def csrOp (m : MIp) : Op → MIp
  | .write32 v => m.write32 v
  | .write64 v => m.write64 v
  | .setBits32 v => m.write32 (m.get.setWidth 32 ||| v)
  | .setBits64 v => m.write64 (m.get ||| v)
  | .clearBits32 v => m.write32 (m.get.setWidth 32 &&& ~~~v)
  | .clearBits64 v => m.write64 (m.get &&& ~~~v)

/-- `SetterHelper<Shift, 1>` (riscv_xip_xie.h:95-101): used by `set_meip` (11), `set_seip` (9),
`set_ueip` (8), `set_mtip` (7), `set_stip` (5), `set_utip` (4), `set_msip` (3), `set_ssip` (1) and
`set_usip` (0). -/
def setBit (m : MIp) (shift : Nat) (v : BitVec 64) : MIp :=
  m.set ((m.get &&& ~~~((1 : BitVec 64) <<< shift)) ||| ((v &&& 1) <<< shift))

/-- `set_ext_seip` (riscv_xip_xie.h:69). -/
def setExtSeip (m : MIp) (v : BitVec 64) : MIp := { m with ext := v ≠ 0 }

/-- `seip()` (riscv_xip_xie.h:65). -/
def seip (m : MIp) : Bool := m.get.getLsbD 9 || m.ext

end MIp

/-- Everything that changes mip. -/
inductive MipEvent where
  | csr (op : Op)
  | setBit (shift : Nat) (v : BitVec 64)
  | ext (v : BitVec 64)

/-- One event. -/
def mipStep (m : MIp) : MipEvent → MIp
  | .csr op => m.csrOp op
  | .setBit s v => m.setBit s v
  | .ext v => m.setExtSeip v

/-- A history. -/
def mipRun (m : MIp) (es : List MipEvent) : MIp := es.foldl mipStep m

/-! ### sip -/

/-- `RiscVSIp::kReadMask`, `kWriteMask` (riscv_xip_xie.h:111-112). -/
def sipReadMask : BitVec 64 := 0b101110111011
def sipWriteMask : BitVec 64 := 0b001100110011

/-- `RiscVSIp::GetUint64` (riscv_xip_xie.cc:73-75); `mideleg` is the raw mideleg value. -/
def sipGet (mideleg : BitVec 64) (m : MIp) : BitVec 64 := m.get &&& (mideleg ||| sipReadMask)

/-- `RiscVSIp::Set(uint64_t)` (riscv_xip_xie.cc:52-55). -/
def sipSet (mideleg : BitVec 64) (m : MIp) (v : BitVec 64) : MIp :=
  let wmask := sipWriteMask ||| mideleg
  m.set ((m.get &&& wmask) ||| (v &&& wmask))

/-- `Write(uint64_t)`, inherited (riscv_csr.h:454-457). -/
def sipWrite (mideleg : BitVec 64) (m : MIp) (v : BitVec 64) : MIp :=
  sipSet mideleg m ((v &&& sipWriteMask) ||| (sipGet mideleg m &&& ~~~sipWriteMask))

/-! ### mie and sie -/

/-- `RiscVMIe::kReadMask/kWriteMask` and `RiscVSIe`'s (riscv_xip_xie.h:172-173, 228-229). -/
def mieMask : BitVec 64 := 0b101110111011

/-- `RiscVMIe`: `Write(uint64_t)` (riscv_csr.h:454-457), register contents. -/
def mieWrite (mie v : BitVec 64) : BitVec 64 := (v &&& mieMask) ||| (mie &&& ~~~mieMask)

/-- CSR operations on mie (riscv_csr.h:450-463). -/
def mieOp (mie : BitVec 64) : Op → BitVec 64
  | .write32 v => (v.setWidth 64 &&& mieMask) ||| ((mie.setWidth 32).setWidth 64 &&& ~~~mieMask)
  | .write64 v => mieWrite mie v
  | .setBits32 v => ((mie.setWidth 32 ||| v).setWidth 64 &&& mieMask) |||
      ((mie.setWidth 32).setWidth 64 &&& ~~~mieMask)
  | .setBits64 v => mieWrite mie (mie ||| v)
  | .clearBits32 v => ((mie.setWidth 32 &&& ~~~v).setWidth 64 &&& mieMask) |||
      ((mie.setWidth 32).setWidth 64 &&& ~~~mieMask)
  | .clearBits64 v => mieWrite mie (mie &&& ~~~v)

/-- `RiscVSIe::GetUint64` (riscv_xip_xie.cc:93-95). -/
def sieGet (mideleg mie : BitVec 64) : BitVec 64 := mie &&& (mideleg ||| mieMask)

/-- `RiscVSIe::Set(uint64_t)` (riscv_xip_xie.cc:86-89). -/
def sieSet (mideleg mie v : BitVec 64) : BitVec 64 :=
  let wmask := mieMask ||| mideleg
  (mie &&& wmask) ||| (v &&& wmask)

/-- `Write(uint64_t)` on sie (riscv_csr.h:454-457). -/
def sieWrite (mideleg mie v : BitVec 64) : BitVec 64 :=
  sieSet mideleg mie ((v &&& mieMask) ||| (sieGet mideleg mie &&& ~~~mieMask))

end Verif.Xip
