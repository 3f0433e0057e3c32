/-
Model of the plain CSR classes of `riscv/riscv_csr.h` and the CSR registry of
`riscv/riscv_csr.cc`.
-/
namespace Verif.Csr

/-- `RiscVSimpleCsr<T>` (riscv_csr.h:378-505); `w` is the width of `T` (32 or 64). The
data-buffer targets and the name/index fields are not part of this structure. -/
structure SimpleCsr (w : Nat) where
  value : BitVec w
  readMask : BitVec w
  writeMask : BitVec w
deriving DecidableEq, Repr

namespace SimpleCsr
variable {w : Nat}

/-- `GetUint32` / `GetUint64`: a C++ integer conversion of `value_` (riscv_csr.h:465-466). -/
def get (c : SimpleCsr w) (n : Nat) : BitVec n := c.value.setWidth n

/-- `AsUint32` / `AsUint64` (riscv_csr.h:443-448): `GetUintN() & read_mask_`, converted to
the accessor type. The `&` is done in the wider of the two types; converting back gives
the same bits as intersecting the converted mask. -/
def as (c : SimpleCsr w) (n : Nat) : BitVec n := c.get n &&& c.readMask.setWidth n

/-- `Set(uint32_t)` / `Set(uint64_t)` (riscv_csr.h:468-469): ignores the write mask. -/
def set (c : SimpleCsr w) {n : Nat} (v : BitVec n) : SimpleCsr w :=
  { c with value := v.setWidth w }

/-- `Write(uint32_t)` / `Write(uint64_t)` (riscv_csr.h:450-457):
`Set((T(value) & write_mask_) | (GetUintN() & ~write_mask_))`. Note that the old value
is read with `GetUintN`, i.e. first truncated to the accessor's `n` bits. -/
def write (c : SimpleCsr w) {n : Nat} (v : BitVec n) : SimpleCsr w :=
  c.set ((v.setWidth w &&& c.writeMask) ||| ((c.get n).setWidth w &&& ~~~c.writeMask))

/-- `SetBits` (riscv_csr.h:459-460): `Write(GetUintN() | value)`. -/
def setBits (c : SimpleCsr w) {n : Nat} (v : BitVec n) : SimpleCsr w :=
  c.write (c.get n ||| v)

/-- `ClearBits` (riscv_csr.h:462-463): `Write(GetUintN() & ~value)`. -/
def clearBits (c : SimpleCsr w) {n : Nat} (v : BitVec n) : SimpleCsr w :=
  c.write (c.get n &&& ~~~v)

/-- `Reset` (riscv_csr.h:492). -/
def reset (c : SimpleCsr w) : SimpleCsr w := c.set (0 : BitVec 64)

end SimpleCsr

/-- One software-visible modification of a CSR through its interface: every operation of
`RiscVCsrInterface` exists in a `uint32_t` and a `uint64_t` overload (riscv_csr.h:314-342). -/
inductive Op where
  | write32 (v : BitVec 32)
  | write64 (v : BitVec 64)
  | setBits32 (v : BitVec 32)
  | setBits64 (v : BitVec 64)
  | clearBits32 (v : BitVec 32)
  | clearBits64 (v : BitVec 64)
deriving DecidableEq, Repr

/-- Width of the accessor used by an operation. -/
def Op.bits : Op → Nat
  | .write32 _ | .setBits32 _ | .clearBits32 _ => 32
  | .write64 _ | .setBits64 _ | .clearBits64 _ => 64

/-- Dispatch of an operation on a simple CSR. -/
def SimpleCsr.step {w : Nat} (c : SimpleCsr w) : Op → SimpleCsr w
  | .write32 v => c.write v
  | .write64 v => c.write v
  | .setBits32 v => c.setBits v
  | .setBits64 v => c.setBits v
  | .clearBits32 v => c.clearBits v
  | .clearBits64 v => c.clearBits v

/-- A history of operations. -/
def SimpleCsr.run {w : Nat} (c : SimpleCsr w) (ops : List Op) : SimpleCsr w :=
  ops.foldl SimpleCsr.step c

/-- A data buffer handed to one of the CSR data-buffer destinations: its size in bytes
and its first eight bytes as a little-endian number (`db->Get<uintN_t>(0)`). -/
structure Db where
  size : Nat
  bits : BitVec 64

/-- Which of the three data-buffer destinations of a CSR is used. -/
inductive DbKind where
  | write | setBits | clearBits

/-- The operation a destination performs, for each of the two supported sizes. -/
def DbKind.op32 : DbKind → BitVec 32 → Op
  | .write => .write32 | .setBits => .setBits32 | .clearBits => .clearBits32
def DbKind.op64 : DbKind → BitVec 64 → Op
  | .write => .write64 | .setBits => .setBits64 | .clearBits => .clearBits64

/-- `RiscVCsrWriteDb/SetBitsDb/ClearBitsDb::SetDataBuffer` (riscv_csr.cc:31-68): only
buffers of 4 or 8 bytes have an effect, other sizes log an error. -/
def SimpleCsr.setDataBuffer {w : Nat} (c : SimpleCsr w) (kind : DbKind) (db : Db) : SimpleCsr w :=
  if db.size = 4 then c.step (kind.op32 (db.bits.setWidth 32))
  else if db.size = 8 then c.step (kind.op64 db.bits)
  else c

/-- `RiscVShadowCsr<T>` (riscv_csr.h:510-593), over a primary `RiscVSimpleCsr` of the
same width (the only combination created in `riscv_state.cc`). -/
structure ShadowCsr (w : Nat) where
  csr : SimpleCsr w
  readMask : BitVec w
  writeMask : BitVec w

namespace ShadowCsr
variable {w : Nat}

/-- `AsUint32/AsUint64` (riscv_csr.h:533-538): `T(csr_->AsUintN()) & read_mask_`. -/
def as (s : ShadowCsr w) (n : Nat) : BitVec n :=
  ((s.csr.as n).setWidth w &&& s.readMask).setWidth n

/-- `Write` (riscv_csr.h:540-551): nothing if the mask is zero, otherwise the primary's
`Write` (of the overload of type `T`, as the expression has type `T`). -/
def write (s : ShadowCsr w) {n : Nat} (v : BitVec n) : ShadowCsr w :=
  if s.writeMask ≠ 0 then
    { s with csr := s.csr.write (((s.csr.get n).setWidth w &&& ~~~s.writeMask) |||
                                 (v.setWidth w &&& s.writeMask)) }
  else s

/-- `SetBits` (riscv_csr.h:554-555). -/
def setBits (s : ShadowCsr w) {n : Nat} (v : BitVec n) : ShadowCsr w :=
  s.write (s.csr.get n ||| v)

/-- `ClearBits` (riscv_csr.h:557-558). -/
def clearBits (s : ShadowCsr w) {n : Nat} (v : BitVec n) : ShadowCsr w :=
  s.write (s.csr.get n &&& ~~~v)

/-- Dispatch of one operation. -/
def step (s : ShadowCsr w) : Op → ShadowCsr w
  | .write32 v => s.write v
  | .write64 v => s.write v
  | .setBits32 v => s.setBits v
  | .setBits64 v => s.setBits v
  | .clearBits32 v => s.clearBits v
  | .clearBits64 v => s.clearBits v

/-- A history of operations through the shadow. -/
def run (s : ShadowCsr w) (ops : List Op) : ShadowCsr w := ops.foldl step s

end ShadowCsr
end Verif.Csr
