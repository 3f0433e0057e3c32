/-
Model of the core-local interrupt controller (riscv/riscv_clint.{h,cc}).
-/
namespace Verif.Clint

/-- Members of `RiscVClint` (riscv_clint.h) and the two interrupt lines it drives: `lineT`/`lineS`
are the values last passed to `mip_interface_->set_mtip/set_msip`. `int` members are `Int`;
`update_counter_` stays between 0 and `period_`, so it cannot overflow. -/
structure Clint where
  msip : BitVec 32 := 0
  mtime : BitVec 64 := 0
  mtimecmp : BitVec 64 := 0
  mtip : Bool := false
  updateCounter : Int := 0
  period : Int
  lineT : Bool := false
  lineS : Bool := false
deriving DecidableEq, Repr

namespace Clint

/-- The test after each change of mtime or mtimecmp (riscv_clint.cc:62-65, 205-208, 214-217):
`int bit = mtime_ >= mtimecmp_; if (bit == mtip_) return; set_mtip(bit); mtip_ = bit;`. -/
def update (c : Clint) : Clint :=
  let bit := decide (c.mtime ≥ c.mtimecmp)
  if bit = c.mtip then c else { c with lineT := bit, mtip := bit }

/-- `RiscVClint::SetValue` (riscv_clint.cc:57-67), called on every change of the bound counter. -/
def setValue (c : Clint) : Clint :=
  let c := { c with updateCounter := c.updateCounter + 1 }
  if c.updateCounter ≥ c.period then
    update { c with updateCounter := 0, mtime := c.mtime + 1 }
  else c

/-- Constructor (riscv_clint.cc:36-46). -/
def init (period : Int) : Clint :=
  let c := setValue { period := period }
  let c := { c with lineT := c.mtip }
  let c := { c with lineS := c.msip.getLsbD 0 }
  update c

/-- `ReadMTimeLow/High`, `Read` (riscv_clint.cc:142-157, 186-192). -/
def read (c : Clint) (offset : BitVec 32) : BitVec 32 :=
  if offset = 0x0000#32 then c.msip
  else if offset = 0x4000#32 then (c.mtimecmp &&& 0xffffffff#64).setWidth 32
  else if offset = 0x4004#32 then (c.mtimecmp >>> 32).setWidth 32
  else if offset = 0xbff8#32 then (c.mtime &&& 0xffffffff#64).setWidth 32
  else if offset = 0xbffc#32 then (c.mtime >>> 32).setWidth 32
  else 0

/-- `WriteMSip` (riscv_clint.cc:195-198). -/
def writeMSip (c : Clint) (v : BitVec 32) : Clint :=
  let m := v &&& 1
  { c with msip := m, lineS := (m &&& 1).getLsbD 0 }

/-- `WriteMTimeCmpLow` (riscv_clint.cc:201-209). -/
def writeMTimeCmpLow (c : Clint) (v : BitVec 32) : Clint :=
  update { c with mtimecmp := (c.mtimecmp &&& 0xffffffff00000000#64) ||| v.setWidth 64 }

/-- `WriteMTimeCmpHigh` (riscv_clint.cc:211-218). -/
def writeMTimeCmpHigh (c : Clint) (v : BitVec 32) : Clint :=
  update { c with mtimecmp := (c.mtimecmp &&& 0xffffffff#64) ||| (v.setWidth 64 <<< 32) }

/-- `WriteMTimeLow` (riscv_clint.cc:221-223). -/
def writeMTimeLow (c : Clint) (v : BitVec 32) : Clint :=
  { c with mtime := (c.mtime &&& 0xffffffff00000000#64) ||| v.setWidth 64 }

/-- `WriteMTimeHigh` (riscv_clint.cc:225-227). -/
def writeMTimeHigh (c : Clint) (v : BitVec 32) : Clint :=
  { c with mtime := (c.mtime &&& 0xffffffff#64) ||| (v.setWidth 64 <<< 32) }

/-- `Write` (riscv_clint.cc:159-181). -/
def write (c : Clint) (offset : BitVec 32) (v : BitVec 32) : Clint :=
  if offset = 0x0000#32 then c.writeMSip v
  else if offset = 0x4000#32 then c.writeMTimeCmpLow v
  else if offset = 0x4004#32 then c.writeMTimeCmpHigh v
  else if offset = 0xbff8#32 then { c.writeMTimeLow v with updateCounter := 0 }
  else if offset = 0xbffc#32 then c.writeMTimeHigh v
  else c

/-- `Reset` (riscv_clint.cc:49-54). -/
def reset (c : Clint) : Clint := ((c.writeMTimeLow 0).writeMTimeHigh 0).writeMSip 0

/-- Access sizes for which `Load`/`Store` do something defined. -/
inductive Size where
  | b1 | b2 | b4 | b8
deriving DecidableEq, Repr

def Size.bits : Size → Nat
  | .b1 => 8 | .b2 => 16 | .b4 => 32 | .b8 => 64

/-- `uint32_t offset = address & 0xffff` (riscv_clint.cc:73, 120). -/
def offsetOf (address : BitVec 64) : BitVec 32 := (address &&& 0xffff).setWidth 32

/-- `Load` (riscv_clint.cc:71-91); the result is the (little-endian) buffer contents as a number. -/
def load (c : Clint) (address : BitVec 64) (s : Size) : BitVec 64 :=
  let offset := offsetOf address
  match s with
  | .b1 => ((c.read offset).setWidth 8).setWidth 64
  | .b2 => ((c.read offset).setWidth 16).setWidth 64
  | .b4 => (c.read offset).setWidth 64
  | .b8 => (c.read (offset + 4)).setWidth 64 <<< 32 ||| (c.read offset).setWidth 64

/-- `Store` (riscv_clint.cc:119-134); `v` is the buffer contents. In the 8-byte case the second
`return` is unreachable. -/
def store (c : Clint) (address : BitVec 64) (s : Size) (v : BitVec 64) : Clint :=
  let offset := offsetOf address
  match s with
  | .b1 => c.write offset ((v.setWidth 8).setWidth 32)
  | .b2 => c.write offset ((v.setWidth 16).setWidth 32)
  | .b4 => c.write offset (v.setWidth 32)
  | .b8 => c.write offset (v.setWidth 32)

/-- External events. -/
inductive Ev where
  | tick
  | store (address : BitVec 64) (s : Size) (v : BitVec 64)
  | reset
deriving DecidableEq, Repr

def step (c : Clint) : Ev → Clint
  | .tick => c.setValue
  | .store a s v => c.store a s v
  | .reset => c.reset

def run (c : Clint) (l : List Ev) : Clint := l.foldl step c

end Clint
end Verif.Clint
