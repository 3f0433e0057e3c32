import Verif.Mem.Model
/-
The debugger's memory access (riscv/riscv_top.cc ReadMemory, WriteMemory).

The memory behind it is the flat byte memory of `Core.Model`: `Load` without instruction fills the data
buffer with the bytes from the address up, `Store` writes them. `DataBufferFactory::Allocate` is taken to
give a buffer of the requested length.
-/
namespace Verif.DebugMem
open Verif.Core

variable {w : Nat}

/-- `RunStatus` of the core. -/
inductive RunStatus where
  | halted | running | singleStep
deriving DecidableEq

inductive Result (α : Type) where
  | ok (v : α)
  | failedPrecondition
  | invalidArgument

def readBytes (m : Memory) (a : BitVec 64) : Nat → List (BitVec 8)
  | 0 => []
  | n + 1 => m a :: readBytes m (a + 1#64) n

def writeBytes (m : Memory) (a : BitVec 64) : List (BitVec 8) → Memory
  | [] => m
  | v :: vs => writeBytes (setByte m a v) (a + 1#64) vs

/-- The clamped length (riscv_top.cc:650-651, 669-670), in 64-bit arithmetic. -/
def clamp (limit address length : BitVec 64) : BitVec 64 :=
  if (limit - address + 1#64).ult length then limit - address + 1#64 else length

/-- `ReadMemory` (riscv_top.cc:642-659): the bytes copied to the front of the caller's buffer; the
returned length is their number. -/
def readMemory (c : Core w) (st : RunStatus) (address length : BitVec 64) :
    Result (List (BitVec 8)) :=
  if st ≠ .halted then .failedPrecondition
  else if c.limit.ult address then .invalidArgument
  else .ok (readBytes c.mem address (clamp c.limit address length).toNat)

/-- `WriteMemory` (riscv_top.cc:661-678) of a caller's buffer holding `length` bytes; the result is the
returned length. -/
def writeMemory (c : Core w) (st : RunStatus) (address : BitVec 64) (buffer : List (BitVec 8)) :
    Core w × Result Nat :=
  if st ≠ .halted then (c, .failedPrecondition)
  else if c.limit.ult address then (c, .invalidArgument)
  else
    let n := (clamp c.limit address (BitVec.ofNat 64 buffer.length)).toNat
    ({ c with mem := writeBytes c.mem address (buffer.take n) }, .ok n)

end Verif.DebugMem
