import Verif.Hart.Model

/-!
# Instruction fetch

`RiscVGenericDecoder` (riscv_generic_decoder.h), which all decoders use, behind the
decode cache of the top level (riscv_top.cc:257, 331, 433), and what changes the
bytes of instructions: stores of the program and of a debugger (riscv_top.cc:660-677),
which do not touch the cache, and the breakpoint interface
(riscv_action_point_memory_interface.cc:43-94), which invalidates one address.

The cache is `generic::DecodeCache` of mpact-sim: an instruction found under an
address stays there until the address is invalidated or another one evicts it.
Which address evicts which is left open: `evict` is an event of its own.
-/

namespace Verif.Fetch

abbrev Addr := BitVec 64
abbrev Memory := Addr → BitVec 8

/-- The four bytes `memory_->Load(address, inst_db_, ..)` yields (riscv_generic_decoder.h:73-74). -/
def loadWord (m : Memory) (a : Addr) : BitVec 32 := m (a + 3) ++ m (a + 2) ++ m (a + 1) ++ m a

/-- What an instruction object does: raise an exception with the epc of its semantic
function, or what the word parsed from memory says. -/
inductive Fetched where
  | misaligned (epc : Addr)
  | fault
  | word (w : BitVec 32)
  deriving DecidableEq

structure St where
  mem : Memory
  /-- `max_physical_address` -/
  limit : Addr
  /-- bit C of misa -/
  compressed : Bool
  cache : Addr → Option Fetched

/-- `DecodeInstruction` with `CheckAddress` (riscv_generic_decoder.h:63-143). -/
def decode (s : St) (a : Addr) : Fetched :=
  if a &&& 1#64 ≠ 0#64 then .misaligned (a ^^^ 1#64)
  else if s.compressed = false ∧ a &&& 3#64 ≠ 0#64 then .misaligned (a &&& ~~~3#64)
  else if s.limit < a then .fault
  else .word (loadWord s.mem a)

/-- `GetDecodedInstruction`. -/
def get (s : St) (a : Addr) : Fetched :=
  match s.cache a with
  | some f => f
  | none => decode s a

def update {α : Type} (f : Addr → α) (a : Addr) (v : α) : Addr → α := fun b => if b = a then v else f b

/-- A store of bytes. -/
def write (m : Memory) (a : Addr) (bs : List (BitVec 8)) : Memory :=
  fun x => bs.getD (x - a).toNat (m x)

inductive Event where
  /-- the instruction at an address is looked up -/
  | fetch (a : Addr)
  /-- a store, by an instruction, a device or a debugger -/
  | store (a : Addr) (bs : List (BitVec 8))
  /-- a breakpoint set, cleared or stepped over -/
  | patch (a : Addr) (bs : List (BitVec 8))
  /-- `FenceI` (riscv_state.cc:581-583) -/
  | fenceI
  | evict (a : Addr)
  /-- `set_max_physical_address` (riscv_state.cc:515-530, after the capping) -/
  | setLimit (l : Addr)

def step (s : St) : Event → St
  | .fetch a => { s with cache := update s.cache a (some (get s a)) }
  | .store a bs => { s with mem := write s.mem a bs }
  | .patch a bs => { s with mem := write s.mem a bs, cache := update s.cache a none }
  | .fenceI => s
  | .evict a => { s with cache := update s.cache a none }
  | .setLimit l => { s with limit := l }

def run (s : St) (es : List Event) : St := es.foldl step s

/-- The semantic functions of the objects `CheckAddress` makes
(riscv_generic_decoder.h:100-104, 117-121, 131-135); `none` for a word. -/
def raise {w : Nat} (h : Hart.Hart w) (a : Addr) (handled : Bool) : Fetched → Option (Hart.Hart w)
  | .misaligned epc => some (h.trap false a 0 epc handled)
  | .fault => some (h.trap false a 1 a handled)
  | .word _ => none

end Verif.Fetch
