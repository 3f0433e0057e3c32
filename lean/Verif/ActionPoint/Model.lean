import Verif.Core.Model
/-
Instruction memory patching for breakpoints and action points
(riscv/riscv_action_point_memory_interface.{h,cc}).

Memory is the flat byte memory of `Core.Model`; the decode-cache invalidation callback is a log of the
addresses it was called with.
-/
namespace Verif.ActionPoint
open Verif.Core

/-- `InstructionInfo` (riscv_action_point_memory_interface.h:62-65). -/
structure Info where
  size : Nat
  word : Nat
deriving DecidableEq

/-- The object's state together with the memory it patches (h:70-80). `map` is `instruction_map_`,
`log` the calls made to `invalidate_fcn_`. -/
structure State where
  mem : Memory
  map : BitVec 64 → Option Info
  log : List (BitVec 64)

/-- A freshly constructed object (cc:25-32). -/
def init (m : Memory) : State := { mem := m, map := fun _ => none, log := [] }

inductive Status where
  | ok
  | notFound
  | invalidArgument
deriving DecidableEq

/-- `kEBreak16` (h:43): the binary literal `100'1'00000'00000'10`. -/
def eBreak16 : Nat := 0b1001000000000010
/-- `kEBreak32` (h:42): the binary literal `000000000001'00000'000'00000'1110011`. -/
def eBreak32 : Nat := 0b00000000000100000000000001110011

/-- `GetInstructionSize` (cc:95-100). -/
def instructionSize (word : Nat) : Nat :=
  if word % 4 ≠ 3 then 2 else if word % 32 ≠ 31 then 4 else 0

def setMap (m : BitVec 64 → Option Info) (a : BitVec 64) (i : Info) : BitVec 64 → Option Info :=
  fun b => if b = a then some i else m b

/-- The stores at the end of `WriteBreakpointInstruction` (cc:82-92), given the map entry. -/
def patch (s : State) (a : BitVec 64) (i : Info) : State :=
  { s with
    mem := if i.size = 2 then writeLE s.mem a 2 eBreak16
           else if i.size = 4 then writeLE s.mem a 4 eBreak32 else s.mem
    log := s.log ++ [a] }

/-- `WriteBreakpointInstruction` (cc:63-93). -/
def setBreakpoint (s : State) (a : BitVec 64) : State × Status :=
  match s.map a with
  | some i => (patch s a i, .ok)
  | none =>
    let word := readLE s.mem a 4
    let size := instructionSize word
    if size = 0 then (s, .invalidArgument)
    else
      let i : Info := ⟨size, if size = 2 then word % 65536 else word⟩
      (patch { s with map := setMap s.map a i } a i, .ok)

/-- `WriteOriginalInstruction` (cc:43-61). -/
def restore (s : State) (a : BitVec 64) : State × Status :=
  match s.map a with
  | none => (s, .notFound)
  | some i =>
    ({ s with
       mem := if i.size = 2 then writeLE s.mem a 2 (i.word % 65536)
              else if i.size = 4 then writeLE s.mem a 4 i.word else s.mem
       log := s.log ++ [a] }, .ok)

/-- What happens to the object and its memory: the two calls, and byte stores made by the simulated
program or the debugger, which go to the same memory without passing through this object. -/
inductive Op where
  | set (a : BitVec 64)
  | clear (a : BitVec 64)
  | store (b : BitVec 64) (v : BitVec 8)

def step (s : State) : Op → State × Status
  | .set a => setBreakpoint s a
  | .clear a => restore s a
  | .store b v => ({ s with mem := setByte s.mem b v }, .ok)

/-- A sequence of them. -/
def run (s : State) (ops : List Op) : State := ops.foldl (fun s op => (step s op).1) s

end Verif.ActionPoint
