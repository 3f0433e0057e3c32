import Verif.Core.Model
/-
Data watchpoints (riscv/riscv_top.cc: SetDataWatchpoint, ClearDataWatchpoint) and the accesses
that meet them.

`util::MemoryWatcher` is mpact-sim's; it is taken to keep, for loads and for stores, a map of
disjoint address ranges: setting refuses a range whose end is below its start and one that
overlaps a range already there, clearing removes the range an address lies in and fails if there
is none, and an access that passes through it calls back if it overlaps a range.
-/
namespace Verif.Watch

/-- `MemoryWatcher::AddressRange`: first and last address. -/
structure Range where
  lo : BitVec 64
  hi : BitVec 64
deriving DecidableEq, Repr

def Range.meets (r s : Range) : Bool := !(r.hi.ult s.lo || s.hi.ult r.lo)

def Range.has (r : Range) (a : BitVec 64) : Bool := !(a.ult r.lo || r.hi.ult a)

/-- `MemoryWatcher::Set{Load,Store}WatchCallback` (mpact-sim). -/
def add (l : List Range) (r : Range) : Option (List Range) :=
  if r.hi.ult r.lo then none
  else if l.any (fun s => r.meets s) then none
  else some (r :: l)

/-- `MemoryWatcher::Clear{Load,Store}WatchCallback` (mpact-sim). -/
def remove (l : List Range) (a : BitVec 64) : Option (List Range) :=
  if l.any (fun r => r.has a) then some (l.eraseP (fun r => r.has a)) else none

/-- `AccessType`. -/
inductive Kind where
  | load | store | loadStore
deriving DecidableEq, Repr

/-- The watcher of the top level (riscv_top.h:211). -/
structure Watcher where
  loads : List Range := []
  stores : List Range := []
deriving DecidableEq, Repr

/-- `SetDataWatchpoint` (riscv_top.cc:757-791): the watcher and whether the call succeeded. -/
def setWatchpoint (w : Watcher) (address length : BitVec 64) (k : Kind) : Watcher × Bool :=
  let r : Range := ⟨address, address + length - 1#64⟩
  let first : Watcher × Bool :=
    if k = .load ∨ k = .loadStore then
      match add w.loads r with
      | some l => ({ w with loads := l }, true)
      | none => (w, false)
    else (w, true)
  if first.2 = false then first
  else if k = .store ∨ k = .loadStore then
    match add first.1.stores r with
    | some l => ({ first.1 with stores := l }, true)
    | none =>
      if k = .loadStore then
        match remove first.1.loads address with
        | some l => ({ first.1 with loads := l }, false)
        | none => (first.1, false)
      else (first.1, false)
  else first

/-- `ClearDataWatchpoint` (riscv_top.cc:793-807). -/
def clearWatchpoint (w : Watcher) (address : BitVec 64) (k : Kind) : Watcher × Bool :=
  let first : Watcher × Bool :=
    if k = .load ∨ k = .loadStore then
      match remove w.loads address with
      | some l => ({ w with loads := l }, true)
      | none => (w, false)
    else (w, true)
  if first.2 = false then first
  else if k = .store ∨ k = .loadStore then
    match remove first.1.stores address with
    | some l => ({ first.1 with stores := l }, true)
    | none => (first.1, false)
  else first

/-- Who makes an access. -/
inductive Source where
  /-- A load or store instruction: `state->memory()`, which `Initialize` made the watcher
  (riscv_top.cc:128-130). -/
  | instruction
  /-- An atomic: `state->atomic_memory()`, made over the memory below (riscv_a_instructions.cc:42,60;
  rv32g_sim.cc:264-286). -/
  | atomic
  /-- `ReadMemory` and `WriteMemory`: `state->memory()` (riscv_top.cc:655, 675). -/
  | debugger
deriving DecidableEq, Repr

/-- Whether an access of `size` bytes calls back, and so requests a halt (riscv_top.cc:763-769,
776-782). -/
def triggers (w : Watcher) (src : Source) (isStore : Bool) (address : BitVec 64) (size : Nat) :
    Bool :=
  match src with
  | .atomic => false
  | _ => (if isStore then w.stores else w.loads).any
           (fun r => r.meets ⟨address, address + BitVec.ofNat 64 size - 1#64⟩)

/-- Calls of the debugger's interface. -/
inductive Op where
  | set (address length : BitVec 64) (k : Kind)
  | clear (address : BitVec 64) (k : Kind)
deriving DecidableEq, Repr

def apply (w : Watcher) : Op → Watcher × Bool
  | .set a n k => setWatchpoint w a n k
  | .clear a k => clearWatchpoint w a k

/-- A history of calls: the watcher afterwards and the results. -/
def applyAll (w : Watcher) : List Op → Watcher × List Bool
  | [] => (w, [])
  | o :: os =>
    let r := apply w o
    let q := applyAll r.1 os
    (q.1, r.2 :: q.2)

end Verif.Watch
