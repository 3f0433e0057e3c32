import Verif.ActionPoint.Model
import Verif.Fetch.Model
import Verif.Watch.Model
/-
Looking at an instruction from the debugger: `GetInstruction` and `GetDisassembly` (riscv/riscv_top.cc:814-845).

An instruction is represented by the word it was decoded from (`Verif.Fetch`); its text, and addresses at which
the decoder makes an exception instead (C96), are left out. The breakpoints are those of `Verif.ActionPoint`, the
watcher is that of `Verif.Watch`. The breakpoint interface is built over `state_->memory()` after that was made
the watcher (riscv_top.cc:128-130, 179-181), so its loads and stores pass the watcher; the decoder reads the
memory below (rv32g_sim.cc:291-296, rv64g_sim.cc:260, riscv_renode.cc:109, 118).
-/
namespace Verif.Inspect
open Verif.Core (Memory)

/-- Why the core halted, as far as it matters here. -/
inductive Reason where
  | watchpoint
  | other (code : Nat)
deriving DecidableEq, Repr

/-- The top level. `active`: `IsActionPointActive` of mpact-sim. `seen`: `last_watchpoint_address_`. -/
structure Top where
  code : ActionPoint.State
  cache : BitVec 64 → Option (BitVec 32)
  active : BitVec 64 → Bool
  watch : Watch.Watcher
  reason : Reason
  halted : Bool
  seen : BitVec 64

/-- An access through the watcher: the callbacks of watchpoints (riscv_top.cc:763-782), with `RequestHalt`
(riscv_top.cc:848-868). -/
def access (t : Top) (isStore : Bool) (a : BitVec 64) (size : Nat) : Top :=
  if Watch.triggers t.watch .debugger isStore a size then
    { t with reason := .watchpoint, halted := true, seen := a }
  else t

/-- `DecodeCache::Invalidate` (mpact-sim). -/
def invalidate (t : Top) (a : BitVec 64) : Top := { t with cache := Fetch.update t.cache a none }

/-- `WriteOriginalInstruction` (riscv_action_point_memory_interface.cc:43-61). -/
def writeOriginal (t : Top) (a : BitVec 64) : Top :=
  match t.code.map a with
  | none => t
  | some i => invalidate (access { t with code := (ActionPoint.restore t.code a).1 } true a i.size) a

/-- `WriteBreakpointInstruction` (riscv_action_point_memory_interface.cc:63-93). -/
def writeBreakpoint (t : Top) (a : BitVec 64) : Top :=
  let r := ActionPoint.setBreakpoint t.code a
  let t := if (t.code.map a).isNone then access t false a 4 else t
  match r.2, r.1.map a with
  | .ok, some i => invalidate (access { t with code := r.1 } true a i.size) a
  | _, _ => t

/-- `GetDecodedInstruction`: from the cache, or decoded and put there. What is evicted is left out (`Verif.Fetch`). -/
def decoded (t : Top) (a : BitVec 64) : Top × BitVec 32 :=
  let w := (t.cache a).getD (Fetch.loadWord t.code.mem a)
  ({ t with cache := Fetch.update t.cache a (some w) }, w)

/-- `GetInstruction` (riscv_top.cc:814-831). -/
def look (t : Top) (a : BitVec 64) : Top × BitVec 32 :=
  if t.active a then
    let r := decoded (invalidate (writeOriginal t a) a) a
    (writeBreakpoint r.1 a, r.2)
  else decoded t a

end Verif.Inspect
