import Verif.Core.Model
/-
Environment calls, breakpoints, wfi and cease (riscv/riscv_state.cc:585-663).

A handler is a callback of the embedding program: it may change the core and a state of its own (`ω`), and
answers whether it accepted.
-/
namespace Verif.Dispatch
open Verif.Core

variable {w : Nat} {ω : Type}

/-- The core and whatever state the handlers have. -/
structure World (w : Nat) (ω : Type) where
  core : Core w
  outside : ω

/-- `absl::AnyInvocable<bool(const Instruction*)>`, given the instruction's address. -/
abbrev Handler (w : Nat) (ω : Type) := BitVec 64 → World w ω → World w ω × Bool

def U : BitVec 2 := 0
def S : BitVec 2 := 1
def M : BitVec 2 := 3

/-- The switch on the privilege mode (riscv_state.cc:595-609): `ExceptionCode` 8, 9 and 11; none for
the remaining mode, where only a message is logged. -/
def callCode (mode : BitVec 2) : Option (BitVec 64) :=
  if mode = U then some 8#64 else if mode = S then some 9#64 else if mode = M then some 11#64 else none

/-- The part of `ECall` after the handler declined (riscv_state.cc:595-612). `handled` is the answer
of the trap callback. -/
def ecallTrap (addr : BitVec 64) (s : World w ω) (handled : Bool) : World w ω :=
  match callCode s.core.hart.mode with
  | some code => { s with core := raise s.core 0#64 code addr handled }
  | none => s

/-- `ECall` (riscv_state.cc:585-613). -/
def ecall (h : Option (Handler w ω)) (addr : BitVec 64) (s : World w ω) (handled : Bool) : World w ω :=
  match h with
  | some h => if (h addr s).2 then (h addr s).1 else ecallTrap addr (h addr s).1 handled
  | none => ecallTrap addr s handled

/-- `EBreak` (riscv_state.cc:615-624): the handlers in registration order. -/
def ebreak (hs : List (Handler w ω)) (addr : BitVec 64) (s : World w ω) (handled : Bool) : World w ω :=
  match hs with
  | [] => { s with core := raise s.core 0#64 3#64 addr handled }
  | h :: hs => if (h addr s).2 then (h addr s).1 else ebreak hs addr (h addr s).1 handled

/-- `AddEbreakHandler` (riscv_state.h:308-310). -/
def addHandler (hs : List (Handler w ω)) (h : Handler w ω) : List (Handler w ω) := hs ++ [h]

/-- `WFI` (riscv_state.cc:626-637). -/
def wfi (h : Option (Handler w ω)) (addr : BitVec 64) (s : World w ω) : World w ω :=
  match h with
  | some h => if (h addr s).2 then (h addr s).1 else (h addr s).1
  | none => s

/-- The part of `Cease` after the handler declined (riscv_state.cc:645-656). -/
def ceaseLoop (addr : BitVec 64) (s : World w ω) : World w ω :=
  { s with core := { s.core with hart := { s.core.hart with pc := addr.setWidth w, branch := true } } }

/-- `Cease` (riscv_state.cc:639-663). -/
def cease (h : Option (Handler w ω)) (addr : BitVec 64) (s : World w ω) : World w ω :=
  match h with
  | some h => if (h addr s).2 then (h addr s).1 else ceaseLoop addr (h addr s).1
  | none => ceaseLoop addr s

end Verif.Dispatch
