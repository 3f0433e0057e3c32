import Verif.RunLoop.Model
/-
Halt requests while the execution loops run (riscv/riscv_top.cc: Step, Run, StepPastBreakpoint,
RequestHalt, Halt), over an arbitrary machine whose instructions may request a halt: a store
to a watched address, an exit through semihosting, `tohost` or ecall.

Action points and breakpoints are the subject of `Verif.RunLoop`; here no address ahead holds
one, except that execution may resume at a breakpoint (`stepOver`). A user's `Halt` may arrive
during any turn of the loop, after the instruction's own request.
-/
namespace Verif.Halt

open RunLoop (Machine)

/-- `HaltReason`, without those of action points and breakpoints; the code is the number. -/
inductive Reason where
  | none | userRequest | other (code : Nat)
deriving DecidableEq, Repr

/-- A machine and the requests its instructions make. -/
structure Prog (σ : Type) where
  machine : Machine σ
  request : σ → BitVec 64 → Option Nat

/-- The top level (riscv_top.h). -/
structure Top (σ : Type) where
  arch : σ
  pc : BitVec 64
  halted : Bool
  paused : Bool
  reason : Reason
  stepOver : Bool
  /-- What `AddToBranchTrace` was called with, in order. -/
  trace : List (BitVec 64 × BitVec 64)

variable {σ : Type}

/-- `RequestHalt` for reasons that are neither action points nor breakpoints
(riscv_top.cc:848-868). -/
def requestHalt (t : Top σ) (r : Reason) : Top σ := { t with reason := r, halted := true }

/-- `ExecuteInstruction`: the instruction's effect, and its request. -/
def execute (P : Prog σ) (t : Top σ) (pc : BitVec 64) : Top σ × Bool :=
  let r := P.machine.exec t.arch pc
  let t' := match P.request t.arch pc with
    | some k => requestHalt t (.other k)
    | none => t
  match r.2 with
  | some v => ({ t' with arch := r.1, pc := v }, true)
  | none => ({ t' with arch := r.1 }, false)

/-- The interrupt check (riscv_top.cc:275-281, 338-346, 447-456). -/
def checkInterrupt (P : Prog σ) (t : Top σ) (branch : Bool) (next : BitVec 64) : Top σ × Bool :=
  match P.machine.intr t.arch with
  | some f =>
    let r := f (if branch then t.pc else next)
    ({ t with arch := r.1, pc := r.2 }, true)
  | none => (t, branch)

/-- `Halt()` from another thread (riscv_top.cc:226-238), if it arrives. -/
def user (t : Top σ) (arrives : Bool) : Top σ :=
  if arrives then { t with reason := .userRequest, halted := true } else t

/-- `StepPastBreakpoint` (riscv_top.cc:250-290). The trace gets the breakpoint's address twice
(riscv_top.cc:285). -/
def stepPast (P : Prog σ) (t : Top σ) : Top σ :=
  let a := t.pc
  let next := a + BitVec.ofNat 64 (P.machine.size t.arch a)
  let (t, branch) := execute P t a
  let t := { t with arch := P.machine.tick t.arch }
  let (t, branch) := checkInterrupt P t branch next
  if branch then { t with trace := t.trace ++ [(a, a)] } else { t with pc := next }

/-- The loop body (riscv_top.cc:330-363, 432-467): the top level and `next_pc`. -/
def turn (P : Prog σ) (t : Top σ) (pc : BitVec 64) (arrives : Bool) : Top σ × BitVec 64 :=
  let t := { t with pc := pc }
  let next := pc + BitVec.ofNat 64 (P.machine.size t.arch pc)
  let (t, branch) := execute P t pc
  let t := { t with arch := P.machine.tick t.arch }
  let (t, branch) := checkInterrupt P t branch next
  let t := if branch then { t with trace := t.trace ++ [(pc, t.pc)] } else t
  let t := user t arrives
  let t := { t with paused := t.paused || t.halted }
  (t, if branch then t.pc else next)

/-- The loop with at most `n` turns: of `Step` (riscv_top.cc:329-380, `n` the steps left) and of
`Run` (riscv_top.cc:431-482, watched for `n` turns). `arrives` says in which turns a `Halt`
arrives. The result: the top level, `next_pc`, the turns made. -/
def loop (P : Prog σ) (t : Top σ) (pc : BitVec 64) (arrives : Nat → Bool) :
    Nat → Top σ × BitVec 64 × Nat
  | 0 => (t, pc, 0)
  | n + 1 =>
    if t.paused then (t, pc, 0)
    else
      let r := turn P t pc (arrives 0)
      if r.1.paused then (r.1, r.2, 1)
      else
        let q := loop P r.1 r.2 (fun i => arrives (i + 1)) n
        (q.1, q.2.1, q.2.2 + 1)

/-- `Step(num)` of a halted core, for positive `num` (riscv_top.cc:292-395): the top level and
the count returned. A `Halt` during a step is refused (riscv_top.cc:232-234), so none
arrives. -/
def step (P : Prog σ) (t : Top σ) (num : Nat) : Top σ × Nat :=
  let t := { t with halted := false, paused := false, reason := .none }
  let (t, count) :=
    if t.stepOver then
      let t := stepPast P { t with stepOver := false }
      ({ t with paused := t.paused || t.halted }, 1)
    else (t, 0)
  let r := loop P t t.pc (fun _ => false) (num - count)
  let t := { r.1 with pc := r.2.1 }
  (if t.halted then t else { t with reason := .none }, count + r.2.2)

/-- `Run` of a halted core, watched for `n` turns of its loop (riscv_top.cc:397-495): the top
level, the number of turns made and whether the core has stopped. The flags are cleared after
the breakpoint is stepped over. -/
def run (P : Prog σ) (t : Top σ) (arrives : Nat → Bool) (n : Nat) : Top σ × Nat × Bool :=
  let t := if t.stepOver then stepPast P { t with stepOver := false } else t
  let t := { t with halted := false, paused := false, reason := .none }
  let r := loop P t t.pc arrives n
  ({ r.1 with pc := r.2.1 }, r.2.2, r.1.paused)

end Verif.Halt
