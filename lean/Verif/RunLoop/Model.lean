/-
The execution loops of the top level (riscv/riscv_top.cc: Step, Run, StepPastBreakpoint, RequestHalt, and
the ebreak handler), over an arbitrary machine.

Simplifications: an instruction executes on the first attempt (the inner `do … while (!executed)` loop runs
once); actions of action points do nothing but, for breakpoints, request a halt; no other halt request
arrives while the loop runs; the branch trace and the opcode counters are left out (see `BranchTrace`).
Patching memory is reduced to the set of patched addresses (see `ActionPoint` for the bytes); all addresses
hold two- or four-byte instructions, so that patching never fails.
-/
namespace Verif.RunLoop

/-- What executing instructions does, over an architectural state `σ` that does not include the pc. -/
structure Machine (σ : Type) where
  /-- size of the instruction at an address; a breakpoint instruction has the size of the one it
  replaces (riscv_action_point_memory_interface.cc:82-89) -/
  size : σ → BitVec 64 → Nat
  /-- the instruction at an address: new state and, if it sets the branch flag, the new pc -/
  exec : σ → BitVec 64 → σ × Option (BitVec 64)
  /-- an ebreak no handler accepts (`RiscVState::EBreak`, riscv_state.cc:621-623) -/
  breakTrap : σ → BitVec 64 → σ × Option (BitVec 64)
  /-- one cycle: `counter_num_cycles_.Increment(1); AdvanceDelayLines()` -/
  tick : σ → σ
  /-- if an interrupt is available, taking it with a given epc: the new state and pc -/
  intr : σ → Option (BitVec 64 → σ × BitVec 64)

inductive Reason where
  | none | actionPoint | softwareBreakpoint
deriving DecidableEq

/-- What an active action point does besides its (empty) actions: nothing, or the halt request of a
breakpoint (riscv_top.cc:184-186). -/
inductive Kind where
  | action | breakpoint
deriving DecidableEq

/-- The top level. -/
structure Top (σ : Type) where
  arch : σ
  /-- the pc register -/
  pc : BitVec 64
  halted : Bool
  paused : Bool
  reason : Reason
  stepOver : Bool
  /-- where memory holds a breakpoint instruction -/
  patched : BitVec 64 → Bool
  /-- addresses in `instruction_map_` -/
  known : BitVec 64 → Bool
  /-- `IsActionPointActive` -/
  active : BitVec 64 → Option Kind
  /-- addresses of the program's own instructions executed, latest first -/
  log : List (BitVec 64)
  /-- `counter_num_instructions_`, which minstret reads -/
  instret : Nat

variable {σ : Type}

def setF (f : BitVec 64 → Bool) (a : BitVec 64) (v : Bool) : BitVec 64 → Bool :=
  fun b => if b = a then v else f b

/-- `RequestHalt` (riscv_top.cc:849-869). -/
def requestHalt (t : Top σ) (r : Reason) : Top σ :=
  let t := { t with reason := r }
  let t := if r = .actionPoint then { t with paused := true } else { t with halted := true }
  if t.reason = .softwareBreakpoint ∨ t.reason = .actionPoint then { t with stepOver := true } else t

/-- `WriteOriginalInstruction` (riscv_action_point_memory_interface.cc:43-61); errors are ignored by
the callers here. -/
def writeOriginal (t : Top σ) (a : BitVec 64) : Top σ :=
  if t.known a then { t with patched := setF t.patched a false } else t

/-- `WriteBreakpointInstruction` (riscv_action_point_memory_interface.cc:63-93). -/
def writeBreakpoint (t : Top σ) (a : BitVec 64) : Top σ :=
  { t with patched := setF t.patched a true, known := setF t.known a true }

/-- The ebreak handler (riscv_top.cc:189-199): `none` if it declines. -/
def ebreakHandler (t : Top σ) (a : BitVec 64) : Option (Top σ) :=
  match t.active a with
  | some .action => some (requestHalt t .actionPoint)
  | some .breakpoint => some (requestHalt (requestHalt t .actionPoint) .softwareBreakpoint)
  | none => none

/-- A new state and possibly a new pc. -/
def effect (t : Top σ) (r : σ × Option (BitVec 64)) : Top σ × Bool :=
  match r.2 with
  | some pc => ({ t with arch := r.1, pc := pc }, true)
  | none => ({ t with arch := r.1 }, false)

/-- `ExecuteInstruction` on what memory holds at `a`: the new top level and the branch flag. -/
def execute (M : Machine σ) (t : Top σ) (a : BitVec 64) : Top σ × Bool :=
  if t.patched a then
    match ebreakHandler t a with
    | some t' => (t', false)
    | none => effect t (M.breakTrap t.arch a)
  else
    effect { t with log := a :: t.log } (M.exec t.arch a)

/-- The interrupt check (riscv_top.cc:275-281, 338-346, 447-456). -/
def checkInterrupt (M : Machine σ) (t : Top σ) (branch : Bool) (next : BitVec 64) : Top σ × Bool :=
  match M.intr t.arch with
  | some f =>
    let r := f (if branch then t.pc else next)
    ({ t with arch := r.1, pc := r.2 }, true)
  | none => (t, branch)

/-- `StepPastBreakpoint` (riscv_top.cc:250-290). -/
def stepPast (M : Machine σ) (t : Top σ) : Top σ :=
  let a := t.pc
  let t := writeOriginal t a
  let next := a + BitVec.ofNat 64 (M.size t.arch a)
  let (t, branch) := execute M t a
  let t := { t with arch := M.tick t.arch, instret := t.instret + 1 }
  let t := writeBreakpoint t a
  let (t, branch) := checkInterrupt M t branch next
  { t with pc := if branch then t.pc else next }

/-- What the loop body ends with: `pc` and `next_pc` of the code, and whether to leave the loop. -/
structure Turn (σ : Type) where
  top : Top σ
  pc : BitVec 64
  next : BitVec 64
  stop : Bool

/-- The instruction part of the loop body (riscv_top.cc:330-360, 432-464). -/
def turnExec (M : Machine σ) (t : Top σ) (pc : BitVec 64) : Top σ × BitVec 64 :=
  let t := { t with pc := pc }
  let next := pc + BitVec.ofNat 64 (M.size t.arch pc)
  let (t, branch) := execute M t pc
  let t := { t with arch := M.tick t.arch }
  let (t, branch) := checkInterrupt M t branch next
  let t := { t with paused := t.paused || t.halted, instret := t.instret + 1 }
  (t, if branch then t.pc else next)

/-- The loop body of `Step` and `Run` (riscv_top.cc:329-380, 431-482). -/
def turn (M : Machine σ) (t : Top σ) (pc : BitVec 64) : Turn σ :=
  let r := turnExec M t pc
  let t := r.1
  if t.paused = false then ⟨t, r.2, r.2, false⟩
  else if t.reason = .actionPoint then
    let t := stepPast M t
    ⟨{ t with paused := t.halted, reason := .none, stepOver := false }, pc, r.2, false⟩
  else ⟨t, pc, r.2, true⟩

/-- The loop of `Step` with `n` steps left (riscv_top.cc:329-380): the top level, `pc`, `next_pc` and the
number of turns made. -/
def stepLoop (M : Machine σ) (t : Top σ) (pc next : BitVec 64) : Nat → Turn σ × Nat
  | 0 => (⟨t, pc, next, false⟩, 0)
  | n + 1 =>
    if t.paused then (⟨t, pc, next, false⟩, 0)
    else
      let u := turn M t pc
      if u.stop then (u, 1)
      else
        let r := stepLoop M u.top u.pc u.next n
        (r.1, r.2 + 1)

/-- The end of `Step` (riscv_top.cc:382-394). -/
def finish (u : Turn σ) : Top σ :=
  let t := { u.top with pc := if u.top.reason = .softwareBreakpoint then u.pc else u.next }
  if t.halted then t else { t with reason := .none }

/-- The loop and the end of `Step`. -/
def stepFrom (M : Machine σ) (t : Top σ) (n : Nat) : Top σ × Nat :=
  let r := stepLoop M t t.pc t.pc n
  (finish r.1, r.2)

/-- `Step(num)` of a halted core, for positive `num` (riscv_top.cc:292-395): the top level and the
count returned. -/
def step (M : Machine σ) (t : Top σ) (num : Nat) : Top σ × Nat :=
  let t := { t with halted := false, paused := false, reason := .none }
  if t.stepOver then
    let t := stepPast M { t with stepOver := false }
    let r := stepFrom M { t with paused := t.paused || t.halted } (num - 1)
    (r.1, r.2 + 1)
  else stepFrom M t num

/-- `n` turns of the loop of `Run` (riscv_top.cc:431-482); it is left on `stop` or `paused_`. -/
def runLoop (M : Machine σ) (t : Top σ) (pc next : BitVec 64) : Nat → Turn σ
  | 0 => ⟨t, pc, next, t.paused⟩
  | n + 1 =>
    if t.paused then ⟨t, pc, next, true⟩
    else
      let u := turn M t pc
      if u.stop then u else runLoop M u.top u.pc u.next n

/-- `Run` of a halted core up to `n` turns of the loop (riscv_top.cc:397-482). -/
def run (M : Machine σ) (t : Top σ) (n : Nat) : Turn σ :=
  let t := if t.stepOver then stepPast M { t with stepOver := false } else t
  let t := { t with halted := false, paused := false, reason := .none }
  runLoop M t t.pc t.pc n

/-- Setting an action point or breakpoint (riscv_top.cc:684-697, 722-730 and mpact-sim's manager). -/
def setPoint (t : Top σ) (a : BitVec 64) (k : Kind) : Top σ :=
  let t := writeBreakpoint t a
  { t with active := fun b => if b = a then some k else t.active b }

/-- Clearing it (riscv_top.cc:699-708, 732-737 and mpact-sim's manager). -/
def clearPoint (t : Top σ) (a : BitVec 64) : Top σ :=
  let t := writeOriginal t a
  { t with active := fun b => if b = a then none else t.active b }

/-- `WriteRegister("pc", v)` (riscv_top.cc:572-624). -/
def writePc (t : Top σ) (v : BitVec 64) : Top σ :=
  let t := if t.reason = .softwareBreakpoint then { t with reason := .none } else t
  { t with pc := v }

end Verif.RunLoop
