import Verif.ShellMem.Model
import Verif.ShellAction.Model
import Verif.Counter.Model
import Verif.Clint.Model
/-
Model of the shell command `stats` (riscv/riscv_instrumentation_control.cc), of the counters it switches
(riscv/riscv_top.cc:84-168, 962-974) and of what else depends on these counters.

Assumed of mpact-sim: a counter that is not enabled ignores `Increment` and `SetValue` and does not tell
its listeners; the functions set for an address are called, in the order in which they were set, while
the `ebreak` that takes the place of the instruction executes; the id of a new action is not in use at
the address. The commands `action` are those of `ShellAction` and are not part of a session here; nor are
the program's own accesses to the counter CSRs and to the CLINT.
-/
namespace Verif.Stats
open Verif.Shell (Text Re ws words k gap word full cap)

/-- `pattern_re_` (riscv_instrumentation_control.cc:42-43). -/
def statsRe : Re :=
  .seq ws (words
    [k "stats", .grp (.alt (k "enable") (k "disable")),
     .grp (.alt (k "counters") (.alt (k "iprofile") (.alt (k "mprofile") (k "all"))))]
    (.seq (.opt (.seq gap word)) ws))

/-- `map`: `counter_map()` of the core, with `IsEnabled` of each counter. `pc`: `counter_pc_`, which is not
in the map (riscv_top.cc:132-152, riscv_top.h:232). `mem`: the memory profiler. -/
structure Switches where
  map : List (String × Bool)
  pc : Bool
  mem : Bool

/-- `EnableStatistics`, `DisableStatistics` (riscv_top.cc:962-974). -/
def setStatistics (m : List (String × Bool)) (b : Bool) : List (String × Bool) :=
  m.map fun p => if p.1 = "pc" then p else (p.1, b)

/-- The functions for the words of the command (riscv_instrumentation_control.cc:55-97). `none`: "unknown
instrumentation". -/
def function (cmd what : Text) : Option (Switches → Switches) :=
  let b := decide (cmd = "enable".toList)
  if what = "counters".toList then some fun s => { s with map := setStatistics s.map b }
  else if what = "iprofile".toList then some fun s => { s with pc := b }
  else if what = "mprofile".toList then some fun s => { s with mem := b }
  else if what = "all".toList then some fun s => { map := setStatistics s.map b, pc := b, mem := b }
  else none

/-- What `PerformShellCommand` comes to. -/
inductive Outcome where
  /-- not a `stats` command: the other commands are tried -/
  | notMine
  | error
  /-- the function is called -/
  | now (cmd what : Text)
  /-- the function is set for the address -/
  | later (cmd what : Text) (name : String) (address : BitVec 64)

/-- The rest of `PerformShellCommand` for the texts of the groups (riscv_instrumentation_control.cc:98-139).
The address is found as by `GetValueFromString` with radix 0: lines 106-129 are the same as
debug_command_shell.cc:1477-1497 but for the texts of the errors. -/
def act (syms : ShellMem.Symbols) (cmd what place : Text) : Outcome :=
  match function cmd what with
  | none => .error
  | some _ =>
    if place = [] then .now cmd what
    else
      match ShellMem.getValue syms place 0 with
      | .value a => .later cmd what (String.ofList (cmd ++ ['-'] ++ what ++ ['-'] ++ place)) a
      | _ => .error

/-- `PerformShellCommand` (riscv_instrumentation_control.cc:46-139). -/
def perform (syms : ShellMem.Symbols) (t : Text) : Outcome :=
  match full statsRe t with
  | none => .notMine
  | some c => act syms (cap c 0) (cap c 1) (cap c 2)

/-- The words of a function applied. -/
def apply (w : Text × Text) (s : Switches) : Switches :=
  match function w.1 w.2 with
  | some f => f s
  | none => s

/-- `acts`: the shell's and the manager's action points; `fn`: the words of the function set for an address
and id. `cycles`, `instrs`: the counters num_cycles and num_instructions; `mcycle`, `minstret`: the CSRs
tied to them (riscv_top.cc:155-162); `clint` listens to num_cycles (riscv_renode.cc:467-468). `profile`:
the values of `counter_pc_` of which the instruction profiler has been told (riscv_renode.cc:288-297,
473-487). -/
structure St (w : Nat) where
  sw : Switches
  acts : ShellAction.State
  fn : BitVec 64 → Nat → Text × Text
  cycles : BitVec 64
  instrs : BitVec 64
  mcycle : Counter.Low w
  minstret : Counter.Low w
  clint : Clint.Clint
  profile : List (BitVec 64)

/-- The counter is in the map and enabled. -/
def isOn (sw : Switches) (name : String) : Bool := sw.map.any fun p => decide (p.1 = name) && p.2

variable {w : Nat}

/-- The counters after an instruction (riscv_top.cc:263-269, 337-339, 351-353, 441-457). `counter_pc_` is
not touched by any code. -/
def count (s : St w) : St w :=
  let s := if isOn s.sw "num_cycles" then { s with cycles := s.cycles + 1, clint := s.clint.setValue } else s
  if isOn s.sw "num_instructions" then { s with instrs := s.instrs + 1 } else s

/-- One instruction: an exception corrects minstret (riscv_state.cc:668-680), then the counters. -/
def instruction (s : St w) (exc : Bool) : St w :=
  count (if exc then { s with minstret := s.minstret.onException s.instrs } else s)

/-- The functions due at an address. -/
def due (s : St w) (pc : BitVec 64) : List (Text × Text) :=
  (s.acts.manager.filter fun x => decide (x.address = pc ∧ x.enabled = true)).map fun x =>
    s.fn x.address x.id

/-- The core executes the instruction at `pc`: if functions are due, an `ebreak` that calls them is executed
before it (riscv_top.cc:190-200, 249-285, 328-380). -/
def execute (s : St w) (pc : BitVec 64) (exc : Bool) : St w :=
  if (due s pc).isEmpty then instruction s exc
  else
    instruction (instruction { s with sw := (due s pc).foldl (fun sw x => apply x sw) s.sw } false) exc

inductive Ev where
  /-- a line is typed; the manager's answer if it is asked for an action -/
  | line (t : Text) (answer : Option Nat)
  | exec (pc : BitVec 64) (exc : Bool)

/-- A line (debug_command_shell.cc:302-312), an instruction. -/
def step (syms : ShellMem.Symbols) (s : St w) : Ev → St w
  | .exec pc exc => execute s pc exc
  | .line t answer =>
    match perform syms t with
    | .notMine => s
    | .error => s
    | .now cmd what => { s with sw := apply (cmd, what) s.sw }
    | .later cmd what name a =>
      { s with
        acts := ShellAction.step s.acts (.set a name answer)
        fn := fun b i => if b = a ∧ some i = answer then (cmd, what) else s.fn b i }

def run (syms : ShellMem.Symbols) (s : St w) : List Ev → St w
  | [] => s
  | e :: es => run syms (step syms s e) es

/-- The switches of a core whose decoder has the opcodes (riscv_top.cc:132-153): all counters are enabled;
so is `counter_pc_` unless Renode's configuration says otherwise. -/
def start (opcodes : List String) (pc mem : Bool) : Switches :=
  { map := ((List.range 29).map fun i => ("hardware_perf_" ++ toString i, true))
      ++ [("num_instructions", true), ("num_cycles", true)]
      ++ opcodes.map fun o => ("num_" ++ o, true)
    pc := pc
    mem := mem }

end Verif.Stats
