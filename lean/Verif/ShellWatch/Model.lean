import Verif.Watch.Model
/-
Model of the shell's list of watchpoints (riscv/debug_command_shell.cc:750-1000): the commands, once
their texts have been read (see `Shell` and `ShellMem`), and the calls they make.

`watchpoint_map` is a map from the numbers 0, 1, ... handed out by `watchpoint_index` (both are
members of mpact-sim's `CoreAccess`); since entries are never removed from it, it is the list of its
values.
-/
namespace Verif.ShellWatch
open Verif.Watch (Watcher Kind setWatchpoint clearWatchpoint)

/-- A value of `watchpoint_map`. -/
structure Entry where
  address : BitVec 64
  length : BitVec 64
  kind : Kind
  active : Bool
deriving DecidableEq

structure State where
  watcher : Watcher := {}
  entries : List Entry := []

inductive Cmd where
  | set (a n : BitVec 64) (k : Kind)
  | setN (i : Nat)
  | clearN (i : Nat)
  | clearAll
  | clear (a : BitVec 64) (k : Kind)

/-- The loop of `watch clear-all` (debug_command_shell.cc:848-863). -/
def clearAll (w : Watcher) : List Entry → Watcher × List Entry
  | [] => (w, [])
  | e :: es =>
    if e.active = false then
      let q := clearAll w es
      (q.1, e :: q.2)
    else
      let r := clearWatchpoint w e.address e.kind
      let q := clearAll r.1 es
      (q.1, (if r.2 then { e with active := false } else e) :: q.2)

/-- The loop of `watch clear VALUE` (debug_command_shell.cc:888-906). -/
def clearFirst (w : Watcher) (a : BitVec 64) (k : Kind) : List Entry → Watcher × List Entry
  | [] => (w, [])
  | e :: es =>
    if e.address = a ∧ e.kind = k then
      let r := clearWatchpoint w a k
      (r.1, (if r.2 then { e with active := false } else e) :: es)
    else
      let q := clearFirst w a k es
      (q.1, e :: q.2)

/-- One command. -/
def step (s : State) : Cmd → State
  -- debug_command_shell.cc:767-781, 938-952
  | .set a n k =>
    let r := setWatchpoint s.watcher a n k
    { watcher := r.1, entries := if r.2 then s.entries ++ [⟨a, n, k, true⟩] else s.entries }
  -- debug_command_shell.cc:796-818
  | .setN i =>
    match s.entries[i]? with
    | none => s
    | some e =>
      if e.active then s
      else
        let r := setWatchpoint s.watcher e.address e.length e.kind
        { watcher := r.1, entries := if r.2 then s.entries.set i { e with active := true } else s.entries }
  -- debug_command_shell.cc:830-845
  | .clearN i =>
    match s.entries[i]? with
    | none => s
    | some e =>
      if e.active = false then s
      else
        let r := clearWatchpoint s.watcher e.address e.kind
        { watcher := r.1, entries := if r.2 then s.entries.set i { e with active := false } else s.entries }
  | .clearAll => let q := clearAll s.watcher s.entries; { watcher := q.1, entries := q.2 }
  | .clear a k => let q := clearFirst s.watcher a k s.entries; { watcher := q.1, entries := q.2 }

def run (s : State) : List Cmd → State
  | [] => s
  | c :: cs => run (step s c) cs

end Verif.ShellWatch
