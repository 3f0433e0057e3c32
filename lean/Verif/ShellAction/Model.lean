/-
Model of the shell's list of action points (riscv/debug_command_shell.cc:1517-1631).

The actions themselves are held by mpact-sim's `ActionPointManager`, reached through `RiscVTop`
(riscv_top.cc:727-757) or, with Renode, `RiscVCLIForwarder`. Assumed of it: an action is known by its
address and an id that is not in use at that address when it is handed out; the calls on an action that
is not there give an error and change nothing; an action is executed when its address is reached and it
is enabled.
-/
namespace Verif.ShellAction

/-- An action, as the manager and as the shell (`ActionPointInfo`, debug_command_shell.h:73-78) know it.
The name stands for the function in the manager. -/
structure Info where
  address : BitVec 64
  id : Nat
  name : String
  enabled : Bool
deriving DecidableEq

/-- `manager`: the actions that are set. `map`, `next`: `core_action_point_info_`,
`core_action_point_id_` of the current core (debug_command_shell.h:178-179); the keys are handed out in
order, so a new entry is the last one. Overflow of the counter is not modelled. -/
structure State where
  manager : List Info := []
  map : List (Nat × Info) := []
  next : Nat := 0

/-- The manager's `EnableAction` and `DisableAction`. -/
def setEnabled (m : List Info) (a : BitVec 64) (i : Nat) (b : Bool) : List Info :=
  m.map fun x => if x.address = a ∧ x.id = i then { x with enabled := b } else x

/-- The manager knows the action. -/
def known (m : List Info) (a : BitVec 64) (i : Nat) : Bool :=
  m.any fun x => x.address = a ∧ x.id = i

/-- The manager's `ClearAction`. -/
def clearAction (m : List Info) (a : BitVec 64) (i : Nat) : List Info :=
  m.filter fun x => !(decide (x.address = a ∧ x.id = i))

/-- The index a typed number stands for: `stoull` in base 10, then the conversion to `int`
(debug_command_shell.cc:1532-1537, 1559-1564, 1585-1590). -/
def index (n : Nat) : Option Int :=
  if n < 2 ^ 64 then some (BitVec.ofNat 32 n).toInt else none

/-- `action_map.find(index)`. -/
def find (map : List (Nat × Info)) (n : Nat) : Option (Nat × Info) :=
  match index n with
  | none => none
  | some i => map.find? fun p => decide ((p.1 : Int) = i)

/-- The entry's flag is set. -/
def mark (map : List (Nat × Info)) (k : Nat) (b : Bool) : List (Nat × Info) :=
  map.map fun p => if p.1 = k then (p.1, { p.2 with enabled := b }) else p

/-- Calls and commands; a number is the value of the digits typed. For `set` the last argument is what
the manager answers: the id, or an error. -/
inductive Cmd where
  | set (a : BitVec 64) (name : String) (answer : Option Nat)
  | enable (n : Nat)
  | disable (n : Nat)
  | clear (n : Nat)
  | clearAll

/-- `EnableActionPointN` and `DisableActionPointN` (debug_command_shell.cc:1530-1582), `b` is the flag
wanted. The flag is set before the call is made. -/
def switch (s : State) (n : Nat) (b : Bool) : State :=
  match find s.map n with
  | none => s
  | some (k, info) =>
    if info.enabled = b then s
    else { s with map := mark s.map k b, manager := setEnabled s.manager info.address info.id b }

/-- `ClearActionPointN` (debug_command_shell.cc:1584-1604). -/
def clearN (s : State) (n : Nat) : State :=
  match find s.map n with
  | none => s
  | some (k, info) =>
    if known s.manager info.address info.id then
      { s with
        manager := clearAction s.manager info.address info.id
        map := s.map.filter fun p => !(decide (p.1 = k)) }
    else s

/-- `SetActionPoint` (debug_command_shell.cc:1619-1633), and `ClearAllActionPoints`
(debug_command_shell.cc:1606-1617), which leaves the map as it is. -/
def step (s : State) : Cmd → State
  | .set _ _ none => s
  | .set a name (some id) =>
    { manager := s.manager ++ [⟨a, id, name, true⟩]
      map := s.map ++ [(s.next, ⟨a, id, name, true⟩)]
      next := s.next + 1 }
  | .enable n => switch s n true
  | .disable n => switch s n false
  | .clear n => clearN s n
  | .clearAll => { s with manager := s.map.foldl (fun m p => clearAction m p.2.address p.2.id) s.manager }

def run (s : State) : List Cmd → State
  | [] => s
  | c :: cs => run (step s c) cs

/-- The actions executed when an address is reached. -/
def executed (s : State) (a : BitVec 64) : List String :=
  (s.manager.filter fun x => decide (x.address = a ∧ x.enabled = true)).map (·.name)

/-- `ListActionPoints` (debug_command_shell.cc:1518-1528): number, address, flag and name. -/
def listed (s : State) : List (Nat × BitVec 64 × Bool × String) :=
  s.map.map fun p => (p.1, p.2.address, p.2.enabled, p.2.name)

end Verif.ShellAction
