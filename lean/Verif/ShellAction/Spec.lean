import Verif.ShellAction.Model
/-
The list of action points as its user sees it: numbers are handed out in order and never again; an action
is enabled until it is disabled, and there until it is cleared.
-/
namespace Verif.ShellAction.Spec

/-- A line of the list: number, address, enabled, name. -/
abbrev Line := Nat × BitVec 64 × Bool × String

structure List' where
  lines : List Line := []
  next : Nat := 0

def setFlag (n : Nat) (b : Bool) (l : Line) : Line := if l.1 = n then (l.1, l.2.1, b, l.2.2.2) else l

def step (S : List') : Cmd → List'
  | .set _ _ none => S
  | .set a name (some _) => { lines := S.lines ++ [(S.next, a, true, name)], next := S.next + 1 }
  | .enable n => { S with lines := S.lines.map (setFlag n true) }
  | .disable n => { S with lines := S.lines.map (setFlag n false) }
  | .clear n => { S with lines := S.lines.filter fun l => decide (l.1 ≠ n) }
  | .clearAll => { S with lines := [] }

def run (S : List') : List Cmd → List'
  | [] => S
  | c :: cs => run (step S c) cs

/-- The actions to execute at an address. -/
def executed (S : List') (a : BitVec 64) : List String :=
  (S.lines.filter fun l => decide (l.2.1 = a ∧ l.2.2.1 = true)).map (·.2.2.2)

/-- The number of a command fits an `int`; no `clear-all`. -/
def Plain : Cmd → Prop
  | .set _ _ _ => True
  | .enable n => n < 2 ^ 31
  | .disable n => n < 2 ^ 31
  | .clear n => n < 2 ^ 31
  | .clearAll => False

/-- The manager never hands out an id that is in use at the address. -/
def Fresh (s : State) : List Cmd → Prop
  | [] => True
  | c :: cs =>
    (∀ a name id, c = .set a name (some id) → ∀ x ∈ s.manager, ¬ (x.address = a ∧ x.id = id))
    ∧ Fresh (ShellAction.step s c) cs

end Verif.ShellAction.Spec
