import Verif.ShellMem.Spec
/-
What `vreg get` and `vreg set` are to do (help text, debug_command_shell.cc:112-119): an element of a
vector register is a number of the format's width.
-/
namespace Verif.ShellVec.Spec
open Verif.ShellMem.Spec (stored Number)

/-- Element `i` of `width` bits in a register's bytes. -/
def element (db : List (BitVec 8)) (width i : Nat) : Nat :=
  stored (fun j => (db.getD j 0#8).toNat) (i * (width / 8)) (width / 8)

/-- How many elements of the width there are. -/
def count (db : List (BitVec 8)) (width : Nat) : Nat := db.length / (width / 8)

/-- FORMAT, split into its letter and its width; hexadecimal with 32 bits if there is none. -/
inductive Format : List Char → List Char → Char → Nat → Prop
  | default : Format [] [] 'x' 32
  | given {l w width} : l ∈ ['o', 'd', 'u', 'x', 'X'] →
      (w, width) ∈ [(['8'], 8), (['1', '6'], 16), (['3', '2'], 32), (['6', '4'], 64)] →
      Format [l] w l width

/-- The value's text: a number in the base of the format's letter. -/
def Value (l : Char) (text : List Char) (n : Nat) : Prop :=
  ((l = 'x' ∨ l = 'X') ∧ Number 16 text n) ∨ ((l = 'd' ∨ l = 'u') ∧ Number 10 text n)
    ∨ (l = 'o' ∧ Number 8 text n)

/-- The texts with colons between them. -/
def joined : List (List Char) → List Char
  | [] => []
  | [t] => t
  | t :: u :: ts => t ++ ':' :: joined (u :: ts)

end Verif.ShellVec.Spec
