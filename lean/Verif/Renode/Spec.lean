import Verif.Setup.Model
/-
What a Renode configuration asks for, and what Renode, the loader and the core may expect of the memory.
-/
namespace Verif.Renode.Spec

/-- The text given last for a setting. -/
def last (name : String) : List (String × List Char) → Option (List Char)
  | [] => none
  | (n, t) :: rest => match last name rest with
    | some t' => some t'
    | none => if n = name then some t else none

/-- The number given last for a setting; what numbers mean is C98. -/
def value (name : String) (pairs : List (String × List Char)) : Option (BitVec 64) :=
  (last name pairs).bind Setup.parseNumber

/-- The settings whose value is text. -/
def Textual (name : String) : Prop := name = "iCache" ∨ name = "dCache"

/-- Every value that should be a number is one. -/
def Legible (pairs : List (String × List Char)) : Prop :=
  ∀ p ∈ pairs, ¬Textual p.1 → (Setup.parseNumber p.2).isSome

instance : DecidablePred Textual := fun n => inferInstanceAs (Decidable (n = "iCache" ∨ n = "dCache"))

instance : DecidablePred Legible := fun pairs =>
  inferInstanceAs (Decidable (∀ p ∈ pairs, ¬Textual p.1 → (Setup.parseNumber p.2).isSome))

/-- The byte at `x` is one of the `n` bytes from `a` on, which do not wrap around. -/
def Among (a n x : Nat) : Prop := a ≤ x ∧ x < a + n

/-- Two runs of bytes have none in common. -/
def Apart (a n b m : Nat) : Prop := ∀ x, ¬(Among a n x ∧ Among b m x)

/-- The first run lies within the second. -/
def Within (a n b m : Nat) : Prop := b ≤ a ∧ a + n ≤ b + m

/-- A writing of bytes to the memory: by Renode, by the loader or by the core. -/
structure Writing where
  addr : BitVec 64
  bytes : List (BitVec 8)

/-- The byte a reader should find at `x` after some writings, the latest first. -/
def byteAt (x : BitVec 64) (before : BitVec 8) : List Writing → BitVec 8
  | [] => before
  | w :: earlier =>
    if h : (x - w.addr).toNat < w.bytes.length then w.bytes[(x - w.addr).toNat]
    else byteAt x before earlier

end Verif.Renode.Spec
