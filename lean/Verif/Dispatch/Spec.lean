import Verif.Dispatch.Model
import Verif.Control.Spec
/-
What asking a list of handlers means, as a relation.
-/
namespace Verif.Dispatch.Spec
open Verif.Core

variable {w : Nat} {ω : Type}

/-- The handlers were asked in order, each in the state the one before left, and all declined. -/
inductive AllDecline (addr : BitVec 64) : List (Handler w ω) → World w ω → World w ω → Prop
  | nil (s) : AllDecline addr [] s s
  | cons (h hs s s') : (h addr s).2 = false → AllDecline addr hs (h addr s).1 s' →
      AllDecline addr (h :: hs) s s'

/-- Handler `i` is the first that accepts: the ones before it were asked in order and declined, and
those after it are not asked. -/
def FirstAccepts (addr : BitVec 64) (hs : List (Handler w ω)) (s s' : World w ω) (i : Nat) : Prop :=
  ∃ h t, hs[i]? = some h ∧ AllDecline addr (hs.take i) s t ∧ h addr t = (s', true)

/-- The environment-call cause of a mode. -/
def IsCallCause (mode : BitVec 2) (code : BitVec 64) : Prop :=
  mode = 0 ∧ code = 8 ∨ mode = 1 ∧ code = 9 ∨ mode = 3 ∧ code = 11

/-- A synchronous exception was raised in state `s`, with the address as epc, and nothing else
happened. -/
def Traps (s s' : World w ω) (code addr : BitVec 64) (handled : Bool) : Prop :=
  Control.Spec.Raises s.core s'.core 0 code addr handled ∧ s'.outside = s.outside

end Verif.Dispatch.Spec
