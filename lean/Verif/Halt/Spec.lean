import Verif.RunLoop.Spec
/-!
# Stopping

A core that is told to stop, by an instruction or by its user, stops after the instruction
during which it was told, with the pc at the instruction that follows.
-/

namespace Verif.Halt.Spec

open RunLoop (Machine)
open RunLoop.Spec (plainN)

variable {σ : Type}

/-- What is requested during instruction `i` of an execution from `x`: the user's request, if
it arrives then, else the instruction's. -/
def requested (M : Machine σ) (request : σ → BitVec 64 → Option Nat) (arrives : Nat → Bool)
    (x : σ × BitVec 64) (i : Nat) : Option (Option Nat) :=
  if arrives i then some none
  else (request (plainN M x i).1 (plainN M x i).2).map some

/-- Nothing is requested during the first `n` instructions. -/
def Quiet (M : Machine σ) (request : σ → BitVec 64 → Option Nat) (arrives : Nat → Bool)
    (x : σ × BitVec 64) (n : Nat) : Prop :=
  ∀ i, i < n → requested M request arrives x i = none

/-- The transfer of control that instruction `i` of an execution from `x` makes, if any: the
instruction jumps, or an interrupt or exception is taken; from its address to the next pc. -/
def transfer (M : Machine σ) (x : σ × BitVec 64) (i : Nat) : List (BitVec 64 × BitVec 64) :=
  let y := plainN M x i
  let r := M.exec y.1 y.2
  if r.2.isSome ∨ (M.intr (M.tick r.1)).isSome then [(y.2, (plainN M x (i + 1)).2)] else []

/-- The transfers of the first `n` instructions. -/
def transfers (M : Machine σ) (x : σ × BitVec 64) : Nat → List (BitVec 64 × BitVec 64)
  | 0 => []
  | n + 1 => transfers M x n ++ transfer M x n

end Verif.Halt.Spec
