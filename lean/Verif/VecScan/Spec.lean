import Verif.VecScan.Model
import Verif.VecMask.Spec
/-
The instructions that scan a mask, after the RISC-V vector specification (sections 15.2 to 15.9).
-/
namespace Verif.VecScan.Spec
open Verif.VecState Verif.VecLoop.Spec Verif.VecMask.Spec

/-- Bit `i` of the source is set and `i` is active. -/
def hit (R : Regs) (vm : Bool) (vs2 i : Nat) : Bool := (vm || mbit R 0 i) && mbit R vs2 i

/-- How many of the numbers below `n` satisfy `p`. -/
def howMany (p : Nat → Bool) (n : Nat) : Nat := ((List.range n).filter p).length

/-- `r` is the least number below `n` that satisfies `p`, or -1 if there is none. -/
def IsFirst {w : Nat} (p : Nat → Bool) (n : Nat) (r : BitVec w) : Prop :=
  (∃ i, i < n ∧ p i = true ∧ (∀ j, j < i → p j = false) ∧ r.toNat = i) ∨ ((∀ i, i < n → p i = false) ∧ r.toInt = -1)

/-- The bit each of vmsbf, vmsif and vmsof gives an active element. -/
def Wanted (p : Nat → Bool) (i : Nat) : Op → Prop
  | .msbf => ∀ j, j ≤ i → p j = false
  | .msif => ∀ j, j < i → p j = false
  | .msof => p i = true ∧ ∀ j, j < i → p j = false

/-- The active bits of the body become `want`; all other bits keep their values. -/
structure Written (vl : Nat) (R R' : Regs) (vm : Bool) (vd : Nat) (want : Nat → Prop) : Prop where
  active : ∀ i, i < vl → Active R vm i → (mbit R' vd i = true ↔ want i)
  inactive : ∀ i, i < vl → ¬ Active R vm i → mbit R' vd i = mbit R vd i
  tail : ∀ i, vl ≤ i → mbit R' vd i = mbit R vd i
  others : ∀ r, r ≠ vd → R' r = R r

end Verif.VecScan.Spec
