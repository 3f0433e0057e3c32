import Verif.VecBits.Model
import Verif.VecInt.Spec
import Verif.Bitmanip.Spec
/-
What the Zvbb chapter of the ISA manual says of one element, in terms of single bits.
-/
namespace Verif.VecBits.Spec
open Verif.VecState Verif.VecLoop.Spec Verif.VecInt

/-- `r` is the result for the element `a` of vs2 (`w` bits). -/
def un {w : Nat} (a r : BitVec w) : Un → Prop
  | .brev8 => ∀ k j, 8 * k < w → j < 8 → r.getLsbD (8 * k + j) = a.getLsbD (8 * k + (7 - j))
  | .rev8 => ∀ k j, k < w / 8 → j < 8 → r.getLsbD (8 * k + j) = a.getLsbD (8 * (w / 8 - 1 - k) + j)
  | .brev => ∀ j, j < w → r.getLsbD j = a.getLsbD (w - 1 - j)
  | .clz => Bitmanip.Spec.IsClz a r.toNat
  | .ctz => Bitmanip.Spec.IsCtz a r.toNat
  | .cpop => r.toNat = Bitmanip.Spec.ones a w

/-- `a` from vs2, `b` from operand 1. -/
def bin {w : Nat} (a b r : BitVec w) : Bin → Prop
  | .andn => ∀ j, j < w → r.getLsbD j = (a.getLsbD j && !b.getLsbD j)
  | .rol => ∀ j, j < w → r.getLsbD ((j + b.toNat % w) % w) = a.getLsbD j
  | .ror => ∀ j, j < w → r.getLsbD j = a.getLsbD ((j + b.toNat % w) % w)

/-- Operand 1 of element `i`. -/
def Operand {xlen n : Nat} (s : VState) (R : Regs) (i : Nat) (b : BitVec (8 * n)) : Src xlen → Prop
  | .of s1 => VecInt.Spec.Operand s R i b s1
  | .uimm6 k => b.toNat = k.toNat

def OperandOk {xlen : Nat} (s : VState) (nd vd n : Nat) : Src xlen → Prop
  | .of s1 => VecInt.Spec.OperandOk s nd vd n s1
  | .uimm6 _ => True

/-- Every active body element has the result wanted, nothing else changes, vstart is cleared. -/
structure Gives (s : VState) (R : Regs) (vm : Bool) (nd vd : Nat) (s' : VState) (R' : Regs) (want : Nat → BitVec (8 * nd) → Prop) : Prop where
  state : s' = { s with vstart := 0 }
  body : ∀ i, s.vstart ≤ i → i < s.vl → Active R vm i → ∃ r, IsElem s.vlenb nd R' vd i r ∧ want i r
  rest : Undisturbed s.vlenb nd vd (fun i => s.vstart ≤ i ∧ i < s.vl ∧ Active R vm i) R R'

end Verif.VecBits.Spec
