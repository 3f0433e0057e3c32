import Verif.VecLoop.Spec
/-
Mask registers after the RISC-V vector specification: bit `i` of a mask register, and what the mask instructions
compute on single bits.
-/
namespace Verif.VecMask.Spec
open Verif.VecLoop.Spec

/-- Bit `i` of mask register `r`. -/
def mbit (R : Regs) (r i : Nat) : Bool := (R r (i / 8)).getLsbD (i % 8)

end Verif.VecMask.Spec
