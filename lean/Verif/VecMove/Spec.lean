import Verif.VecMove.Model
import Verif.VecLoop.Spec
/-
What the moves do, after the RISC-V vector specification (sections 16.1, 16.2, 16.6 and 11.16).
-/
namespace Verif.VecMove.Spec
open Verif.VecState Verif.VecLoop.Spec

/-- `r` is the element `e` sign-extended, or its low bits if it is wider. -/
def Carries {m w : Nat} (e : BitVec m) (r : BitVec w) : Prop :=
  (m ≤ w → r.toInt = e.toInt) ∧ (w < m → r.toNat = e.toNat % 2 ^ w)

/-- The value of a floating-point register for elements of `n` bytes: the register if it is as wide, else its low
half if the upper one is all ones, else the canonical NaN. -/
def FpValue (n : Nat) (x : BitVec 64) (v : BitVec (8 * n)) : Prop :=
  (n = 8 → v.toNat = x.toNat) ∧
  (n = 4 → (x.toNat / 2 ^ 32 = 2 ^ 32 - 1 → v.toNat = x.toNat % 2 ^ 32) ∧
    (x.toNat / 2 ^ 32 ≠ 2 ^ 32 - 1 → v.toNat = 0x7fc00000))

/-- Only the elements that satisfy `body` change, and they become `v`. -/
def Filled (s : VState) (R R' : Regs) (vd : Nat) (body : Nat → Prop) (v : BitVec (8 * s.sew)) : Prop :=
  (∀ i, body i → IsElem s.vlenb s.sew R' vd i v) ∧ Undisturbed s.vlenb s.sew vd body R R'

/-- A move of `num` whole registers: the bytes from element vstart on. -/
def Copied (s : VState) (R R' : Regs) (vd vs2 num : Nat) : Prop :=
  (∀ r x, r < num → x < s.vlenb → s.vstart * s.sew ≤ r * s.vlenb + x → R' (vd + r) x = R (vs2 + r) x) ∧
  (∀ r x, r < num → x < s.vlenb → r * s.vlenb + x < s.vstart * s.sew → R' (vd + r) x = R (vd + r) x) ∧
  (∀ r, r < vd ∨ vd + num ≤ r → R' r = R r)

end Verif.VecMove.Spec
