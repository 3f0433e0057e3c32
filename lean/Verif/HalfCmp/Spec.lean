import Verif.FpClass.Spec
/-!
# Comparing half-precision numbers in 64-bit registers

A register holds a half-precision number if its upper 48 bits are ones; otherwise it counts as
the canonical NaN. Numbers compare by value, with the infinities at the ends and the zeros equal; NaNs
compare false. The values are `FpClass.Spec.scaled`.
-/

namespace Verif.HalfCmp.Spec
open Verif.Fp Verif.FpClass.Spec

/-- The upper 48 bits are ones. -/
def Boxed (r : BitVec 64) : Prop := ∀ i, 16 ≤ i → i < 64 → r.getLsbD i = true

/-- The half-precision operand in a register. -/
def Holds (r : BitVec 64) (u : BitVec half.bits) : Prop :=
  (Boxed r → ∀ i, i < 16 → u.getLsbD i = r.getLsbD i) ∧ (¬ Boxed r → u.toNat = 0x7e00)

/-- The comparison `rel` of two operands. -/
def Compare (rel : Int → Int → Prop) (a b : BitVec half.bits) : Prop :=
  ¬ NaN a ∧ ¬ NaN b ∧ rel (scaled a) (scaled b)

/-- 1 if it holds, else 0. -/
def IsFlag {w : Nat} (x : BitVec w) (p : Prop) : Prop := (p → x = 1#w) ∧ (¬ p → x = 0#w)

end Verif.HalfCmp.Spec
