import Verif.VecRed.Spec
/-
Element-wise floating-point minimum, maximum, sign injection and comparison, after chapter 13 of the RISC-V vector
specification.  (`VecRed.Spec.MinMax` is the result of one minimum or maximum.)
-/
namespace Verif.VecFp.Spec
open Verif.Fp Verif.FpClass.Spec

/-- The bits of a sign injection: `b`'s sign (negated, exclusive-ored) on `a`'s magnitude. -/
def SignOf {n : Nat} (neg xor : Bool) (a b r : BitVec n) : Prop :=
  ∀ i, i < n → r.getLsbD i = if i = n - 1 then ((b.getLsbD i != neg) != (xor && a.getLsbD i)) else a.getLsbD i

/-- A comparison of `vs2` (first) with `vs1`: false for NaNs, except "not equal". -/
def Less {f : Fmt} (a b : BitVec f.bits) : Prop := ¬ NaN a ∧ ¬ NaN b ∧ scaled a < scaled b
def Equal {f : Fmt} (a b : BitVec f.bits) : Prop := ¬ NaN a ∧ ¬ NaN b ∧ scaled a = scaled b

/-- The contents of a 64-bit register as a single-precision operand: the low half if the upper half is all ones,
the canonical NaN otherwise. -/
def boxed (reg : BitVec 64) : BitVec 32 := if reg.extractLsb' 32 32 = BitVec.allOnes 32 then reg.setWidth 32 else 0x7fc00000#32

/-- Conditions on which the compares raise the invalid flag: equality for signalling NaNs, order for all NaNs. -/
def Invalid {f : Fmt} (order : Bool) (a b : BitVec f.bits) : Prop :=
  if order then NaN a ∨ NaN b else Is a .sNaN ∨ Is b .sNaN

end Verif.VecFp.Spec
