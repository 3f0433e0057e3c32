import Verif.FpArith.Spec

/-!
# Half precision arithmetic according to IEEE 754

Sums, products, quotients, square roots and fused multiply-adds of half precision
numbers must be as `FpArith.Spec` and `FpFma.Spec` say for that format: the exact
result rounded once.
-/

namespace Verif.HalfArith.Spec

open Verif.Fp Verif.FpHost.Spec Verif.FpFma.Spec

/-- The integer `n` as a half precision number. -/
def ofInt (n : Int) : Expect := if n = 0 then .zero false else .round (n * unit half) 1

/-- The host's conversion of integers of 32 and 64 bits to single precision is
correct. -/
def HostInt (conv : Dir → Int → BitVec single.bits) : Prop :=
  ∀ d (n : Int), n.natAbs ≤ 2 ^ 64 →
    Meets d (if n = 0 then .zero false else .round (n * unit single) 1) (conv d n)

/-- The exact result of a fused multiply-add, in half precision units of `unit half`
parts, has no more than 24 significant bits. -/
def Short (o : Op) (a b c : BitVec half.bits) : Prop :=
  ∃ s k, s < 2 ^ 24 ∧
    (neg? o.negProduct (val a * val b) + neg? o.negAddend (val c) * unit half).natAbs = s * 2 ^ k

end Verif.HalfArith.Spec
