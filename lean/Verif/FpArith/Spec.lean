import Verif.FpFma.Spec

/-!
# Sums, quotients, square roots and the invalid flag according to IEEE 754

Uses the vocabulary of `FpFma.Spec`: patterns, values in units, expectations.
-/

namespace Verif.FpArith.Spec

open Verif.Fp Verif.FpHost.Spec Verif.FpFma.Spec

variable {f : Fmt}

/-- The sum of `a` and `c`, the latter negated if `nc`. -/
def add (d : Dir) (nc : Bool) (a c : BitVec f.bits) : Expect :=
  let cs := nc ^^ c.msb
  let n := val a + neg? nc (val c)
  if NaN a ∨ NaN c then .nan
  else if Inf a then if Inf c ∧ a.msb ≠ cs then .nan else .inf a.msb
  else if Inf c then .inf cs
  else if n ≠ 0 then .round n 1
  else .zero (if a.msb = cs then cs else decide (d = .down))

/-- The quotient of `a` by `b`. -/
def div (a b : BitVec f.bits) : Expect :=
  let s := a.msb ^^ b.msb
  if NaN a ∨ NaN b then .nan
  else if (Inf a ∧ Inf b) ∨ (IsZero a ∧ IsZero b) then .nan
  else if Inf a ∨ IsZero b then .inf s
  else if Inf b ∨ IsZero a then .zero s
  else .round (neg? s ((val a).natAbs * unit f)) (val b).natAbs

/-- The pattern the square root of `n` square units is rounded to, when it lies
between the numbers of patterns `p` (included) and `p + 1`. -/
def sqrtPat (f : Fmt) (o : Mode) (p n : Nat) : Nat :=
  match o with
  | .down => p
  | .up => if scaled f p ^ 2 = n then p else p + 1
  | .nearestEven =>
    if 4 * n < (scaled f p + scaled f (p + 1)) ^ 2 then p
    else if (scaled f p + scaled f (p + 1)) ^ 2 < 4 * n then p + 1
    else if p % 2 = 0 then p else p + 1
  | .nearestAway => if 4 * n < (scaled f p + scaled f (p + 1)) ^ 2 then p else p + 1

/-- `r` is the correctly rounded square root of the positive number `a`. -/
def SqrtRounded (d : Dir) (a r : BitVec f.bits) : Prop :=
  r.msb = false ∧ ∃ p, scaled f p ^ 2 ≤ scaled f (pat a) * unit f ∧
    scaled f (pat a) * unit f < scaled f (p + 1) ^ 2 ∧
    pat r = sqrtPat f (mode d false) p (scaled f (pat a) * unit f)

/-- `r` is the square root of `a`: NaN for a NaN or a negative number, but −0 for −0. -/
def Sqrt (d : Dir) (a r : BitVec f.bits) : Prop :=
  if NaN a then NaN r
  else if IsZero a then r = a
  else if a.msb then NaN r
  else if Inf a then Inf r ∧ r.msb = false
  else SqrtRounded d a r

/-! ### When the invalid flag must be raised -/

/-- A square root: a signalling NaN, or a negative number other than −0. -/
def SqrtInvalid (a : BitVec f.bits) : Prop :=
  Signalling a ∨ (¬ NaN a ∧ ¬ IsZero a ∧ a.msb = true)

/-- Infinity times zero. -/
def InfZero (a b : BitVec f.bits) : Prop := (Inf a ∧ IsZero b) ∨ (IsZero a ∧ Inf b)

/-- Infinite product and infinite addend of opposite signs. -/
def InfMinusInf (o : FpFma.Spec.Op) (a b c : BitVec f.bits) : Prop :=
  ¬ NaN a ∧ ¬ NaN b ∧ (Inf a ∨ Inf b) ∧ Inf c ∧
    (o.negProduct ^^ (a.msb ^^ b.msb)) ≠ (o.negAddend ^^ c.msb)

/-- A fused multiply-add: a signalling NaN, infinity times zero (whatever the
addend, as RISC-V prescribes), or infinities that cancel. -/
def FmaInvalid (o : FpFma.Spec.Op) (a b c : BitVec f.bits) : Prop :=
  Signalling a ∨ Signalling b ∨ Signalling c ∨ InfZero a b ∨ InfMinusInf o a b c

/-- A product. -/
def MulInvalid (a b : BitVec f.bits) : Prop := Signalling a ∨ Signalling b ∨ InfZero a b

end Verif.FpArith.Spec
