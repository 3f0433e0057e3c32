import Verif.Fp.Fmt
import Verif.FpHost.Spec

/-!
# Fused multiply-add according to IEEE 754

A bit pattern is a sign and a magnitude pattern.  The magnitude patterns below
that of infinity are the finite numbers in increasing order, so the neighbours of
a number are the neighbouring patterns, and the even one of two neighbours is the
one with the even pattern.  Finite values are whole multiples of the least
positive number of the format; `scaled` is that multiple.
-/

namespace Verif.FpFma.Spec

open Verif.Fp Verif.FpHost.Spec

/-- The magnitude pattern: all bits but the sign. -/
def pat {f : Fmt} (u : BitVec f.bits) : Nat := u.toNat % 2 ^ (f.e + f.s)

/-- The pattern of infinity. -/
def infPat (f : Fmt) : Nat := (2 ^ f.e - 1) * 2 ^ f.s

def NaN {f : Fmt} (u : BitVec f.bits) : Prop := infPat f < pat u
def Inf {f : Fmt} (u : BitVec f.bits) : Prop := pat u = infPat f
def IsZero {f : Fmt} (u : BitVec f.bits) : Prop := pat u = 0

instance {f : Fmt} (u : BitVec f.bits) : Decidable (NaN u) := inferInstanceAs (Decidable (_ < _))
instance {f : Fmt} (u : BitVec f.bits) : Decidable (Inf u) := inferInstanceAs (Decidable (_ = _))
instance {f : Fmt} (u : BitVec f.bits) : Decidable (IsZero u) := inferInstanceAs (Decidable (_ = _))

/-- The magnitude of a pattern in units of the least positive number.  (Infinity
counts as the number that would come next.) -/
def scaled (f : Fmt) (p : Nat) : Nat :=
  if p / 2 ^ f.s = 0 then p else (2 ^ f.s + p % 2 ^ f.s) * 2 ^ (p / 2 ^ f.s - 1)

/-- The number of units in 1. -/
def unit (f : Fmt) : Nat := 2 ^ (f.bias + f.s - 1)

/-- The value in units. -/
def val {f : Fmt} (u : BitVec f.bits) : Int :=
  if u.msb then -(scaled f (pat u) : Int) else scaled f (pat u)

/-- How a magnitude is rounded. -/
inductive Mode where
  | nearestEven | nearestAway | down | up

/-- Rounding a signed number rounds its magnitude. -/
def mode (d : Dir) (neg : Bool) : Mode :=
  match d with
  | .nearestEven => .nearestEven
  | .nearestAway => .nearestAway
  | .towardZero => .down
  | .down => if neg then .up else .down
  | .up => if neg then .down else .up

/-- `q` is the pattern `n / m` units are rounded to, for `n / m` between the
numbers of pattern `p` (included) and `p + 1`, or above all numbers when `p` is
infinity. -/
def roundPat (f : Fmt) (o : Mode) (p n m : Nat) : Nat :=
  match o with
  | .down => if p = infPat f then infPat f - 1 else p
  | .up => if p = infPat f ∨ scaled f p * m = n then p else p + 1
  | .nearestEven =>
    if p = infPat f then p
    else if 2 * n < (scaled f p + scaled f (p + 1)) * m then p
    else if (scaled f p + scaled f (p + 1)) * m < 2 * n then p + 1
    else if p % 2 = 0 then p else p + 1
  | .nearestAway =>
    if p = infPat f then p
    else if 2 * n < (scaled f p + scaled f (p + 1)) * m then p else p + 1

/-- `p` is the last pattern whose number is not above `n / m`. -/
def Floor (f : Fmt) (p n m : Nat) : Prop :=
  p ≤ infPat f ∧ scaled f p * m ≤ n ∧ (p ≠ infPat f → n < scaled f (p + 1) * m)

/-- What the result of an operation must be. -/
inductive Expect where
  | nan
  | inf (neg : Bool)
  | zero (neg : Bool)
  /-- `n / m` units, not zero, rounded -/
  | round (n : Int) (m : Nat)

/-- The result is as expected, rounding in direction `d`. -/
def Meets {f : Fmt} (d : Dir) (x : Expect) (r : BitVec f.bits) : Prop :=
  match x with
  | .nan => NaN r
  | .inf neg => Inf r ∧ r.msb = neg
  | .zero neg => IsZero r ∧ r.msb = neg
  | .round n m =>
    r.msb = decide (n < 0) ∧
      ∃ p, Floor f p n.natAbs m ∧ pat r = roundPat f (mode d (decide (n < 0))) p n.natAbs m

/-- `x` or its negation. -/
def neg? (b : Bool) (x : Int) : Int := if b then -x else x

/-- The sum of a product and a number, either of them negated (`np`, `nc`).  An
exact zero that is not the sum of two zeros of one sign is negative only when
rounding down. -/
def fma {f : Fmt} (d : Dir) (np nc : Bool) (a b c : BitVec f.bits) : Expect :=
  let ps := np ^^ (a.msb ^^ b.msb)
  let cs := nc ^^ c.msb
  let n := neg? np (val a * val b) + neg? nc (val c) * unit f
  if NaN a ∨ NaN b ∨ NaN c then .nan
  else if (Inf a ∧ IsZero b) ∨ (IsZero a ∧ Inf b) then .nan
  else if Inf a ∨ Inf b then if Inf c ∧ cs ≠ ps then .nan else .inf ps
  else if Inf c then .inf cs
  else if n ≠ 0 then .round n (unit f)
  else .zero (if ps = cs then cs else decide (d = .down))

/-- A product. -/
def mul {f : Fmt} (a b : BitVec f.bits) : Expect :=
  let ps := a.msb ^^ b.msb
  if NaN a ∨ NaN b then .nan
  else if (Inf a ∧ IsZero b) ∨ (IsZero a ∧ Inf b) then .nan
  else if Inf a ∨ Inf b then .inf ps
  else if val a * val b ≠ 0 then .round (val a * val b) (unit f)
  else .zero ps

/-- The four instructions: is the product negated, is the addend negated. -/
inductive Op where
  | madd | msub | nmadd | nmsub
  deriving DecidableEq, Repr

def Op.negProduct : Op → Bool
  | .madd | .msub => false
  | .nmadd | .nmsub => true

def Op.negAddend : Op → Bool
  | .madd | .nmsub => false
  | .msub | .nmadd => true

/-- What a fused multiply-add instruction must return: the expected number, and
the canonical NaN for every NaN. -/
def Correct {f : Fmt} (d : Dir) (o : Op) (a b c r : BitVec f.bits) : Prop :=
  Meets d (fma d o.negProduct o.negAddend a b c) r ∧ (NaN r → r = canonicalNaN f)

/-- The invalid flag must be raised by a signalling operand, by infinity times
zero, and by a sum of opposite infinities. -/
def Signalling {f : Fmt} (u : BitVec f.bits) : Prop := NaN u ∧ u.getLsbD (f.s - 1) = false

end Verif.FpFma.Spec
