import Verif.VecWiden.Spec

/-!
# Conversions according to IEEE 754 and the vector extension

Uses the vocabulary of `FpFma.Spec`: `val` is the value in units of the least positive
number of the format, `unit` the number of units in 1.
-/

namespace Verif.FpCvt.Spec

open Verif.Fp Verif.FpHost.Spec Verif.FpFma.Spec

/-- The number `a` in the format `g`. -/
def converted {f : Fmt} (g : Fmt) (a : BitVec f.bits) : Expect :=
  if NaN a then .nan
  else if Inf a then .inf a.msb
  else if IsZero a then .zero a.msb
  else .round (val a * unit g) (unit f)

/-- The integer `n` in the format `g`. -/
def ofInt (g : Fmt) (n : Int) : Expect :=
  if n = 0 then .zero false else .round (n * unit g) 1

/-- Rounding to odd: the pattern of `n / m` units, for `p` the last pattern not above:
the number itself if it is one of the format, and otherwise the odd one of its
neighbours; the largest number for those beyond. -/
def oddPat (g : Fmt) (p n m : Nat) : Nat :=
  if p = infPat g then infPat g - 1
  else if scaled g p * m = n then p
  else if p % 2 = 1 then p else p + 1

/-- `r` is `a` rounded to odd. -/
def RoundedToOdd {f g : Fmt} (a : BitVec f.bits) (r : BitVec g.bits) : Prop :=
  if NaN a then NaN r
  else if Inf a then Inf r ∧ r.msb = a.msb
  else r.msb = a.msb ∧ ∃ p, Floor g p (scaled f (pat a) * unit g) (unit f) ∧
    pat r = oddPat g p (scaled f (pat a) * unit g) (unit f)

/-- 2^-126 ≤ |a| < 2^128: `a` is in the range of the normal single precision numbers. -/
def InRange (a : BitVec double.bits) : Prop :=
  unit double ≤ scaled double (pat a) * 2 ^ 126 ∧ scaled double (pat a) < 2 ^ 128 * unit double

end Verif.FpCvt.Spec
