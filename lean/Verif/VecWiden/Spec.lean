import Verif.FpFma.Spec

/-!
# Widening arithmetic: one rounding of the exact result

Uses the vocabulary of `FpFma.Spec`: `val` is the value in units of the least positive
number of the format, `unit` the number of units in 1.  A result `n / m` is in units of
the double format.
-/

namespace Verif.VecWiden.Spec

open Verif.Fp Verif.FpHost.Spec Verif.FpFma.Spec

/-- The two patterns, of different formats, stand for the same number or infinity, or
are both NaN. -/
def Same {f g : Fmt} (u : BitVec f.bits) (v : BitVec g.bits) : Prop :=
  (NaN u ↔ NaN v) ∧ (Inf u ↔ Inf v) ∧
    (¬ NaN u → v.msb = u.msb ∧ (¬ Inf u → val v * unit f = val u * unit g))

/-- The sum of two single precision numbers, the second negated if `nc`. -/
def add (d : Dir) (nc : Bool) (a c : BitVec single.bits) : Expect :=
  let cs := nc ^^ c.msb
  let n := val a + neg? nc (val c)
  if NaN a ∨ NaN c then .nan
  else if Inf a then if Inf c ∧ a.msb ≠ cs then .nan else .inf a.msb
  else if Inf c then .inf cs
  else if n ≠ 0 then .round (n * unit double) (unit single)
  else .zero (if a.msb = cs then cs else decide (d = .down))

/-- The sum of a double and a single precision number, the latter negated if `nc`. -/
def addw (d : Dir) (nc : Bool) (a : BitVec double.bits) (c : BitVec single.bits) : Expect :=
  let cs := nc ^^ c.msb
  let n := val a * unit single + neg? nc (val c) * unit double
  if NaN a ∨ NaN c then .nan
  else if Inf a then if Inf c ∧ a.msb ≠ cs then .nan else .inf a.msb
  else if Inf c then .inf cs
  else if n ≠ 0 then .round n (unit single)
  else .zero (if a.msb = cs then cs else decide (d = .down))

/-- The product of two single precision numbers. -/
def mul (a b : BitVec single.bits) : Expect :=
  let ps := a.msb ^^ b.msb
  if NaN a ∨ NaN b then .nan
  else if (Inf a ∧ IsZero b) ∨ (IsZero a ∧ Inf b) then .nan
  else if Inf a ∨ Inf b then .inf ps
  else if val a * val b ≠ 0 then .round (val a * val b * unit double) (unit single ^ 2)
  else .zero ps

/-- The product of two single precision numbers, negated if `np`, plus a double precision
number, negated if `nc`: rounded once. -/
def fma (d : Dir) (np nc : Bool) (a b : BitVec single.bits) (c : BitVec double.bits) : Expect :=
  let ps := np ^^ (a.msb ^^ b.msb)
  let cs := nc ^^ c.msb
  let n := neg? np (val a * val b) * unit double + neg? nc (val c) * (unit single ^ 2 : Nat)
  if NaN a ∨ NaN b ∨ NaN c then .nan
  else if (Inf a ∧ IsZero b) ∨ (IsZero a ∧ Inf b) then .nan
  else if Inf a ∨ Inf b then if Inf c ∧ cs ≠ ps then .nan else .inf ps
  else if Inf c then .inf cs
  else if n ≠ 0 then .round n (unit single ^ 2)
  else .zero (if ps = cs then cs else decide (d = .down))

end Verif.VecWiden.Spec
