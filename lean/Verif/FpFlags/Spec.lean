import Verif.FpArith.Spec

/-!
# The five flags according to IEEE 754 and the manual

Uses the expectations of `FpFma.Spec`.
-/

namespace Verif.FpFlags.Spec

open Verif.Fp Verif.FpHost.Spec Verif.FpFma.Spec Verif.FpArith.Spec

variable {f : Fmt}

/-- The number is too large: above all finite numbers, or rounded (with exponents unbounded) to what
would come after them. -/
def Overflows (f : Fmt) (d : Dir) : Expect → Prop
  | .round n m => ∃ p, Floor f p n.natAbs m ∧
      (p = infPat f ∨ roundPat f (mode d (decide (n < 0))) p n.natAbs m = infPat f)
  | _ => False

/-- The number is not in the format. -/
def Inexact (f : Fmt) : Expect → Prop
  | .round n m => ∃ p, Floor f p n.natAbs m ∧ (p = infPat f ∨ scaled f p * m ≠ n.natAbs)
  | _ => False

/-- A magnitude of `n / m` units is below the least normal number, which is `2 ^ f.s` units.  With `after`
this is decided after rounding to the precision of the format with exponents unbounded, as RISC-V
prescribes: the number before the least normal one is then half a unit below it. -/
def Tiny (f : Fmt) (after : Bool) (o : Mode) (n m : Nat) : Prop :=
  if after then
    match o with
    | .down => n < 2 ^ f.s * m
    | .up => 2 * n ≤ (2 ^ (f.s + 1) - 1) * m
    | .nearestEven | .nearestAway => 4 * n < (2 ^ (f.s + 2) - 1) * m
  else n < 2 ^ f.s * m

/-- The number is tiny and not in the format. -/
def Underflows (f : Fmt) (after : Bool) (d : Dir) : Expect → Prop
  | .round n m => Tiny f after (mode d (decide (n < 0))) n.natAbs m ∧ Inexact f (.round n m)
  | _ => False

/-- The flags `fl` are right for an operation with the expectation `x`, which is invalid if `nv` and a
division by zero if `dz`. -/
structure Flags (f : Fmt) (after : Bool) (d : Dir) (x : Expect) (nv dz : Prop) (fl : BitVec 5) : Prop where
  nv : fl.getLsbD 4 = true ↔ nv
  dz : fl.getLsbD 3 = true ↔ dz
  of : fl.getLsbD 2 = true ↔ Overflows f d x
  uf : fl.getLsbD 1 = true ↔ Underflows f after d x
  nx : fl.getLsbD 0 = true ↔ Inexact f x

/-- A sum, the second operand negated if `nc`, is invalid. -/
def AddInvalid (nc : Bool) (a b : BitVec f.bits) : Prop :=
  Signalling a ∨ Signalling b ∨ (Inf a ∧ Inf b ∧ a.msb ≠ (nc ^^ b.msb))

/-- A quotient is invalid. -/
def DivInvalid (a b : BitVec f.bits) : Prop :=
  Signalling a ∨ Signalling b ∨ (Inf a ∧ Inf b) ∨ (IsZero a ∧ IsZero b)

/-- A quotient of a finite number other than zero and zero. -/
def DivByZero (a b : BitVec f.bits) : Prop := ¬ NaN a ∧ ¬ Inf a ∧ ¬ IsZero a ∧ IsZero b

/-- The square root is a number that is not in the format. -/
def SqrtInexact (a : BitVec f.bits) : Prop :=
  ¬ NaN a ∧ ¬ Inf a ∧ a.msb = false ∧ ∀ p, scaled f p ^ 2 ≠ scaled f (pat a) * unit f

/-- The flags of a square root, which never overflows or underflows. -/
structure SqrtFlags (a : BitVec f.bits) (fl : BitVec 5) : Prop where
  nv : fl.getLsbD 4 = true ↔ SqrtInvalid a
  dz : fl.getLsbD 3 = false
  of : fl.getLsbD 2 = false
  uf : fl.getLsbD 1 = false
  nx : fl.getLsbD 0 = true ↔ SqrtInexact a

/-- The operations of two numbers. -/
inductive BinOp where
  | add | sub | mul | div
  deriving DecidableEq, Repr

/-- What a binary operation must give. -/
def expect (o : BinOp) (d : Dir) (a b : BitVec f.bits) : Expect :=
  match o with
  | .add => FpArith.Spec.add d false a b
  | .sub => FpArith.Spec.add d true a b
  | .mul => FpFma.Spec.mul a b
  | .div => FpArith.Spec.div a b

/-- When it is invalid. -/
def invalid (o : BinOp) (a b : BitVec f.bits) : Prop :=
  match o with
  | .add => AddInvalid false a b
  | .sub => AddInvalid true a b
  | .mul => MulInvalid a b
  | .div => DivInvalid a b

/-- When it is a division by zero. -/
def byZero (o : BinOp) (a b : BitVec f.bits) : Prop :=
  match o with
  | .div => DivByZero a b
  | _ => False

end Verif.FpFlags.Spec
