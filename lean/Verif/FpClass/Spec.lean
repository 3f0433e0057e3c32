import Verif.Fp.Fmt
/-
IEEE classes, signs and order, written from the standard.
-/
namespace Verif.FpClass.Spec
open Verif.Fp

variable {f : Fmt}

/-- Fields by bit position. -/
def sign (u : BitVec f.bits) : Bool := u.msb
/-- Exponent field all zeros / all ones. -/
def ExpZero (u : BitVec f.bits) : Prop := ∀ i, f.s ≤ i → i < f.s + f.e → u.getLsbD i = false
def ExpOnes (u : BitVec f.bits) : Prop := ∀ i, f.s ≤ i → i < f.s + f.e → u.getLsbD i = true
/-- Fraction all zeros. -/
def FracZero (u : BitVec f.bits) : Prop := ∀ i, i < f.s → u.getLsbD i = false
/-- Quiet bit. -/
def quiet (u : BitVec f.bits) : Bool := u.getLsbD (f.s - 1)

/-- The ten classes of fclass, with the bit the manual assigns to each. -/
inductive Class
  | negInf | negNormal | negSubnormal | negZero | posZero | posSubnormal | posNormal | posInf | sNaN | qNaN
  deriving DecidableEq, Repr

/-- Table "Format of result of FCLASS instruction". -/
def Class.bit : Class → Nat
  | .negInf => 0 | .negNormal => 1 | .negSubnormal => 2 | .negZero => 3 | .posZero => 4
  | .posSubnormal => 5 | .posNormal => 6 | .posInf => 7 | .sNaN => 8 | .qNaN => 9

/-- Membership, from the definition of the format. -/
def Is (u : BitVec f.bits) : Class → Prop
  | .negInf => ExpOnes u ∧ FracZero u ∧ sign u = true
  | .posInf => ExpOnes u ∧ FracZero u ∧ sign u = false
  | .sNaN => ExpOnes u ∧ ¬ FracZero u ∧ quiet u = false
  | .qNaN => ExpOnes u ∧ ¬ FracZero u ∧ quiet u = true
  | .negZero => ExpZero u ∧ FracZero u ∧ sign u = true
  | .posZero => ExpZero u ∧ FracZero u ∧ sign u = false
  | .negSubnormal => ExpZero u ∧ ¬ FracZero u ∧ sign u = true
  | .posSubnormal => ExpZero u ∧ ¬ FracZero u ∧ sign u = false
  | .negNormal => ¬ ExpZero u ∧ ¬ ExpOnes u ∧ sign u = true
  | .posNormal => ¬ ExpZero u ∧ ¬ ExpOnes u ∧ sign u = false

/-- NaNs. -/
def NaN (u : BitVec f.bits) : Prop := Is u .sNaN ∨ Is u .qNaN

/-- The value of a finite number times 2^(bias - 1 + s), an integer: (-1)^sign * (frac or 1.frac) * 2^exp.
Infinities get an integer larger in magnitude than every finite number's. -/
def scaled (u : BitVec f.bits) : Int :=
  let exp := (u.toNat / 2 ^ f.s) % 2 ^ f.e
  let frac := u.toNat % 2 ^ f.s
  let m : Int := if exp = 0 then (frac : Int) else ((2 ^ f.s + frac : Nat) : Int) * 2 ^ (exp - 1)
  if sign u then -m else m

/-- The order used by fmin/fmax: by value, and -0 before +0. -/
def Before (a b : BitVec f.bits) : Prop :=
  scaled a < scaled b ∨ (scaled a = scaled b ∧ (sign a = true ∨ sign b = false))

end Verif.FpClass.Spec
