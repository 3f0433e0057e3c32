import Verif.Fp.Fmt
/-
Rounding a rational to an integer, and what a conversion must return.  From IEEE 754 section 4.3 and the
ISA manual's table of conversion results.
-/
namespace Verif.FpConvert.Spec
open Verif.Fp

/-- Numerator of the value of a finite number (sign included): (-1)^sign * m * 2^k with m the significand
and k its exponent, over `den`. -/
def mag {f : Fmt} (u : BitVec f.bits) : Nat :=
  let exp := (u.toNat / 2 ^ f.s) % 2 ^ f.e
  let frac := u.toNat % 2 ^ f.s
  if exp = 0 then frac else 2 ^ f.s + frac
/-- The exponent of the unit in the last place. -/
def ulp {f : Fmt} (u : BitVec f.bits) : Int :=
  let exp := (u.toNat / 2 ^ f.s) % 2 ^ f.e
  ((if exp = 0 then 1 else exp : Nat) : Int) - (2 ^ (f.e - 1) - 1 : Nat) - (f.s : Int)
/-- Numerator and denominator of the value. -/
def num {f : Fmt} (u : BitVec f.bits) : Int :=
  let m : Int := (mag u : Int) * 2 ^ (ulp u).toNat
  if u.msb then -m else m
def den {f : Fmt} (u : BitVec f.bits) : Nat := 2 ^ (-(ulp u)).toNat

/-- `z` is `n / d` rounded to an integer in the given mode (RISC-V numbering). -/
def Rounded (rm : Nat) (n : Int) (d : Nat) (z : Int) : Prop :=
  match rm with
  | 0 => 2 * (n - z * d).natAbs ≤ d ∧ (2 * (n - z * d).natAbs = d → z % 2 = 0)
  | 1 => (0 ≤ n → z * d ≤ n ∧ n < (z + 1) * d) ∧ (n < 0 → (z - 1) * d < n ∧ n ≤ z * d)
  | 2 => z * d ≤ n ∧ n < (z + 1) * d
  | 3 => (z - 1) * d < n ∧ n ≤ z * d
  | 4 => 2 * (n - z * d).natAbs ≤ d ∧ (2 * (n - z * d).natAbs = d → n.natAbs < (z * d).natAbs)
  | _ => False

/-- The range of the integer type. -/
def lo (bits : Nat) (signed : Bool) : Int := if signed then -2 ^ (bits - 1) else 0
def hi (bits : Nat) (signed : Bool) : Int := if signed then 2 ^ (bits - 1) - 1 else 2 ^ bits - 1

/-- Infinite or not a number. -/
def Special {f : Fmt} (u : BitVec f.bits) : Prop := (u.toNat / 2 ^ f.s) % 2 ^ f.e = 2 ^ f.e - 1
/-- Negative infinity. -/
def NegInf {f : Fmt} (u : BitVec f.bits) : Prop := Special u ∧ u.toNat % 2 ^ f.s = 0 ∧ u.msb = true

/-- The value the ISA prescribes. -/
def Value {f : Fmt} (bits : Nat) (signed : Bool) (rm : Nat) (u : BitVec f.bits) (v : Int) : Prop :=
  (NegInf u → v = lo bits signed) ∧ (Special u → ¬ NegInf u → v = hi bits signed)
  ∧ (¬ Special u → ∃ z, Rounded rm (num u) (den u) z ∧ v = max (lo bits signed) (min z (hi bits signed)))

/-- The flags the ISA prescribes: NV (16) if special or out of range after rounding, else NX (1) if the
value is not an integer, else none. -/
def Flags {f : Fmt} (bits : Nat) (signed : Bool) (rm : Nat) (u : BitVec f.bits) (fl : Nat) : Prop :=
  (Special u → fl = 16)
  ∧ (¬ Special u → ∃ z, Rounded rm (num u) (den u) z
      ∧ ((z < lo bits signed ∨ hi bits signed < z) → fl = 16)
      ∧ (lo bits signed ≤ z → z ≤ hi bits signed → z * den u ≠ num u → fl = 1)
      ∧ (lo bits signed ≤ z → z ≤ hi bits signed → z * den u = num u → fl = 0))

/-- The value lies exactly half way between two integers. -/
def Tie {f : Fmt} (u : BitVec f.bits) : Prop := ∃ k : Int, 2 * num u = (2 * k + 1) * den u

end Verif.FpConvert.Spec
