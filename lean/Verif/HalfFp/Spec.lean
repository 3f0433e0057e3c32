import Verif.FpConvert.Spec
/-
Values of floating-point patterns and correct rounding to half precision (IEEE 754, sections 3.3, 4.3, 7.4).
Uses `mag`, `ulp`, `num`, `den`, `Rounded` of the conversion specification: a finite pattern stands for
`num / den`.
-/
namespace Verif.HalfFp.Spec
open Verif.Fp Verif.FpConvert.Spec

/-- Two finite patterns, possibly of different formats, stand for the same number (and the same sign of
zero). -/
def SameValue {f g : Fmt} (u : BitVec f.bits) (v : BitVec g.bits) : Prop :=
  num u * den v = num v * den u ∧ u.msb = v.msb

/-- Infinity, NaN and signalling NaN. -/
def Inf {f : Fmt} (u : BitVec f.bits) : Prop := Special u ∧ u.toNat % 2 ^ f.s = 0
def NaN {f : Fmt} (u : BitVec f.bits) : Prop := Special u ∧ u.toNat % 2 ^ f.s ≠ 0
def Signalling {f : Fmt} (u : BitVec f.bits) : Prop := NaN u ∧ u.getLsbD (f.s - 1) = false
def IsZero {f : Fmt} (u : BitVec f.bits) : Prop := mag u = 0

/-- The exponent of the last place of the half precision numbers near a non-zero value: eleven significant
bits, but never below 2^-24. -/
def quantum {f : Fmt} (u : BitVec f.bits) : Int := max ((Nat.log2 (mag u) : Int) + ulp u) (-14) - 10

/-- The value in units of `2 ^ k`, as a fraction. -/
def unitsNum {f : Fmt} (u : BitVec f.bits) (k : Int) : Int := num u * 2 ^ (-k).toNat
def unitsDen {f : Fmt} (u : BitVec f.bits) (k : Int) : Nat := den u * 2 ^ k.toNat

/-- `z * 2 ^ k` is below the overflow threshold 2^16 in magnitude. -/
def Fits (z : Int) (k : Int) : Prop := z.natAbs * 2 ^ k.toNat < 2 ^ 16 * 2 ^ (-k).toNat

/-- The finite half pattern `h` stands for `z * 2 ^ k`. -/
def Represents (h : BitVec half.bits) (z k : Int) : Prop := num h * 2 ^ (-k).toNat = z * 2 ^ k.toNat * den h

/-- Result of an overflow: infinity, or the largest finite number where the mode rounds towards zero. -/
def overflow (rm : Nat) (neg : Bool) : BitVec half.bits :=
  match rm, neg with
  | 0, false => 0x7c00#16
  | 0, true => 0xfc00#16
  | 1, false => 0x7bff#16
  | 1, true => 0xfbff#16
  | 2, false => 0x7bff#16
  | 2, true => 0xfc00#16
  | 3, false => 0x7c00#16
  | 3, true => 0xfbff#16
  | _, false => 0x7c00#16
  | _, true => 0xfc00#16

/-- `z` is the value rounded to an integer number of quanta. -/
def RoundedTo {f : Fmt} (rm : Nat) (u : BitVec f.bits) (z : Int) : Prop :=
  Rounded rm (unitsNum u (quantum u)) (unitsDen u (quantum u)) z

/-- `h` is the finite, non-zero value `u` correctly rounded to half precision. -/
def Narrowed {f : Fmt} (rm : Nat) (u : BitVec f.bits) (h : BitVec half.bits) : Prop :=
  ∃ z, RoundedTo rm u z
    ∧ (Fits z (quantum u) → ¬ Special h ∧ h.msb = u.msb ∧ Represents h z (quantum u))
    ∧ (¬ Fits z (quantum u) → h = overflow rm u.msb)

/-- The value is not a half precision number (of unbounded exponent range above). -/
def Inexact {f : Fmt} (rm : Nat) (u : BitVec f.bits) : Prop :=
  ∃ z, RoundedTo rm u z ∧ z * unitsDen u (quantum u) ≠ unitsNum u (quantum u)
def Overflows {f : Fmt} (rm : Nat) (u : BitVec f.bits) : Prop := ∃ z, RoundedTo rm u z ∧ ¬ Fits z (quantum u)

/-- Smaller than the smallest normal half precision number, 2^-14, before rounding. -/
def TinyBefore {f : Fmt} (u : BitVec f.bits) : Prop := (Nat.log2 (mag u) : Int) + ulp u < -14

/-- Smaller than 2^-14 after rounding to eleven significant bits with unbounded exponent range: the tininess
the RISC-V ISA prescribes (section 11.2 of the unprivileged manual). -/
def TinyAfter {f : Fmt} (rm : Nat) (u : BitVec f.bits) : Prop :=
  let k := (Nat.log2 (mag u) : Int) + ulp u - 10
  ∃ z, Rounded rm (unitsNum u k) (unitsDen u k) z ∧ z.natAbs * 2 ^ (k + 14).toNat < 2 ^ (-(k + 14)).toNat

end Verif.HalfFp.Spec
