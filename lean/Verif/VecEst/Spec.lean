import Verif.FpFma.Spec

/-!
# The seven-bit estimates

From the vector extension's description of vfrsqrt7 and vfrec7.  Numbers are in the
units of `FpFma.Spec`.
-/

namespace Verif.VecEst.Spec

open Verif.Fp Verif.FpHost.Spec Verif.FpFma.Spec

variable {f : Fmt}

/-- The magnitude of `x` is `M * 2^(e - 1)` units, where `M` has its leading bit in
place `f.s`: the significand and biased exponent it would have without a lower
bound on exponents. -/
def Norm (x : BitVec f.bits) (M : Nat) (e : Int) : Prop :=
  2 ^ f.s ≤ M ∧ M < 2 ^ (f.s + 1) ∧ scaled f (pat x) * 2 ^ (1 - e).toNat = M * 2 ^ (e - 1).toNat

/-- Significand bits of the reciprocal square root estimate, by the low bit of the
exponent and the six leading significand bits (table of the manual). -/
def rsqrtTable : List Nat := [
  52, 51, 50, 48, 47, 46, 44, 43, 42, 41, 40, 39, 38, 36, 35, 34,
  33, 32, 31, 30, 30, 29, 28, 27, 26, 25, 24, 23, 23, 22, 21, 20,
  19, 19, 18, 17, 16, 16, 15, 14, 14, 13, 12, 12, 11, 10, 10, 9,
  9, 8, 7, 7, 6, 6, 5, 4, 4, 3, 3, 2, 2, 1, 1, 0,
  127, 125, 123, 121, 119, 118, 116, 114, 113, 111, 109, 108, 106, 105, 103, 102,
  100, 99, 97, 96, 95, 93, 92, 91, 90, 88, 87, 86, 85, 84, 83, 82,
  80, 79, 78, 77, 76, 75, 74, 73, 72, 71, 70, 70, 69, 68, 67, 66,
  65, 64, 63, 63, 62, 61, 60, 59, 59, 58, 57, 56, 56, 55, 54, 53]

/-- Significand bits of the reciprocal estimate, by the seven leading bits. -/
def recTable : List Nat := [
  127, 125, 123, 121, 119, 117, 116, 114, 112, 110, 109, 107, 105, 104, 102, 100,
  99, 97, 96, 94, 93, 91, 90, 88, 87, 85, 84, 83, 81, 80, 79, 77,
  76, 75, 74, 72, 71, 70, 69, 68, 66, 65, 64, 63, 62, 61, 60, 59,
  58, 57, 56, 55, 54, 53, 52, 51, 50, 49, 48, 47, 46, 45, 44, 43,
  42, 41, 40, 40, 39, 38, 37, 36, 35, 35, 34, 33, 32, 31, 31, 30,
  29, 28, 28, 27, 26, 25, 25, 24, 23, 23, 22, 21, 21, 20, 19, 19,
  18, 17, 17, 16, 15, 15, 14, 14, 13, 12, 12, 11, 11, 10, 9, 9,
  8, 8, 7, 7, 6, 5, 5, 4, 4, 3, 3, 2, 2, 1, 1, 0]

/-- The table index of a number for the reciprocal square root. -/
def rsqrtIndex (f : Fmt) (M : Nat) (e : Int) : Nat := (e % 2).toNat * 64 + M / 2 ^ (f.s - 6) % 64
def recIndex (f : Fmt) (M : Nat) : Nat := M / 2 ^ (f.s - 7) % 128

/-- The estimate of the reciprocal square root of a positive finite number. -/
def Rsqrt (x r : BitVec f.bits) : Prop :=
  r.msb = false ∧ ∃ M e, Norm x M e ∧
    pat r = ((3 * f.bias - 1 - e) / 2).toNat * 2 ^ f.s +
      rsqrtTable.getD (rsqrtIndex f M e) 0 * 2 ^ (f.s - 7)

/-- The error of a reciprocal square root is below 2^-7: with `r = (1 + ε) / √x`,
`|ε| < 1/128`, that is `127² < 128² r² x < 129²` in units. -/
def RsqrtClose (x r : BitVec f.bits) : Prop :=
  127 ^ 2 * unit f ^ 3 < 128 ^ 2 * (scaled f (pat r) ^ 2 * scaled f (pat x)) ∧
  128 ^ 2 * (scaled f (pat r) ^ 2 * scaled f (pat x)) < 129 ^ 2 * unit f ^ 3

/-- The estimate of the reciprocal of a finite number, not zero: too large when the
exponent of the result exceeds the largest, a subnormal number when it is 0 or -1. -/
def Rec (d : Dir) (x r : BitVec f.bits) : Prop :=
  r.msb = x.msb ∧ ∃ M e, Norm x M e ∧
    let e' := 2 * (f.bias : Int) - 1 - e
    let s := recTable.getD (recIndex f M) 0 * 2 ^ (f.s - 7)
    (2 * (f.bias : Int) < e' →
      pat r = match mode d x.msb with | .down => infPat f - 1 | _ => infPat f) ∧
    (1 ≤ e' → e' ≤ 2 * f.bias → pat r = e'.toNat * 2 ^ f.s + s) ∧
    (e' = 0 → pat r = (2 ^ f.s + s) / 2) ∧
    (e' = -1 → pat r = (2 ^ f.s + s) / 4)

/-- The error of a reciprocal is below 2^-7. -/
def RecClose (x r : BitVec f.bits) : Prop :=
  127 * unit f ^ 2 < 128 * (scaled f (pat r) * scaled f (pat x)) ∧
  128 * (scaled f (pat r) * scaled f (pat x)) < 129 * unit f ^ 2

/-- The result of vfrsqrt7 for every operand. -/
def RsqrtResult (x r : BitVec f.bits) : Prop :=
  if NaN x then r = canonicalNaN f
  else if IsZero x then Inf r ∧ r.msb = x.msb
  else if x.msb then r = canonicalNaN f
  else if Inf x then IsZero r ∧ r.msb = false
  else Rsqrt x r

/-- The flags of vfrsqrt7: invalid for signalling NaNs and negative numbers, division by
zero for zeros. -/
def rsqrtNV (x : BitVec f.bits) : Prop := Signalling x ∨ (¬ NaN x ∧ ¬ IsZero x ∧ x.msb = true)
def rsqrtDZ (x : BitVec f.bits) : Prop := IsZero x

/-- The result of vfrec7 for every operand. -/
def RecResult (d : Dir) (x r : BitVec f.bits) : Prop :=
  if NaN x then r = canonicalNaN f
  else if IsZero x then Inf r ∧ r.msb = x.msb
  else if Inf x then IsZero r ∧ r.msb = x.msb
  else Rec d x r

/-- The reciprocal of a finite number other than zero exceeds the finite numbers. -/
def RecTooLarge (x : BitVec f.bits) : Prop :=
  ¬ NaN x ∧ ¬ Inf x ∧ ¬ IsZero x ∧ ∃ M e, Norm x M e ∧ e < -1

/-- The flags of vfrec7 (NV 16, DZ 8, OF 4, NX 1): invalid for signalling NaNs, division
by zero for zeros, overflow and inexact for results that are too large. -/
def RecFlags (x : BitVec f.bits) (fl : Nat) : Prop :=
  (fl.testBit 4 = true ↔ Signalling x) ∧ (fl.testBit 3 = true ↔ IsZero x) ∧
  (fl.testBit 2 = true ↔ RecTooLarge x) ∧ (fl.testBit 0 = true ↔ RecTooLarge x)

end Verif.VecEst.Spec
