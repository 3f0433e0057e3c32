import Verif.FpFma.Model

/-!
# vfrsqrt7.v and vfrec7.v

riscv_vector_fp_unary_instructions.cc:38-61 (tables), 736-935.  Patterns are natural
numbers below 2^kBitSize.
-/

namespace Verif.VecEst

open Verif.Fp

variable {f : Fmt}

/-- `kRecipSqrtMantissaTable` (riscv_vector_fp_unary_instructions.cc:40-50). -/
def kRecipSqrtMantissaTable : List Nat := [
    52,  51,  50,  48,  47,  46,  44,  43,  42,  41,  40,  39,  38,  36,  35,
    34,  33,  32,  31,  30,  30,  29,  28,  27,  26,  25,  24,  23,  23,  22,
    21,  20,  19,  19,  18,  17,  16,  16,  15,  14,  14,  13,  12,  12,  11,
    10,  10,  9,   9,   8,   7,   7,   6,   6,   5,   4,   4,   3,   3,   2,
    2,   1,   1,   0,   127, 125, 123, 121, 119, 118, 116, 114, 113, 111, 109,
    108, 106, 105, 103, 102, 100, 99,  97,  96,  95,  93,  92,  91,  20,  88,
    87,  86,  85,  84,  83,  82,  80,  79,  78,  77,  76,  75,  74,  73,  72,
    71,  70,  70,  69,  68,  67,  66,  65,  64,  63,  63,  62,  61,  60,  59,
    59,  58,  57,  56,  56,  55,  54,  53]

/-- `kRecipMantissaTable` (riscv_vector_fp_unary_instructions.cc:52-61). -/
def kRecipMantissaTable : List Nat := [
    127, 125, 123, 121, 119, 117, 116, 114, 112, 110, 109, 107, 105, 104, 102,
    100, 99,  97,  96,  94,  93,  91,  90,  88,  87,  85,  84,  83,  81,  80,
    79,  77,  76,  75,  74,  72,  71,  70,  69,  68,  66,  65,  64,  63,  62,
    61,  60,  59,  58,  57,  56,  55,  54,  53,  52,  51,  50,  49,  48,  47,
    46,  45,  44,  43,  42,  41,  40,  40,  39,  38,  37,  36,  35,  35,  34,
    33,  32,  31,  31,  30,  29,  28,  28,  27,  26,  25,  25,  24,  23,  23,
    22,  21,  21,  20,  19,  19,  18,  17,  17,  16,  15,  15,  14,  14,  13,
    12,  12,  11,  11,  10,  9,   9,   8,   8,   7,   7,   6,   5,   5,   4,
    4,   3,   3,   2,   2,   1,   1,   0]

/-- The normalising loop, ended by the leading bit of the fraction; the first argument
bounds the number of rounds (the fraction is not zero, so it is never used up).
Lines 747-753, 844-852. -/
def normLoop (s : Nat) : Nat → Int → Nat → Int × Nat
  | 0, e, m => (e, m)
  | k + 1, e, m => if m.testBit (s - 1) then (e, m) else normLoop s k (e - 1) (m <<< 1)

/-- `norm_exponent` and `norm_mantissa` (lines 742-757, 838-856). -/
def normalise (u : BitVec f.bits) : Int × Nat :=
  if expField u = 0 then
    let (e, m) := normLoop f.s f.s 0 (sigField u)
    (e, m <<< 1)
  else (expField u, sigField u)

/-- `RecipSqrt7` (lines 736-766): the pattern of the result.  `norm_exponent & 1` is the
residue modulo 2, also for negative exponents. -/
def recipSqrt7 (u : BitVec f.bits) : Nat :=
  let (e, m) := normalise u
  let index := (e % 2).toNat <<< 6 ||| (m >>> (f.s - 6)) &&& 63
  let newMantissa := kRecipSqrtMantissaTable.getD index 0 <<< (f.s - 7)
  let newExponent := ((3 * (f.bias : Int) - 1 - e).tdiv 2).toNat
  newExponent <<< f.s ||| newMantissa

/-- FPExceptions. -/
def NX : Nat := 1
def OF : Nat := 4
def DZ : Nat := 8
def NV : Nat := 16

/-- A pattern with a sign. -/
def signed (neg : Bool) (p : Nat) : BitVec f.bits :=
  BitVec.ofNat f.bits (if neg then 2 ^ (f.e + f.s) + p else p)
/-- Pattern of infinity. -/
def infinity (f : Fmt) : Nat := (2 ^ f.e - 1) * 2 ^ f.s

/-- `RecipSqrt7Helper` (lines 768-803). -/
def vfrsqrt7 (u : BitVec f.bits) : BitVec f.bits × Nat :=
  if isInf u then (if u.msb then canonicalNaN f else signed false 0, NV)
  else if isNaN u then (canonicalNaN f, NV)
  else if isZero u then (signed u.msb (infinity f), DZ)
  else if u.msb then (canonicalNaN f, NV)
  else (signed false (recipSqrt7 u), 0)

/-- `Recip7` (lines 832-893): the result.  The rounding modes are numbered as in frm. -/
def recip7 (rm : Nat) (u : BitVec f.bits) : BitVec f.bits :=
  let (e, m) := normalise u
  let newExponent := 2 * (f.bias : Int) - 1 - e
  if 2 * (f.bias : Int) < newExponent then
    match rm with
    | 2 => if u.msb then signed true (infinity f) else signed false (infinity f - 1)
    | 1 => if u.msb then signed true (infinity f - 1) else signed false (infinity f - 1)
    | 4 | 0 => if u.msb then signed true (infinity f) else signed false (infinity f)
    | 3 => if u.msb then signed true (infinity f - 1) else signed false (infinity f)
    | _ => canonicalNaN f
  else
    let index := (m >>> (f.s - 7)) &&& 127
    let newMantissa := kRecipMantissaTable.getD index 0 <<< (f.s - 7)
    if newExponent ≤ 0 then
      let newMantissa := newMantissa >>> 1 ||| 64
      let newMantissa := if newExponent < 0 then newMantissa >>> 1 else newMantissa
      signed u.msb (newMantissa &&& 127)
    else signed u.msb (newExponent.toNat <<< f.s ||| newMantissa)

/-- `Recip7Helper` (lines 895-916) in `Vfrec7v` (918-939): no flags are raised. -/
def vfrec7 (rm : Nat) (u : BitVec f.bits) : BitVec f.bits × Nat :=
  if isInf u then (signed u.msb 0, 0)
  else if isNaN u then (canonicalNaN f, 0)
  else if isZero u then (signed u.msb (infinity f), 0)
  else (recip7 rm u, 0)

end Verif.VecEst
