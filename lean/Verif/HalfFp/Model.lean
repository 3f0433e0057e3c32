import Verif.Fp.Fmt
/-
Conversions between half precision and single / double precision.
riscv/riscv_zfh_instructions.cc:87-292.
-/
namespace Verif.HalfFp
open Verif.Fp

/-- FPExceptions: kInexact, kUnderflow, kOverflow, kInvalidOp.  riscv/riscv_fp_info.h:33-41. -/
def NX : Nat := 1
def UF : Nat := 2
def OF : Nat := 4
def NV : Nat := 16

/-- Arithmetic in UIntType (uint32_t / uint64_t). -/
def wrap (w : Nat) (z : Int) : Nat := (z % 2 ^ w).toNat

/-- numeric_limits::digits - countl_zero: position of the highest set bit plus one. -/
def bitLen (n : Nat) : Nat := if n = 0 then 0 else Nat.log2 n + 1

/-- ConvertFromHalfFP<T>: the pattern and the flags or-ed into fflags.  zfh.cc:88-139. -/
def widen (g : Fmt) (u : BitVec half.bits) : BitVec g.bits × Nat :=
  let sign := (signBit u).toNat
  if isNaN u then (canonicalNaN g, if isSNaN u then NV else 0)                      -- 94-100
  else if isInf u then (posInf g ||| BitVec.ofNat g.bits (sign <<< (g.bits - 1)), 0)  -- 102-107
  else if u.toNat = 0 ∨ u.toNat = 1 <<< 15 then
    (BitVec.ofNat g.bits (u.toNat <<< (g.bits - 16)), 0)                            -- 109-114
  else
    let shift := (1 + half.s : Int) - bitLen (sigField u)                           -- 127-129
    let sub := expField u = 0 ∧ sigField u ≠ 0
    let sig := if sub then (sigField u <<< shift.toNat) &&& (2 ^ half.s - 1) else sigField u  -- 130
    let exp : Int := if sub then 1 - shift else expField u                          -- 131
    (BitVec.ofNat g.bits (sign <<< (g.bits - 1)
      ||| wrap g.bits (exp + g.bias - half.bias) <<< g.s
      ||| sig <<< (g.s - half.s)), 0)                                               -- 133-138

/-- Host rounding of `a / 2 ^ k` to an integer.  Dividing a number with the smallest normal exponent by a
power of two gives a subnormal (or the smallest normal) result, so the host rounds to a multiple of the
smallest subnormal: host division is modelled by this integer rounding.  The host has no mode
round-to-nearest-ties-to-max and uses ties-to-even for it (C36).  rm as in riscv_fp_info.h:26-31. -/
def hostRound (rm : Nat) (sign : Bool) (a k : Nat) : Nat :=
  let q := a / 2 ^ k
  let r := a % 2 ^ k
  let up : Bool := match rm with
    | 1 => false
    | 2 => sign && r != 0
    | 3 => !sign && r != 0
    | _ => decide (2 * r > 2 ^ k) || (decide (2 * r = 2 ^ k) && q % 2 == 1)
  if up then q + 1 else q

/-- unbounded_half_exponent.  zfh.cc:180-181. -/
def unbounded (f : Fmt) (exponent : Nat) : Int := exponent - ((f.bias : Int) - half.bias)

/-- The exponent of the divisor, less the bias: the amount shifted right.  zfh.cc:180-203. -/
def shiftAmount (f : Fmt) (exponent : Nat) : Nat :=
  let biasDiff : Int := (f.bias : Int) - half.bias
  let dflt := f.bias + (f.s - half.s)
  let fdivExp : Nat :=
    if unbounded f exponent > 0 then dflt
    else if unbounded f exponent < 0 then min (wrap f.bits (dflt + (1 - (exponent : Int) + biasDiff))) (2 ^ f.e - 1 - 1)
    else dflt + 1
  fdivExp - f.bias

/-- The finite, non-zero case up to the overflow check: half exponent, half mantissa (zfh.cc:188-237) and
whether fres2 != ftmp.  `res` and `res2` are the bit patterns (without sign) of the quotient and of its
product with 2^sig_size_diff, which is exact. -/
def mid (f : Fmt) (rm : Nat) (sign : Bool) (exponent mantissa : Nat) : Nat × Nat × Bool :=
  let diff := f.s - half.s
  let ftmp := 1 <<< f.s ||| mantissa                                              -- 188-190
  let res := hostRound rm sign ftmp (shiftAmount f exponent)                      -- 207-208
  let res2 := res * 2 ^ diff                                                      -- 211-213
  let expDiff : Int := (((res2 >>> f.s) &&& (2 ^ f.e - 1) : Nat) : Int) - 1       -- 216-218
  let newExponent := wrap f.bits (exponent + expDiff) &&& (2 ^ f.e - 1)           -- 219
  let he0 : Nat :=
    if unbounded f exponent > 0 then wrap f.bits (newExponent - ((f.bias : Int) - half.bias))
    else if unbounded f exponent < 0 then 0
    else (res2 >>> f.s) &&& (2 ^ half.e - 1)                                      -- 221-229
  let hm0 : Nat :=
    if unbounded f exponent < 0 then
      if res &&& (1 <<< half.s) ≠ 0 then (res >>> 1) &&& (2 ^ half.s - 1) else res &&& (2 ^ half.s - 1)
    else (res2 >>> diff) &&& (2 ^ half.s - 1)                                     -- 231-237
  (he0, hm0, res2 != ftmp)

/-- Whether an overflow gives the largest finite number rather than infinity.  zfh.cc:244-266. -/
def overflowToMax (rm : Nat) (sign : Bool) : Bool :=
  match rm with
  | 1 => true
  | 2 => !sign
  | 3 => sign
  | _ => false

/-- Overflow handling and packing.  zfh.cc:241-272. -/
def packHalf (rm : Nat) (sign : Bool) (he0 hm0 : Nat) : BitVec half.bits :=
  let ovf := he0 ≥ 2 ^ half.e - 1
  let he := if ovf then (if overflowToMax rm sign then 2 ^ half.e - 2 else 2 ^ half.e - 1) else he0
  let hm := if ovf then (if overflowToMax rm sign then 2 ^ half.s - 1 else 0) else hm0
  BitVec.ofNat half.bits (hm ||| he <<< half.s ||| sign.toNat <<< (half.bits - 1))

/-- The flags of the finite, non-zero case.  zfh.cc:242-243, 279-288. -/
def narrowFlags (he0 : Nat) (unb : Int) (exact changed : Bool) : Nat :=
  let fl0 := if he0 ≥ 2 ^ half.e - 1 then OF ||| NX else 0
  let fl1 := if !exact ∧ (unb < 0 ∨ (unb = 0 ∧ changed)) then fl0 ||| UF else fl0
  if !exact ∧ changed then fl1 ||| NX else fl1

/-- ConvertToHalfFP<T>: result and the flags or-ed into fflags.  zfh.cc:146-292.  The comparison of the
reconstructed value with the operand (274-276) compares two numbers of which the second is finite and not
zero, so it compares the patterns. -/
def narrow (f : Fmt) (rm : Nat) (u : BitVec f.bits) : BitVec half.bits × Nat :=
  let sign := signBit u
  if isNaN u then (canonicalNaN half, if isSNaN u then NV else 0)                   -- 160-166
  else if isInf u then (posInf half ||| BitVec.ofNat half.bits (sign.toNat <<< (half.bits - 1)), 0)  -- 168-172
  else if u.toNat = 0 ∨ u.toNat = 1 <<< (f.bits - 1) then
    (BitVec.ofNat half.bits (u.toNat >>> (f.bits - half.bits)), 0)                  -- 174-178
  else
    let (he0, hm0, changed) := mid f rm sign (expField u) (sigField u)
    let h := packHalf rm sign he0 hm0
    (h, narrowFlags he0 (unbounded f (expField u)) ((widen f h).1 == u) changed)

end Verif.HalfFp
