/-
IEEE-754 binary interchange formats as bit vectors.

`FPTypeInfo<T>` belongs to mpact-sim and is not in /repo; the members used by /repo are assumed to be
the usual ones: kSigSize / kExpSize fraction and exponent field sizes, kBitSize = 1 + exp + sig,
kExpBias = 2^(exp-1) - 1, kCanonicalNaN = quiet NaN with zero payload and sign, IsNaN / IsSNaN / IsQNaN /
IsInf / SignBit by the bit pattern.  (The copy for HalfFP in riscv/test/riscv_fp_test_base.h:142-190
agrees.)
-/
namespace Verif.Fp

/-- A format: exponent and fraction field sizes. -/
structure Fmt where
  e : Nat
  s : Nat
  deriving DecidableEq, Repr

namespace Fmt
/-- kBitSize -/
def bits (f : Fmt) : Nat := 1 + f.e + f.s
/-- kExpBias -/
def bias (f : Fmt) : Nat := 2 ^ (f.e - 1) - 1
end Fmt

/-- HalfFP, float, double. -/
def half : Fmt := ⟨5, 10⟩
def single : Fmt := ⟨8, 23⟩
def double : Fmt := ⟨11, 52⟩

variable {f : Fmt}

/-- Exponent field of a bit pattern (`(u & kExpMask) >> kSigSize`). -/
def expField (u : BitVec f.bits) : Nat := (u.toNat / 2 ^ f.s) % 2 ^ f.e
/-- Fraction field (`u & kSigMask`). -/
def sigField (u : BitVec f.bits) : Nat := u.toNat % 2 ^ f.s
/-- Sign bit (`u >> (kBitSize - 1)`). -/
def signBit (u : BitVec f.bits) : Bool := u.getLsbD (f.bits - 1)

/-- FPTypeInfo::IsNaN. -/
def isNaN (u : BitVec f.bits) : Bool := expField u == 2 ^ f.e - 1 && sigField u != 0
/-- FPTypeInfo::IsInf. -/
def isInf (u : BitVec f.bits) : Bool := expField u == 2 ^ f.e - 1 && sigField u == 0
/-- FPTypeInfo::IsQNaN: NaN with the top fraction bit set. -/
def isQNaN (u : BitVec f.bits) : Bool := isNaN u && u.getLsbD (f.s - 1)
/-- FPTypeInfo::IsSNaN. -/
def isSNaN (u : BitVec f.bits) : Bool := isNaN u && !u.getLsbD (f.s - 1)
/-- Both zeros. -/
def isZero (u : BitVec f.bits) : Bool := expField u == 0 && sigField u == 0

/-- FPTypeInfo::kCanonicalNaN. -/
def canonicalNaN (f : Fmt) : BitVec f.bits := BitVec.ofNat f.bits ((2 ^ f.e - 1) * 2 ^ f.s + 2 ^ (f.s - 1))
/-- FPTypeInfo::kPosInf. -/
def posInf (f : Fmt) : BitVec f.bits := BitVec.ofNat f.bits ((2 ^ f.e - 1) * 2 ^ f.s)

example : canonicalNaN single = 0x7fc00000#32 := rfl
example : canonicalNaN double = 0x7ff8000000000000#64 := rfl
example : canonicalNaN half = 0x7e00#16 := rfl
example : isSNaN (f := half) 0x7d01#16 = true ∧ isQNaN (f := half) 0xfe00#16 = true
    ∧ isInf (f := half) 0xfc00#16 = true := by decide

end Verif.Fp
