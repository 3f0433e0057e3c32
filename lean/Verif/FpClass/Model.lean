import Verif.Fp.Fmt
/-
fclass, sign injection, minimum/maximum and comparisons.
-/
namespace Verif.FpClass
open Verif.Fp

variable {f : Fmt}

/-- ClassifyFP.  riscv/riscv_instruction_helpers.h:694-722. -/
def classify (u : BitVec f.bits) : Nat :=
  let sign := u.toNat / 2 ^ (f.bits - 1)
  let expMask := 1 <<< f.e - 1
  let exp := (u.toNat / 2 ^ f.s) &&& expMask
  let sig := u.toNat &&& (1 <<< f.s - 1)
  if exp = 0 then
    if sig = 0 then (if sign ≠ 0 then 1 <<< 3 else 1 <<< 4)
    else (if sign ≠ 0 then 1 <<< 2 else 1 <<< 5)
  else if exp = expMask then
    if sig = 0 then (if sign ≠ 0 then 1 else 1 <<< 7)
    else if sig / 2 ^ (f.s - 1) ≠ 0 then 1 <<< 9
    else 1 <<< 8
  else if sign ≠ 0 then 1 <<< 1
  else 1 <<< 6

/-- The register after fclass writes `n` bits of its result: RV32 fclass.s/.d (32 of 32), RV64 fclass.d
and fclass.h (64 of 64) and RV64 fclass.s (`RiscVUnaryOp<XRegister, uint32_t, float>`, 32 of 64).
riscv/riscv_f_instructions.cc:439-443, 516-520; riscv/riscv_d_instructions.cc:426-431, 504-509;
riscv/riscv_zfh_instructions.cc:644-649, 694-699.  `Set<uint32_t>(0, v)` on a 64-bit register writes the
low four bytes (assumption on mpact-sim's DataBuffer). -/
def writeLow {w : Nat} (n : Nat) (old v : BitVec w) : BitVec w :=
  (old &&& (BitVec.allOnes w <<< n)) ||| (v &&& ~~~(BitVec.allOnes w <<< n))

/-- RV64 fclass.s. -/
def fclassS64 (old : BitVec 64) (u : BitVec single.bits) : BitVec 64 := writeLow 32 old (BitVec.ofNat 64 (classify u))
/-- The other fclass instructions. -/
def fclassFull {w : Nat} (old : BitVec w) (u : BitVec f.bits) : BitVec w := writeLow w old (BitVec.ofNat w (classify u))

/-- The sign bit mask (0x8000'0000, 0x8000'0000'0000'0000, ~(kExpMask | kSigMask)). -/
def signMask (f : Fmt) : BitVec f.bits := BitVec.ofNat f.bits (2 ^ (f.bits - 1))

/-- The lambda of RiscVFSgnj / RiscVDSgnj / RiscVZfhFsgnj.  riscv/riscv_f_instructions.cc:331-335,
riscv/riscv_d_instructions.cc:334-339, riscv/riscv_zfh_instructions.cc:856-861. -/
def sgnj (a b : BitVec f.bits) : BitVec f.bits := (a &&& ~~~signMask f) ||| (b &&& signMask f)
/-- riscv/riscv_f_instructions.cc:338-343, riscv_d:342-347, riscv_zfh:868-873. -/
def sgnjn (a b : BitVec f.bits) : BitVec f.bits := (a &&& ~~~signMask f) ||| (~~~b &&& signMask f)
/-- riscv/riscv_f_instructions.cc:347-352, riscv_d:350-355, riscv_zfh:880-885. -/
def sgnjx (a b : BitVec f.bits) : BitVec f.bits := (a &&& ~~~signMask f) ||| ((a ^^^ b) &&& signMask f)

/-- NaN results are replaced by RiscVBinaryFloatNaNBoxOp, which the half-precision sign injections use.
riscv/riscv_instruction_helpers.h:627-630, riscv/riscv_zfh_instructions.cc:854-886.  (The helper also reads
a rounding-mode operand, which these instructions do not have: see C66.) -/
def canonicalize (u : BitVec f.bits) : BitVec f.bits := if isNaN u then canonicalNaN f else u

/-- Half-precision sign injection. -/
def sgnjH (a b : BitVec half.bits) : BitVec half.bits := canonicalize (sgnj a b)
def sgnjnH (a b : BitVec half.bits) : BitVec half.bits := canonicalize (sgnjn a b)
def sgnjxH (a b : BitVec half.bits) : BitVec half.bits := canonicalize (sgnjx a b)

/-- Host comparison of two values that are not NaN.  The host compares the represented values; their order
is the order of this integer (fraction and exponent read as a fixed-point number, infinity largest). -/
def fixed (u : BitVec f.bits) : Int :=
  let m : Int := if expField u = 0 then (sigField u : Int)
    else ((2 ^ f.s + sigField u : Nat) : Int) * 2 ^ (expField u - 1)
  if signBit u then -m else m

/-- `a < b` on the host: false if either is NaN. -/
def hostLt (a b : BitVec f.bits) : Bool := !isNaN a && !isNaN b && decide (fixed a < fixed b)
/-- `a <= b` on the host. -/
def hostLe (a b : BitVec f.bits) : Bool := !isNaN a && !isNaN b && decide (fixed a ≤ fixed b)
/-- `a == b` on the host. -/
def hostEq (a b : BitVec f.bits) : Bool := !isNaN a && !isNaN b && decide (fixed a = fixed b)
/-- `a == 0.0` on the host. -/
def hostZero (a : BitVec f.bits) : Bool := !isNaN a && decide (fixed a = 0)

/-- *FPExceptions::kInvalidOp -/
def kInvalidOp : Nat := 16

/-- RiscVFMin and RiscVDMin: result and flags submitted.  riscv/riscv_f_instructions.cc:222-245,
riscv/riscv_d_instructions.cc:125-145. -/
def fmin (a b : BitVec f.bits) : BitVec f.bits × Nat :=
  (if isNaN a then (if isNaN b then canonicalNaN f else b)
   else if isNaN b then a
   else if hostZero a && hostZero b then (if signBit a then a else b)
   else if hostLt b a then b else a,
   if isSNaN a || isSNaN b then kInvalidOp else 0)

/-- RiscVFMax.  riscv/riscv_f_instructions.cc:248-269. -/
def fmax (a b : BitVec f.bits) : BitVec f.bits × Nat :=
  (if isNaN a then (if isNaN b then canonicalNaN f else b)
   else if isNaN b then a
   else if hostZero a && hostZero b then (if signBit b then a else b)
   else if hostLt a b then b else a,
   if isSNaN a || isSNaN b then kInvalidOp else 0)

/-- RiscVDMax (the tie on zeros is written differently).  riscv/riscv_d_instructions.cc:148-168. -/
def dmax (a b : BitVec f.bits) : BitVec f.bits × Nat :=
  (if isNaN a then (if isNaN b then canonicalNaN f else b)
   else if isNaN b then a
   else if hostZero a && hostZero b then (if signBit a then b else a)
   else if hostLt a b then b else a,
   if isSNaN a || isSNaN b then kInvalidOp else 0)

/-- feq: result and flags.  riscv/riscv_f_instructions.cc:84-97, riscv/riscv_d_instructions.cc:387-397,
465-475. -/
def feq (a b : BitVec f.bits) : Bool × Nat :=
  (hostEq a b, if isSNaN a || isSNaN b then kInvalidOp else 0)
/-- flt.  riscv/riscv_f_instructions.cc:100-113, riscv/riscv_d_instructions.cc:400-410, 478-488. -/
def flt (a b : BitVec f.bits) : Bool × Nat :=
  (hostLt a b, if isNaN a || isNaN b then kInvalidOp else 0)
/-- fle.  riscv/riscv_f_instructions.cc:116-129, riscv/riscv_d_instructions.cc:413-423, 491-501. -/
def fle (a b : BitVec f.bits) : Bool × Nat :=
  (hostLe a b, if isNaN a || isNaN b then kInvalidOp else 0)

end Verif.FpClass
