import Verif.Fp.Fmt
/-
Floating point to integer conversion: RiscVConvertFloatWithFflagsOp.
riscv/riscv_instruction_helpers.h:74-282.
-/
namespace Verif.FpConvert
open Verif.Fp

/-- The integer type `To`: int32_t, uint32_t, int64_t, uint64_t. -/
structure To where
  bits : Nat
  signed : Bool
  deriving DecidableEq, Repr

/-- numeric_limits<To>::max / min.  helpers.h:78-79. -/
def To.kMax (t : To) : Int := if t.signed then 2 ^ (t.bits - 1) - 1 else 2 ^ t.bits - 1
def To.kMin (t : To) : Int := if t.signed then -2 ^ (t.bits - 1) else 0

/-- Conversion of any integer to uint64_t. -/
def u64 (z : Int) : Nat := (z % 2 ^ 64).toNat

/-- Conversion of an uint64_t to To. -/
def To.wrap (t : To) (n : Nat) : Int :=
  if t.signed then (n : Int).bmod (2 ^ t.bits) else (n : Int) % 2 ^ t.bits

/-- What the instruction does: writes a value and raises flags; has no effect (invalid rounding mode is
logged and the function returns); or executes undefined behaviour (overflow of the signed negation). -/
inductive Outcome
  | done (value : Int) (flags : Nat)
  | ignored
  | ub
  deriving DecidableEq, Repr

/-- FPExceptions::kInexact, kInvalidOp. -/
def NX : Nat := 1
def NV : Nat := 16

/-- The right shift that leaves one fraction bit.  helpers.h:117-131. -/
def rightShift (f : Fmt) (u : BitVec f.bits) : Int :=
  if expField u ≠ 0 then (f.s : Int) - 1 - ((expField u : Int) - f.bias) else 1

/-- The magnitude with one fraction bit, whether anything was lost below it, and the flags so far.
helpers.h:132-160.  `base` is a uint64_t; no step here can wrap (base < 2^(kSigSize + 1)). -/
def compress (f : Fmt) (u : BitVec f.bits) : Nat × Bool × Nat :=
  let rs := rightShift f u
  if expField u = 0 then (0, sigField u != 0, NX)
  else
    let base := sigField u ||| 1 <<< f.s
    if rs > (f.bits : Int) - 1 then (0, base != 0, NX)
    else if rs > 0 then
      let r := min rs.toNat f.bits
      (base >>> r, base &&& (1 <<< r - 1) != 0, 0)
    else (base, false, 0)

/-- Rounding of the fraction bit: new base and flags, or `none` for an invalid mode.
helpers.h:163-213. -/
def roundBase (rm : Nat) (sign : Bool) (base : Nat) (sticky : Bool) (flags : Nat) : Option (Nat × Nat) :=
  match rm with
  | 0 =>
    if sticky = false ∧ base &&& 1 ≠ 0 then
      if base &&& 3 = 3 then some (base + 1, NX) else some (base, flags)
    else if base &&& 1 ≠ 0 ∨ sticky then some (base + 1, flags)
    else some (base, flags)
  | 1 => some (base, flags)
  | 2 => if sign ∧ (base &&& 1 ≠ 0 ∨ sticky) then some (base + 2, flags) else some (base, flags)
  | 3 => if ¬ sign ∧ (base &&& 1 ≠ 0 ∨ sticky) then some (base + 2, flags) else some (base, flags)
  | 4 => if base &&& 1 ≠ 0 ∨ sticky then some (base + 1, flags) else some (base, flags)
  | _ => none

/-- The left-shift loop with overflow detection: `none` if a bit is lost.  helpers.h:224-236. -/
def shiftLoop : Nat → Nat → Option Nat
  | 0, v => some v
  | k + 1, prev =>
    let v := (prev <<< 1) % 2 ^ 64
    if prev > v then none else shiftLoop k v

/-- Range check and sign.  helpers.h:241-265. -/
def finish (t : To) (sign : Bool) (uv : Nat) (flags : Nat) : Outcome :=
  if t.signed then
    if ¬ sign ∧ uv > u64 t.kMax then .done t.kMax NV
    else if sign ∧ (uv > 0 ∧ u64 (-(uv : Int)) < u64 t.kMin) then .done t.kMin NV
    else if sign then
      -- `-((To)unsigned_value)` overflows if the operand is the minimum
      if t.wrap uv = t.kMin then .ub else .done (-t.wrap uv) flags
    else .done (t.wrap uv) flags
  else
    if uv > u64 t.kMax then .done (if sign then t.kMin else t.kMax) NV
    else if sign ∧ uv ≠ 0 then .done t.kMin NV
    else .done (t.wrap uv) flags

/-- The finite, non-zero case.  helpers.h:106-266. -/
def convertFinite (f : Fmt) (t : To) (rm : Nat) (u : BitVec f.bits) : Outcome :=
  let sign := signBit u
  let rs := rightShift f u
  let (base, sticky, flags) := compress f u
  if rs ≥ 0 then
    match roundBase rm sign base sticky flags with
    | none => .ignored
    | some (base, flags) =>
      let flags := if base &&& 1 ≠ 0 ∨ sticky then NX else flags
      finish t sign (base >>> 1) flags
  else
    match shiftLoop (-rs - 1).toNat base with
    | some v => finish t sign v flags
    | none => finish t sign (u64 (if sign then t.kMin else t.kMax)) NV

/-- RiscVConvertFloatWithFflagsOp after the rounding mode has been resolved.  helpers.h:97-266. -/
def convert (f : Fmt) (t : To) (rm : Nat) (u : BitVec f.bits) : Outcome :=
  if isNaN u ∨ u = posInf f then .done t.kMax NV
  else if isInf u ∧ signBit u then .done t.kMin NV
  else if expField u = 0 ∧ sigField u = 0 then .done 0 0
  else convertFinite f t rm u

/-- The register value: the result as a signed To, extended to the register.  helpers.h:267-276. -/
def writeBack (w : Nat) (t : To) (v : Int) : BitVec w := (BitVec.ofInt t.bits v).signExtend w

/-- The four integer types. -/
def int32 : To := ⟨32, true⟩
def uint32 : To := ⟨32, false⟩
def int64 : To := ⟨64, true⟩
def uint64 : To := ⟨64, false⟩

end Verif.FpConvert
