/-
The three status registers, from their manuals.
-/
namespace Verif.FpHost.Spec

/-- IEEE exceptions. -/
inductive Exc where
  | inexact | underflow | overflow | divByZero | invalid
  deriving DecidableEq, Repr

/-- Bit of the exception in fcsr (RISC-V: NV DZ OF UF NX from bit 4 down). -/
def rvBit : Exc → Nat
  | .inexact => 0 | .underflow => 1 | .overflow => 2 | .divByZero => 3 | .invalid => 4

/-- Bit in MXCSR (x86: PE UE OE ZE DE IE from bit 5 down). -/
def x86Bit : Exc → Nat
  | .inexact => 5 | .underflow => 4 | .overflow => 3 | .divByZero => 2 | .invalid => 0

/-- Bit in FPSR (ARM: IXC UFC OFC DZC IOC from bit 4 down). -/
def armBit : Exc → Nat
  | .inexact => 4 | .underflow => 3 | .overflow => 2 | .divByZero => 1 | .invalid => 0

/-- Rounding directions. -/
inductive Dir where
  | nearestEven | towardZero | down | up | nearestAway
  deriving DecidableEq, Repr

/-- frm encoding; 5, 6 and 7 are not rounding modes. -/
def rvDir (rm : BitVec 3) : Option Dir :=
  match rm.toNat with
  | 0 => some .nearestEven
  | 1 => some .towardZero
  | 2 => some .down
  | 3 => some .up
  | 4 => some .nearestAway
  | _ => none

/-- MXCSR.RC, bits 14:13. -/
def x86Dir (s : BitVec 32) : Dir :=
  match s.getLsbD 14, s.getLsbD 13 with
  | false, false => .nearestEven
  | false, true => .down
  | true, false => .up
  | true, true => .towardZero

/-- FPCR.RMode, bits 23:22. -/
def armDir (s : BitVec 64) : Dir :=
  match s.getLsbD 23, s.getLsbD 22 with
  | false, false => .nearestEven
  | false, true => .up
  | true, false => .down
  | true, true => .towardZero

end Verif.FpHost.Spec
