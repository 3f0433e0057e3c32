import Verif.Clint.Model
/-
Specification of the CLINT register map and interrupt lines.
-/
namespace Verif.Clint.Spec

/-- The 32-bit registers. -/
inductive Reg where
  | msip | mtimecmpLo | mtimecmpHi | mtimeLo | mtimeHi
deriving DecidableEq, Repr

/-- Address map, from the low 16 bits of the address. -/
def regAt (a : Nat) : Option Reg :=
  if a = 0 then some .msip
  else if a = 0x4000 then some .mtimecmpLo
  else if a = 0x4004 then some .mtimecmpHi
  else if a = 0xbff8 then some .mtimeLo
  else if a = 0xbffc then some .mtimeHi
  else none

/-- The register addressed by a 64-bit bus address. -/
def regOf (address : BitVec 64) : Option Reg := regAt (address.toNat % 0x10000)

/-- Register contents. -/
def get (c : Clint) : Reg → BitVec 32
  | .msip => c.msip
  | .mtimecmpLo => c.mtimecmp.extractLsb' 0 32
  | .mtimecmpHi => c.mtimecmp.extractLsb' 32 32
  | .mtimeLo => c.mtime.extractLsb' 0 32
  | .mtimeHi => c.mtime.extractLsb' 32 32

/-- What a register keeps of a written value: only bit 0 of msip is implemented. -/
def legal (r : Reg) (v : BitVec 32) : BitVec 32 :=
  match r with
  | .msip => v &&& 1
  | _ => v

/-- The timer interrupt condition. -/
def timer (c : Clint) : Bool := c.mtimecmp.toNat ≤ c.mtime.toNat

/-- Does an event write mtime? -/
def touchesTime : Clint.Ev → Bool
  | .tick => false
  | .store a _ _ => regOf a = some .mtimeLo || regOf a = some .mtimeHi
  | .reset => true

end Verif.Clint.Spec
