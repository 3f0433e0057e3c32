import Verif.VecLoop.Model
/-
Instructions that scan a mask register: `Vcpop`, `Vfirst`, `Vmsbf`, `Vmsif`, `Vmsof`, `Viota` and `Vid`
(riscv/riscv_vector_unary_instructions.cc:101-176, 294-485).

The spans of the source and of the mask are taken before the loops; the destination is written in a copy which
replaces the register at the end, so reads see the values before the instruction.
-/
namespace Verif.VecScan
open Verif.VecState Verif.VecLoop

def refuse (c : VCore) : VCore := { c with vs := { c.vs with exception := true } }

/-- The loop of `Vcpop` (riscv_vector_unary_instructions.cc:115-121). -/
def count (m s : Buf) : Nat → Nat → Nat → Nat
  | 0, _, n => n
  | k + 1, i, n => count m s k (i + 1) (if maskBit m i && maskBit s i then n + 1 else n)

/-- `Vcpop` (riscv_vector_unary_instructions.cc:101-135): the new state, and the value of rd if written. -/
def vcpop (w : Nat) (c : VCore) (vs2 : Nat) (vm : Bool) : VCore × Option (BitVec w) :=
  if c.vs.vstart ≠ 0 then (refuse c, none)
  else (c, some (BitVec.ofNat w (count (maskOf c.regs vm) (c.regs vs2) c.vs.vl 0 0)))

/-- The loop of `Vfirst` (riscv_vector_unary_instructions.cc:155-164). -/
def first (m s : Buf) : Nat → Nat → Option Nat
  | 0, _ => none
  | k + 1, i => if maskBit m i && maskBit s i then some i else first m s k (i + 1)

/-- `Vfirst` (riscv_vector_unary_instructions.cc:139-176). -/
def vfirst (w : Nat) (c : VCore) (vs2 : Nat) (vm : Bool) : VCore × Option (BitVec w) :=
  if c.vs.vstart ≠ 0 then (refuse c, none)
  else
    (c, some (match first (maskOf c.regs vm) (c.regs vs2) c.vs.vl 0 with
      | some i => BitVec.ofNat w i
      | none => BitVec.allOnes w))

/-- `dest_span[index] |= 1 << offset`, or `&= ~(1 << offset)`. -/
def setBit (d : Buf) (i : Nat) (v : Bool) : Buf := fun x =>
  if x = i >>> 3 then (if v then d x ||| (1#8 <<< (i &&& 0b111)) else d x &&& ~~~(1#8 <<< (i &&& 0b111))) else d x

/-- The first loop of `Vmsbf` (riscv_vector_unary_instructions.cc:312-325): the buffer, and the index at which it broke
off. -/
def before (m s : Buf) : Nat → Nat → Buf → Buf × Option Nat
  | 0, _, d => (d, none)
  | k + 1, i, d =>
    if maskBit m i then if maskBit s i then (d, some i) else before m s k (i + 1) (setBit d i true)
    else before m s k (i + 1) d

/-- The second one (:327-331). -/
def clear : Nat → Nat → Buf → Buf
  | 0, _, d => d
  | k + 1, i, d => clear k (i + 1) (setBit d i false)

def msbf (m s : Buf) (vl : Nat) (d : Buf) : Buf :=
  match before m s vl 0 d with
  | (d, none) => d
  | (d, some l) => clear (vl - l) l d

/-- The loop of `Vmsif` (riscv_vector_unary_instructions.cc:352-366). -/
def msif (m s : Buf) : Nat → Nat → Bool → Buf → Buf
  | 0, _, _, d => d
  | k + 1, i, v, d =>
    if maskBit m i then msif m s k (i + 1) (if maskBit s i then false else v) (setBit d i v)
    else msif m s k (i + 1) v d

/-- The loop of `Vmsof` (riscv_vector_unary_instructions.cc:388-401). -/
def msof (m s : Buf) : Nat → Nat → Bool → Buf → Buf
  | 0, _, _, d => d
  | k + 1, i, f, d =>
    if maskBit m i then
      if f && maskBit s i then msof m s k (i + 1) false (setBit d i true)
      else msof m s k (i + 1) f (setBit d i false)
    else msof m s k (i + 1) f d

inductive Op where
  | msbf | msif | msof
  deriving DecidableEq

def Op.run : Op → Buf → Buf → Nat → Buf → Buf
  | .msbf, m, s, vl, d => VecScan.msbf m s vl d
  | .msif, m, s, vl, d => VecScan.msif m s vl 0 true d
  | .msof, m, s, vl, d => VecScan.msof m s vl 0 true d

/-- `Vmsbf`, `Vmsif` and `Vmsof` (riscv_vector_unary_instructions.cc:294-405). -/
def setMask (o : Op) (c : VCore) (vd vs2 : Nat) (vm : Bool) : VCore :=
  if c.vs.vstart ≠ 0 then refuse c
  else
    { vs := { c.vs with vstart := 0 }
      regs := fun q => if q = vd then o.run (maskOf c.regs vm) (c.regs vs2) c.vs.vl (c.regs vd) else c.regs q }

/-- `Viota` (riscv_vector_unary_instructions.cc:411-446). -/
def viota (c : VCore) (vd vs2 : Nat) (vm : Bool) : Option VCore :=
  if c.vs.sew = 1 ∨ c.vs.sew = 2 ∨ c.vs.sew = 4 ∨ c.vs.sew = 8 then
    (nullary c c.vs.sew vd (some vs2) (maskOf c.regs vm)
      (fun o (n : Nat) => (BitVec.ofNat _ n, if o then n + 1 else n)) 0).map (·.1)
  else some (refuse c)

/-- `Vid` (riscv_vector_unary_instructions.cc:449-485). -/
def vid (c : VCore) (vd : Nat) (vm : Bool) : Option VCore :=
  if c.vs.sew = 1 ∨ c.vs.sew = 2 ∨ c.vs.sew = 4 ∨ c.vs.sew = 8 then
    (nullary c c.vs.sew vd none (maskOf c.regs vm) (fun _ (n : Nat) => (BitVec.ofNat _ n, n + 1)) 0).map (·.1)
  else some (refuse c)

end Verif.VecScan
