import Verif.Mem.Model
/-
Byte-level meaning of loads and stores.
-/
namespace Verif.Mem.Spec
open Verif.Core

variable {w : Nat}

/-- `b` is one of the `n` bytes starting at `a`. -/
def InRange (a : BitVec 64) (n : Nat) (b : BitVec 64) : Prop := ∃ i, i < n ∧ b = a + BitVec.ofNat 64 i

/-- Byte `i` of a number. -/
def byteOf (v i : Nat) : Nat := v / 256 ^ i % 256

/-- The bytes of `m` at `a` are those of `v`. -/
def Holds (m : Memory) (a : BitVec 64) (n v : Nat) : Prop :=
  ∀ i, i < n → (m (a + BitVec.ofNat 64 i)).toNat = byteOf v i

/-- `r` is the low `n` bytes of `v`, sign- or zero-extended. -/
def IsExt (sgn : Bool) (n v : Nat) (r : BitVec w) : Prop :=
  if sgn then r.toInt = (v : Int).bmod (2 ^ (8 * n)) else r.toNat = v % 2 ^ (8 * n)

/-- `a` is the sum of rs1 and the signed offset, modulo the register width. -/
def IsAddress (c : Core w) (rs1 : BitVec 5) (off : BitVec w) (a : BitVec 64) : Prop :=
  (a.toNat : Int) = ((if rs1 = 0#5 then 0 else (c.regs rs1).toNat : Nat) + off.toInt) % 2 ^ w

/-- An exception was raised and nothing else happened. -/
def Raises (c c' : Core w) (tval code epc : BitVec 64) (handled : Bool) : Prop :=
  c' = { c with hart := c.hart.trap false tval code epc handled }

/-- The limit after a history of calls to the setter, from the initial limit. -/
def limitAfter (maxv : Nat) : List Nat → Nat
  | [] => maxv
  | vs => min (vs.getLast?.getD 0) maxv

end Verif.Mem.Spec
