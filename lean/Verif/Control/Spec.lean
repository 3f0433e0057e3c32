import Verif.Control.Model
/-
What the ISA says about control transfer, on numbers.
-/
namespace Verif.Control.Spec
open Verif.Core

variable {w : Nat}

/-- A branch is taken. -/
def taken (k : Cond) (a b : BitVec w) : Prop :=
  match k with
  | .eq => a.toNat = b.toNat
  | .ne => a.toNat ≠ b.toNat
  | .lt => a.toInt < b.toInt
  | .ltu => a.toNat < b.toNat
  | .ge => b.toInt ≤ a.toInt
  | .geu => b.toNat ≤ a.toNat

/-- Address arithmetic modulo 2^xlen with a signed offset. -/
def IsSum (t : BitVec w) (base : Int) (off : Int) : Prop := (t.toNat : Int) = (base + off) % 2 ^ w

/-- A target that the configured extensions do not allow: without C, not a multiple of four. -/
def badTarget (hasC : Bool) (t : BitVec w) : Prop := hasC = false ∧ t.toNat % 4 ≠ 0

/-- The transfer happened: next pc is `t`, and nothing but pc, the branch flag and the registers
changed. -/
def Goes (c c' : Core w) (t : BitVec w) : Prop :=
  c'.hart = { c.hart with pc := t, branch := true } ∧ c'.mem = c.mem ∧ c'.limit = c.limit
    ∧ c'.hasC = c.hasC

/-- An exception was raised and nothing else happened. -/
def Raises (c c' : Core w) (tval code epc : BitVec 64) (handled : Bool) : Prop :=
  c'.hart = c.hart.trap false tval code epc handled ∧ c'.regs = c.regs ∧ c'.mem = c.mem
    ∧ c'.limit = c.limit ∧ c'.hasC = c.hasC

/-- The link value. -/
def IsLink (v : BitVec w) (addr : BitVec 64) (size : Nat) : Prop := v.toNat = (addr.toNat + size) % 2 ^ w

end Verif.Control.Spec
