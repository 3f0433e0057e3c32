import Verif.Mem.Spec
/-
Stack frames of cm.push/cm.pop as the Zcmp chapter of the ISA manual defines them.
-/
namespace Verif.Zcmp.Spec
open Verif.Core

variable {w : Nat}

/-- ra, s0, s1 and s2..s9 one at a time as rlist grows from 4; 15 adds s10 and s11 together. -/
def saved (rlist : Nat) (r : Nat) : Bool :=
  r = 1 || (r = 8 && 5 ≤ rlist) || (r = 9 && 6 ≤ rlist) || (18 ≤ r && r ≤ 25 && r ≤ rlist + 11)
    || (26 ≤ r && r ≤ 27 && rlist = 15)

/-- How many registers above `r` are saved. -/
def above (rlist r : Nat) : Nat := ((List.range 32).filter (fun s => r < s && saved rlist s)).length

/-- The number of saved registers. -/
def count (rlist : Nat) : Nat := ((List.range 32).filter (saved rlist)).length

/-- Bytes of a register. -/
def bytes (w : Nat) : Nat := w / 8

/-- The slot of register `r` in the frame below `top`: the highest register is next to `top`.  Addresses are
xlen bits wide. -/
def slot (top : BitVec w) (rlist r : Nat) : BitVec 64 :=
  (top - BitVec.ofNat w (bytes w * (above rlist r + 1))).setWidth 64

/-- The stack adjustment: the frame rounded up to 16 bytes plus up to three further blocks of 16. -/
def adjust (w rlist spimm : Nat) : Nat := (bytes w * count rlist + 15) / 16 * 16 + 16 * spimm

/-- The frame lies in the memory the hart may access. -/
def Accessible (c : Core w) (top : BitVec w) (rlist : Nat) : Prop := (slot top rlist 1).toNat ≤ c.limit.toNat

/-- The frame does not wrap around address zero. -/
def NoWrap (top : BitVec w) (rlist : Nat) : Prop := bytes w * count rlist ≤ top.toNat

/-- s0 and s1 are x8 and x9, s2 to s7 are x18 to x23. -/
def sregNum (n : Nat) : Nat := if n < 2 then 8 + n else 16 + n

/-- Bit 0 of a jump target is cleared. -/
def evenTarget (t : BitVec w) : BitVec w := BitVec.ofNat w (t.toNat / 2 * 2)

/-- The address of a jump table entry, modulo 2^xlen. -/
def entryAddr (w : Nat) (jvt : BitVec 64) (index : BitVec 8) : BitVec 64 :=
  BitVec.ofNat 64 ((jvt.toNat + bytes w * index.toNat) % 2 ^ w)

end Verif.Zcmp.Spec
