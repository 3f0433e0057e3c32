/-
Vector configuration as the V extension defines it.
-/
namespace Verif.VecState.Spec

/-- vlmul is a signed power of two: 5, 6, 7 stand for 1/8, 1/4, 1/2; 4 is reserved. -/
def lmulExp (n : Nat) : Option Int :=
  if n < 4 then some n else if n = 4 then none else some ((n : Int) - 8)

/-- Elements per register group: LMUL * VLEN / SEW with SEW = 8 * 2^vsew bits and VLEN = 8 * vlenb bits. -/
def vlmax (vlenb : Nat) (lm : Int) (vsew : Nat) : Nat :=
  (8 * vlenb) * 2 ^ lm.toNat / ((8 * 2 ^ vsew) * 2 ^ (-lm).toNat)

/-- The fields of vtype. -/
def vlmul (vtype : Nat) : Nat := vtype % 8
def vsew (vtype : Nat) : Nat := vtype / 8 % 8
def vta (vtype : Nat) : Bool := vtype / 64 % 2 = 1
def vma (vtype : Nat) : Bool := vtype / 128 % 2 = 1

/-- A configuration in use: neither reserved multiplier nor reserved element width. -/
def Legal (vtype : Nat) : Prop := vlmul vtype ≠ 4 ∧ vsew vtype < 4

/-- VLMAX of a legal vtype. -/
def maxOf (vlenb vtype : Nat) : Nat := vlmax vlenb ((lmulExp (vlmul vtype)).getD 0) (vsew vtype)

/-- The bits of the aliased control register. -/
def vcsrOf (vxrm : Nat) (vxsat : Bool) : Nat := 2 * vxrm + (if vxsat then 1 else 0)

/-- A write of `v` to a register that shows vxrm (in bits 1:0 alone, in bits 2:1 together with vxsat) or vxsat
(bit 0).  The fields are (vxrm, vxsat). -/
def specWrite (f : Nat × Bool) (hasRm hasSat : Bool) (v : Nat) : Nat × Bool :=
  (if hasRm then (if hasSat then v / 2 % 4 else v % 4) else f.1, if hasSat then v % 2 = 1 else f.2)

end Verif.VecState.Spec
