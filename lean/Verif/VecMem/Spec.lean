import Verif.VecLoop.Spec
import Verif.Mem.Spec
/-
What vector loads and stores do, element by element.
-/
namespace Verif.VecMem.Spec
open Verif.Core Verif.Mem.Spec Verif.VecLoop.Spec

/-- Register file after a load into the group at `vd` of the elements `lo ≤ i < num` that are active: each holds the `n` bytes at its
address; every other byte of every register is unchanged. -/
def Loaded (vlenb n vd lo num : Nat) (addr : Nat → BitVec 64) (active : Nat → Prop) (m : Memory) (R R' : Regs) : Prop :=
  (∀ i, lo ≤ i → i < num → active i → ∃ v : BitVec (8 * n), Holds m (addr i) n v.toNat ∧ IsElem vlenb n R' vd i v)
  ∧ Undisturbed vlenb n vd (fun i => lo ≤ i ∧ i < num ∧ active i) R R'

/-- Memory after writing the active elements `lo ≤ i < num` (`n` bytes, value `val i`, at `addr i`) in increasing order: a byte
has the value given by the last active element that covers it, or is unchanged when there is none. -/
def Stored (n lo num : Nat) (addr : Nat → BitVec 64) (active : Nat → Prop) (val : Nat → Nat) (m m' : Memory) : Prop :=
  ∀ b, (∃ i k, lo ≤ i ∧ i < num ∧ active i ∧ k < n ∧ b = addr i + BitVec.ofNat 64 k ∧ (m' b).toNat = byteOf (val i) k
        ∧ ∀ j, i < j → j < num → active j → ¬ InRange (addr j) n b)
    ∨ ((∀ i, lo ≤ i → i < num → active i → ¬ InRange (addr i) n b) ∧ m' b = m b)

/-- The address of element `i` of a strided access: the base plus `i` times the signed stride, modulo 2^64. -/
def strided (base stride : BitVec 64) (i : Nat) : BitVec 64 := BitVec.ofInt 64 (base.toInt + i * stride.toInt)

/-- Register file after a segment load: field `f` of segment `i` in element `i` of the group at `vd + f * m`. -/
def SegLoaded (vlenb n vd nf m num : Nat) (addr : Nat → Nat → BitVec 64) (active : Nat → Prop) (mem : Memory) (R R' : Regs) : Prop :=
  (∀ f i, f < nf → i < num → active i → ∃ v : BitVec (8 * n), Holds mem (addr i f) n v.toNat ∧ IsElem vlenb n R' (vd + f * m) i v)
  ∧ ∀ r x, x < vlenb → (¬ ∃ f i, f < nf ∧ i < num ∧ active i ∧ Covers vlenb n (vd + f * m) i r x) → R' r x = R r x

end Verif.VecMem.Spec
