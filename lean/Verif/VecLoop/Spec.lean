import Verif.VecState.Model
/-
What "element i of a register group" and "undisturbed" mean, after the RISC-V vector specification: a register
group is the concatenation of consecutive registers of `vlenb` bytes, elements of `n` bytes are packed in it in
little-endian order.  Independent of the loops of the simulator.
-/
namespace Verif.VecLoop.Spec
open Verif.VecState

abbrev Regs := Nat → Nat → BitVec 8

/-- Element `i` (of `n` bytes) of the group starting at register `base` is `v`. -/
def IsElem (vlenb n : Nat) (R : Regs) (base i : Nat) (v : BitVec (8 * n)) : Prop :=
  ∀ k, k < n → R (base + (i * n + k) / vlenb) ((i * n + k) % vlenb) = v.extractLsb' (8 * k) 8

/-- Byte `x` of register `r` belongs to element `i` of the group at `base`. -/
def Covers (vlenb n base i r x : Nat) : Prop := ∃ k, k < n ∧ r = base + (i * n + k) / vlenb ∧ x = (i * n + k) % vlenb

/-- Element `i` is active: the instruction is unmasked, or bit `i` of v0 is set. -/
def Active (R : Regs) (vm : Bool) (i : Nat) : Prop := vm = true ∨ (R 0 (i / 8)).getLsbD (i % 8) = true

/-- The instruction is legal in this configuration: operand sizes `ns` have effective multipliers from 1/8 to 8,
and the destination (elements of `nd` bytes) starts at a register that is a multiple of a group large enough. -/
structure Ready (s : VState) (ns : List Nat) (nd vd : Nat) : Prop where
  ok : s.exception = false
  sew : 0 < s.sew
  emul : ∀ n ∈ ns, s.sew ≤ s.lmul8 * n ∧ s.lmul8 * n ≤ 64 * s.sew
  size : 0 < nd ∧ nd ∣ s.vlenb ∧ 0 < s.vlenb
  group : ∃ m, (m = 1 ∨ m = 2 ∨ m = 4 ∨ m = 8) ∧ vd % m = 0 ∧ s.vl * nd ≤ m * s.vlenb

/-- The ISA's rule on a source group (elements of `n` bytes at `vs`) overlapping the destination: none, or the
same element width, or a narrower destination at the lowest numbered registers of the source, or a wider
destination with the source (at least one whole register) at its highest numbered registers. -/
def SourceOk (vlenb vl nd vd n vs : Nat) : Prop :=
  0 < n ∧ n ∣ vlenb ∧
  ((vs + (vl * n + vlenb - 1) / vlenb ≤ vd ∨ vd + (vl * nd + vlenb - 1) / vlenb ≤ vs)
  ∨ (vs = vd ∧ nd ≤ n)
  ∨ (n ∣ nd ∧ ∃ m, vl * n ≤ m * vlenb ∧ vs = vd + m * (nd / n) - m))

/-- The bytes of all registers that are not in an active body element are unchanged. -/
def Undisturbed (vlenb nd vd : Nat) (body : Nat → Prop) (R R' : Regs) : Prop :=
  ∀ r x, x < vlenb → (¬ ∃ i, body i ∧ Covers vlenb nd vd i r x) → R' r x = R r x

end Verif.VecLoop.Spec
