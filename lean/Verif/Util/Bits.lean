/-
Small helpers for bit-level proofs.
-/
namespace Verif

/-- A statement about all bit positions below `n` is a finite conjunction. -/
theorem allLt {n : Nat} {P : Nat → Prop} (h : ∀ i : Fin n, P i) : ∀ i, i < n → P i :=
  fun i hi => h ⟨i, hi⟩

set_option hygiene false in
/-- Push `getLsbD` through the bitwise operations, naming the bit index `i`. -/
macro "bits_at" : tactic => `(tactic| (
  simp only [BitVec.getLsbD_setWidth, BitVec.getLsbD_or, BitVec.getLsbD_and, BitVec.getLsbD_not,
    BitVec.getLsbD_xor, BitVec.getLsbD_shiftLeft, BitVec.getLsbD_ushiftRight,
    BitVec.getLsbD_extractLsb']))

set_option hygiene false in
/-- Prove an equality of bit vectors bit by bit, naming the bit index `i` and its bound `hi`. -/
macro "bits_ext" : tactic => `(tactic| (
  refine BitVec.eq_of_getLsbD_eq (fun i hi => ?_)
  bits_at))

end Verif
