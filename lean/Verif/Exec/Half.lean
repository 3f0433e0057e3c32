import Verif.Exec.Compressed

/-!
# The low halfword
-/

namespace Verif.Exec

open Decode Decode.Isa Core Operands Spec

theorem unsigned_half (w : Nat) (ps : List Nat) (h : ps.all (· < 16) = true) :
    Getters.Spec.unsigned (w % 2 ^ 16) ps = Getters.Spec.unsigned w ps := by
  induction ps with
  | nil => rfl
  | cons p ps ih =>
    simp only [List.all_cons, Bool.and_eq_true, decide_eq_true_eq] at h
    unfold Getters.Spec.unsigned
    rw [ih h.2, Nat.testBit_mod_two_pow]
    simp only [h.1, decide_true, Bool.true_and]

theorem signed_half (w : Nat) (ps : List Nat) (h : ps.all (· < 16) = true) :
    Getters.Spec.signed (w % 2 ^ 16) ps = Getters.Spec.signed w ps := by
  cases ps with
  | nil => rfl
  | cons p ps =>
    simp only [List.all_cons, Bool.and_eq_true, decide_eq_true_eq] at h
    unfold Getters.Spec.signed
    dsimp only
    rw [unsigned_half w ps h.2, Nat.testBit_mod_two_pow]
    simp only [h.1, decide_true, Bool.true_and]

theorem cRd_half (w : Nat) : cRd (w % 2 ^ 16) = cRd w :=
  congrArg (BitVec.ofNat 5) (unsigned_half w _ (by decide))
theorem cRs2_half (w : Nat) : cRs2 (w % 2 ^ 16) = cRs2 w :=
  congrArg (BitVec.ofNat 5) (unsigned_half w _ (by decide))
theorem cRs1'_half (w : Nat) : cRs1' (w % 2 ^ 16) = cRs1' w :=
  congrArg (fun n => BitVec.ofNat 5 (8 + n)) (unsigned_half w _ (by decide))
theorem cRs2'_half (w : Nat) : cRs2' (w % 2 ^ 16) = cRs2' w :=
  congrArg (fun n => BitVec.ofNat 5 (8 + n)) (unsigned_half w _ (by decide))
theorem cImm_half (w : Nat) : cImm (w % 2 ^ 16) = cImm w := signed_half w _ (by decide)
theorem cShamt_half (w : Nat) : cShamt (w % 2 ^ 16) = cShamt w := unsigned_half w _ (by decide)
theorem cLwsp_half (w : Nat) : cLwsp (w % 2 ^ 16) = cLwsp w :=
  congrArg (· * 4) (unsigned_half w _ (by decide))
theorem cLdsp_half (w : Nat) : cLdsp (w % 2 ^ 16) = cLdsp w :=
  congrArg (· * 8) (unsigned_half w _ (by decide))
theorem cSwsp_half (w : Nat) : cSwsp (w % 2 ^ 16) = cSwsp w :=
  congrArg (· * 4) (unsigned_half w _ (by decide))
theorem cSdsp_half (w : Nat) : cSdsp (w % 2 ^ 16) = cSdsp w :=
  congrArg (· * 8) (unsigned_half w _ (by decide))
theorem cLw_half (w : Nat) : cLw (w % 2 ^ 16) = cLw w :=
  congrArg (· * 4) (unsigned_half w _ (by decide))
theorem cLd_half (w : Nat) : cLd (w % 2 ^ 16) = cLd w :=
  congrArg (· * 8) (unsigned_half w _ (by decide))
theorem cSpn_half (w : Nat) : cSpn (w % 2 ^ 16) = cSpn w :=
  congrArg (· * 4) (unsigned_half w _ (by decide))
theorem cSp16_half (w : Nat) : cSp16 (w % 2 ^ 16) = cSp16 w :=
  congrArg (· * 16) (signed_half w _ (by decide))
theorem cImmB_half (w : Nat) : cImmB (w % 2 ^ 16) = cImmB w :=
  congrArg (· * 2) (signed_half w _ (by decide))
theorem cImmJ_half (w : Nat) : cImmJ (w % 2 ^ 16) = cImmJ w :=
  congrArg (· * 2) (signed_half w _ (by decide))

theorem expand_half (x : Xlen) (o : Op) (w : Nat) (k : Kind) (z : Args)
    (h : expand x o (w % 2 ^ 16) = some (k, z)) : expand x o w = some (k, z) := by
  unfold expand at h
  split at h <;> first
    | (cases h; done)
    | (simp only [cRd_half, cRs2_half, cRs1'_half, cRs2'_half, cImm_half, cShamt_half, cLwsp_half,
        cLdsp_half, cSwsp_half, cSdsp_half, cLw_half, cLd_half, cSpn_half, cSp16_half, cImmB_half,
        cImmJ_half] at h
       first | exact h | (cases x <;> exact h) | (rename_i x _ _; cases x <;> exact h))

end Verif.Exec
