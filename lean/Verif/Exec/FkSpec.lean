import Verif.Exec.FcSpec
import Verif.Exec.CsrSpec
import Verif.Exec.FkModel

/-!
# fflags, frm and fcsr, by the manual

fflags (number 1) holds the five accrued flags, frm (number 2) the three bits of the dynamic rounding mode,
and fcsr (number 3) both, the flags in bits 4 to 0 and the mode in bits 7 to 5.
-/

namespace Verif.Exec.Spec

open Decode Decode.Isa Core
open Zicsr (Insn)
open Zicsr.Spec (writes newBit)

variable {n : Nat} {ρ : Type} {H : FpState.Host}

def fregNumber : FReg → BitVec 12
  | .fflags => 1#12
  | .frm => 2#12
  | .fcsr => 3#12

/-- The word `w` is the CSR instruction `i` with register `r`. -/
def IsK (x : Xlen) (w : Nat) (i : Insn) (r : FReg) : Prop := IsC x w i ∧ csrNo w = fregNumber r

/-- The accrued flags and the dynamic rounding mode. -/
def flagsOf (st : FSt n ρ H) : BitVec 5 := (FpState.fflagsRead st.fp).setWidth 5
def frmOf (st : FSt n ρ H) : BitVec 3 := (FpState.frmRead st.fp).setWidth 3

/-- What register `r` holds: bit `k`. -/
def heldK (st : FSt n ρ H) (r : FReg) (k : Nat) : Bool :=
  match r with
  | .fflags => (flagsOf st).getLsbD k
  | .frm => (frmOf st).getLsbD k
  | .fcsr => if k < 5 then (flagsOf st).getLsbD k else (frmOf st).getLsbD (k - 5)

/-- Bits 4 to 0 of the operand `u` go into the flags. -/
def NewFlags (i : Insn) (u : BitVec n) (st st' : FSt n ρ H) : Prop :=
  ∀ k, k < 5 → (flagsOf st').getLsbD k = newBit i ((flagsOf st).getLsbD k) (u.getLsbD k)

/-- Its bits from `off` on go into the mode. -/
def NewMode (i : Insn) (u : BitVec n) (off : Nat) (st st' : FSt n ρ H) : Prop :=
  ∀ k, k < 3 → (frmOf st').getLsbD k = newBit i ((frmOf st).getLsbD k) (u.getLsbD (k + off))

/-- What writing register `r` does; other bits of the operand are ignored. -/
def TakesK (i : Insn) (u : BitVec n) (r : FReg) (st st' : FSt n ρ H) : Prop :=
  match r with
  | .fflags => NewFlags i u st st' ∧ frmOf st' = frmOf st
  | .frm => NewMode i u 0 st st' ∧ flagsOf st' = flagsOf st
  | .fcsr => NewFlags i u st st' ∧ NewMode i u 5 st st'

/-- The effect of the instruction: rd gets what the register holds, extended with zeros, and the register
its new value. -/
def DoesK (i : Insn) (r : FReg) (w : Nat) (st st' : FSt n ρ H) : Prop :=
  (writes i (rs1 w) = true → TakesK i (csrOperand st.core i w) r st st') ∧
  (writes i (rs1 w) = false → flagsOf st' = flagsOf st ∧ frmOf st' = frmOf st) ∧
  GivesX st st' (rd w) fun v => ∀ k, k < n → v.getLsbD k = heldK st r k

/-- Setting and clearing bits of fcsr. -/
def WrongCsr (i : Insn) (r : FReg) (w : Nat) : Prop :=
  r = .fcsr ∧ writes i (rs1 w) = true ∧ i ≠ .rw ∧ i ≠ .rwi

end Verif.Exec.Spec
