import Verif.Zicsr.Model
/-
Specification of the CSR instructions (RISC-V unprivileged manual, chapter "Zicsr", and
privileged manual, "CSR Address Mapping Conventions").
-/
namespace Verif.Zicsr.Spec
open Verif.Csr (SimpleCsr)
variable {w : Nat}

/-- Least privilege for a CSR address: bits 9:8. -/
def minMode (a : BitVec 12) : Nat := (a.extractLsb' 8 2).toNat

/-- A CSR whose top address bits are 11 is read-only. -/
def readOnly (a : BitVec 12) : Bool := a.extractLsb' 10 2 = 0b11

/-- Does the instruction write the CSR? csrrs/csrrc with x0 or a zero immediate do not. -/
def writes (i : Insn) (rs1 : BitVec 5) : Bool :=
  match i with
  | .rw | .rwi => true
  | _ => rs1 ≠ 0

/-- Requested new value of a bit, from its old value and the operand bit. -/
def newBit (i : Insn) (old v : Bool) : Bool :=
  match i with
  | .rw | .rwi => v
  | .rs | .rsi => old || v
  | .rc | .rci => old && !v

/-- Operand bits: register value or zero-extended immediate. -/
def operandBit (m : Machine w) (i : Insn) (rs1 : BitVec 5) (k : Nat) : Bool :=
  match i with
  | .rw | .rs | .rc => rs1 ≠ 0 && (m.regs rs1).getLsbD k
  | _ => rs1.getLsbD k

/-- The access is illegal. -/
def illegal (m : Machine w) (i : Insn) (rs1 : BitVec 5) (a : BitVec 12) : Prop :=
  m.hart.mode.toNat < minMode a ∨ (readOnly a = true ∧ writes i rs1 = true) ∨ m.csrs a = none ∨
  (m.hart.mode = Hart.S ∧ a = 0x180 ∧ m.hart.mstatus.value.getLsbD 20 = true)

end Verif.Zicsr.Spec
