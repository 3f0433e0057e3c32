import Verif.Exec.FcModel

/-!
# fflags, frm and fcsr in CSR instructions

`Exec.CsrModel` leaves the three registers of the floating-point unit out (`special`).  Here they are read
and written in the floating-point state.
-/

namespace Verif.Exec

open Decode Decode.Isa Core Operands

/-- The registers of the floating-point unit. -/
inductive FReg where
  | fflags | frm | fcsr
  deriving DecidableEq, Repr

/-- What `GetCsr(csr_index)` finds of them: kFFlags, kFrm and kFCsr (riscv_csr.h:64-66), registered in
riscv_fp_state.cc:60-62. -/
def fcsrAt (a : BitVec 12) : Option FReg :=
  if a = 1#12 then some .fflags else if a = 2#12 then some .frm else if a = 3#12 then some .fcsr else none

variable {n : Nat} {ρ : Type} {H : FpState.Host}

/-- `AsUint32`, and `AsUint64` which extends it with zeros (riscv_fp_state.h:46-47, 63-64, 84-85). -/
def readK (fp : FpState.Fp H) : FReg → BitVec 32
  | .fflags => FpState.fflagsRead fp
  | .frm => FpState.frmRead fp
  | .fcsr => FpState.fcsrRead fp

/-- `Write`, `SetBits` and `ClearBits`; those with 64 bits use the lower half (riscv_fp_state.h:48-49, 65-66,
86-87; riscv_csr.h:457-463). -/
def opK (k : Csr.DbKind) (v : BitVec 32) : FReg → FpState.Op
  | .fflags => match k with
    | .write => .fflagsWrite v
    | .setBits => .fflagsSet v
    | .clearBits => .fflagsClear v
  | .frm => match k with
    | .write => .frmWrite v
    | .setBits => .frmSet v
    | .clearBits => .frmClear v
  | .fcsr => match k with
    | .write => .fcsrWrite v
    | .setBits => .fcsrSet v
    | .clearBits => .fcsrClear v

def writeK (st : FSt n ρ H) (r : FReg) (k : Csr.DbKind) (v : BitVec n) : FSt n ρ H :=
  { st with fp := FpState.step st.fp (opK k (v.setWidth 32) r) }

/-- The value read. -/
def valueK (n : Nat) (fp : FpState.Fp H) (r : FReg) : BitVec n := (readK fp r).setWidth n

/-- The five templates (riscv_zicsr_instructions.cc:74-208) after the register has been found. -/
def accessK (s : Sim) (w : Nat) (a : Act) (r : FReg) (st : FSt n ρ H) : Zicsr.Sem → Option (FSt n ρ H)
  | .csrrw => (srcAt s w st.core a 0).bind fun v =>
      (putX s w a (valueK n st.fp r) st).map fun st' => writeK st' r .write v
  | .csrrs => (srcAt s w st.core a 0).bind fun v =>
      (putX s w a (valueK n st.fp r) st).map fun st' => writeK st' r .setBits v
  | .csrrc => (srcAt s w st.core a 0).bind fun v =>
      (putX s w a (valueK n st.fp r) st).map fun st' => writeK st' r .clearBits v
  | .csrrwNr => (srcAt s w st.core a 0).map fun v => writeK st r .write v
  | .csrrNw => putX s w a (valueK n st.fp r) st

/-- The description of the instruction and the register, if it is one of these. -/
def fcsrOf (s : Sim) (o : Op) (w : Nat) (st : FSt s.xlen.bits ρ H) : Option (CAct × FReg) :=
  (csrActs s o).bind fun p => (srcAt s w st.core p.ops (csrSource p.sem)).bind fun v =>
    (fcsrAt (v.setWidth 12)).map fun r => (p, r)

/-- A turn with such an instruction.  `CheckCsrPermission` (riscv_zicsr_instructions.cc:47-69) lets it pass in
every mode, as bits 9 and 8 of the number are 0. -/
def fcsrTurn (s : Sim) (q : CAct × FReg) (w : Nat) (size : Nat) (st : FSt s.xlen.bits ρ H) :
    Option (FSt s.xlen.bits ρ H) :=
  (accessK s w q.1.ops q.2 st q.1.sem).map fun st' => closeF st' (st.core.hart.pc.setWidth 64) size

/-- A turn with any instruction of the model. -/
def turnK (A : Arith H) (C : Cvt) (s : Sim) (i : Inst) (w : Nat) (size : Nat) (dev : Option (Atomic.Device ρ))
    (st : FSt s.xlen.bits ρ H) : Option (FSt s.xlen.bits ρ H) :=
  match fcsrOf s i.op w st with
  | some q => fcsrTurn s q w size st
  | none => turnV A C s i w size dev st

/-- A turn, with some entry of the decoder that the word matches, or with the default if there is
none. -/
def TurnK (A : Arith H) (C : Cvt) (s : Sim) (dev : Option (Atomic.Device ρ)) (st st' : FSt s.xlen.bits ρ H) : Prop :=
  (∃ i size, Finds s (wordAt st.core) i size ∧ turnK A C s i (wordAt st.core) size dev st = some st') ∨
  ((∀ i size, ¬ Finds s (wordAt st.core) i size) ∧ st' = refusedF s st)

end Verif.Exec
