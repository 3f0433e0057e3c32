import Verif.Hart.Model
/-
Model of the CSR instructions (riscv/riscv_zicsr_instructions.cc) together with the choice of the
semantic function by the decoder (riscv/riscv32g.bin_fmt:98-113, riscv32g.isa:558-621,
riscv64g.bin_fmt:196-211, riscv64g.isa:697-760).

Simplification: the CSR file holds plain CSRs of width xlen (`RiscVSimpleCsr<T>`). CSRs with
their own classes (mstatus, mip, counters, fcsr, ...) have their own models; their `Write`,
`SetBits`, `ClearBits` are called in the same way.
-/
namespace Verif.Zicsr
open Verif.Csr (SimpleCsr)
open Verif.Hart (Hart Mode S)
open Verif.Hart.Hart (trap kIllegal)

/-- Hart, CSR file and integer registers. -/
structure Machine (w : Nat) where
  hart : Hart w
  csrs : BitVec 12 → Option (SimpleCsr w)
  regs : BitVec 5 → BitVec w

variable {w : Nat}

/-- The six instructions, by func3. -/
inductive Insn where
  | rw | rs | rc | rwi | rsi | rci
deriving DecidableEq, Repr

/-- The semantic functions. -/
inductive Sem where
  /-- `RiscVZiCsrrw/rs/rc` -/
  | csrrw | csrrs | csrrc
  /-- `RiscVZiCsrrwNr`, `RiscVZiCsrrNw` -/
  | csrrwNr | csrrNw
deriving DecidableEq, Repr

/-- Choice of the semantic function (riscv32g.bin_fmt:98-113 and riscv32g.isa:558-621; the RV64
tables are the same). csrrw with CSR address 0xc00 is excluded from the table
(riscv32g.bin_fmt:98,103); that address is excluded in the theorems where it matters. -/
def sem (i : Insn) (rd rs1 : BitVec 5) : Sem :=
  match i with
  | .rw | .rwi => if rd = 0 then .csrrwNr else .csrrw
  | .rs | .rsi => if rs1 = 0 then .csrrNw else .csrrs
  | .rc | .rci => if rs1 = 0 then .csrrNw else .csrrc

/-- Source operand 0: register rs1 (x0 reads as the literal zero, riscv32g_encoding.cc) or the
zero-extended 5-bit immediate held in the rs1 field. -/
def operand (m : Machine w) (i : Insn) (rs1 : BitVec 5) : BitVec w :=
  match i with
  | .rw | .rs | .rc => if rs1 = 0 then 0 else m.regs rs1
  | .rwi | .rsi | .rci => rs1.setWidth w

/-- Write of rd: x0 is redirected to the dummy register "X0Dest" (riscv32g_encoding.cc:444-455). -/
def setReg (m : Machine w) (rd : BitVec 5) (v : BitVec w) : Machine w :=
  if rd = 0 then m else { m with regs := fun r => if r = rd then v else m.regs r }

/-- Store a CSR back. -/
def Machine.setCsr (m : Machine w) (a : BitVec 12) (c : SimpleCsr w) : Machine w :=
  { m with csrs := fun b => if b = a then some c else m.csrs b }

/-- `RiscVCsrEnum::kSAtp` (riscv_csr.h). -/
def kSAtp : BitVec 12 := 0x180

/-- `CheckCsrPermission` (riscv_zicsr_instructions.cc:49-69): `some` of the state after the trap
if the access is refused. -/
def refused (m : Machine w) (a : BitVec 12) (pc : BitVec 64) : Option (Machine w) :=
  let required := (a >>> 8) &&& 3
  if m.hart.mode.toNat < required.toNat then
    some { m with hart := m.hart.trap false 0 kIllegal pc }
  else if m.hart.mode = S ∧ a = kSAtp ∧ m.hart.mstatus.getter .tvm ≠ 0 then
    some { m with hart := m.hart.trap false 0 kIllegal pc }
  else none

/-- The five templates `RVZiCsrrw`, `RVZiCsrrs`, `RVZiCsrrc`, `RVZiCsrrwNr`, `RVZiCsrrNw`
(riscv_zicsr_instructions.cc:74-208). An unknown CSR only logs an error. The operand is read
before rd is written. -/
def exec (m : Machine w) (s : Sem) (rd : BitVec 5) (v : BitVec w) (a : BitVec 12)
    (pc : BitVec 64) : Machine w :=
  match refused m a pc with
  | some m' => m'
  | none =>
    match m.csrs a with
    | none => m
    | some c =>
      match s with
      | .csrrw => (setReg m rd (c.as w)).setCsr a (c.write v)
      | .csrrs => (setReg m rd (c.as w)).setCsr a (c.setBits v)
      | .csrrc => (setReg m rd (c.as w)).setCsr a (c.clearBits v)
      | .csrrwNr => m.setCsr a (c.write v)
      | .csrrNw => setReg m rd (c.as w)

/-- A CSR instruction. -/
def step (m : Machine w) (i : Insn) (rd rs1 : BitVec 5) (a : BitVec 12) (pc : BitVec 64) :
    Machine w :=
  exec m (sem i rd rs1) rd (operand m i rs1) a pc

end Verif.Zicsr
