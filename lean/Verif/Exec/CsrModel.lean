import Verif.Exec.System
import Verif.Zicsr.Model
import Verif.CsrFile.Model

/-!
# CSR instructions, from the word in memory

The composition of `Exec.Model` for the instructions of Zicsr.  The registers that the privileged state
keeps (`Hart`) are read and written there; the plain ones (`RiscVSimpleCsr<T>`, `Csr.SimpleCsr`) are in
a file of their own.  Registers of other classes (counters, misa, jvt, floating point, vector) are
`special`: an access to one of them has no meaning here.
-/

namespace Verif.Exec

open Decode Decode.Isa Core Operands

/-- What is registered at a number. -/
inductive Slot (n : Nat) where
  | plain (c : Csr.SimpleCsr n)
  | special
  | absent
  deriving DecidableEq, Repr

/-- The state of the system instructions and the file of registers. -/
structure XSt (n : Nat) (ρ : Type) where
  base : Atomic.St n ρ
  csrs : BitVec 12 → Slot n

/-- The file a hart is built with (riscv_state.cc:161-432, riscv_fp_state.cc:60-62,
riscv_vector_state.cc:153-159; `CsrFile.all`). -/
def slotOf {n : Nat} : CsrFile.Class n → Slot n
  | .simple v r w => .plain ⟨v, r, w⟩
  | _ => .special

def builtCsrs (n : Nat) (vec : Bool) (a : BitVec 12) : Slot n :=
  match (CsrFile.all n true vec).find? fun e => e.index == a.toNat with
  | some e => slotOf e.cls
  | none => .absent

/-- The registers kept in `Hart`. -/
inductive HReg where
  | mstatus | medeleg | mideleg | mie | mtvec | mepc | mcause | mtval | mip
  | sstatus | sideleg | sie | stvec | sepc | scause | stval | sip
  deriving DecidableEq, Repr

/-- Their numbers (riscv_csr.h:44-285). -/
def HReg.number : HReg → BitVec 12
  | .mstatus => 0x300#12 | .medeleg => 0x302#12 | .mideleg => 0x303#12 | .mie => 0x304#12
  | .mtvec => 0x305#12 | .mepc => 0x341#12 | .mcause => 0x342#12 | .mtval => 0x343#12 | .mip => 0x344#12
  | .sstatus => 0x100#12 | .sideleg => 0x103#12 | .sie => 0x104#12 | .stvec => 0x105#12
  | .sepc => 0x141#12 | .scause => 0x142#12 | .stval => 0x143#12 | .sip => 0x144#12

def HReg.all : List HReg :=
  [.mstatus, .medeleg, .mideleg, .mie, .mtvec, .mepc, .mcause, .mtval, .mip,
   .sstatus, .sideleg, .sie, .stvec, .sepc, .scause, .stval, .sip]

/-- What `GetCsr(csr_index)` (riscv_csr.cc:98-104) finds. -/
inductive Found (n : Nat) where
  | hart (r : HReg)
  | plain (c : Csr.SimpleCsr n)
  | special
  | absent

def slotFound {n : Nat} : Slot n → Found n
  | .plain c => .plain c
  | .special => .special
  | .absent => .absent

def getCsr {n : Nat} (csrs : BitVec 12 → Slot n) (a : BitVec 12) : Found n :=
  match HReg.all.find? fun r => r.number == a with
  | some r => .hart r
  | none => slotFound (csrs a)

variable {n : Nat} {ρ : Type}

/-- `ReadCsr<T>` (riscv_zicsr_instructions.cc:33-43): `AsUint32` on RV32, `AsUint64` on RV64. -/
def readHart (h : Hart.Hart n) : HReg → BitVec n
  | .mstatus => if n = 32 then h.mstatus.as32.setWidth n else h.mstatus.as64.setWidth n
  | .sstatus => if n = 32 then (XStatus.viewAs32 h.mstatus).setWidth n
      else (XStatus.viewAs64 h.mstatus).setWidth n
  | .mip => h.mip.as64.setWidth n
  | .sip => (Xip.sipGet (h.mideleg.get 64) h.mip &&& Xip.sipReadMask).setWidth n
  | .mie => (h.mie &&& Xip.mieMask).setWidth n
  | .sie => (Xip.sieGet (h.mideleg.get 64) h.mie &&& Xip.mieMask).setWidth n
  | .medeleg => h.medeleg.as n
  | .mideleg => h.mideleg.as n
  | .sideleg => h.sideleg.as n
  | .mtvec => h.mtvec
  | .mepc => h.mepc
  | .mcause => h.mcause
  | .mtval => h.mtval
  | .stvec => h.stvec
  | .sepc => h.sepc
  | .scause => h.scause
  | .stval => h.stval

/-- The overload that is called for an operand of type `T`. -/
def opOf (k : Csr.DbKind) (v : BitVec n) : Csr.Op :=
  if n = 32 then k.op32 (v.setWidth 32) else k.op64 (v.setWidth 64)

/-- An operation on a register without masks (riscv_csr.h:389-396). -/
def whole (v : BitVec n) (o : Csr.Op) : BitVec n :=
  ((⟨v, BitVec.allOnes n, BitVec.allOnes n⟩ : Csr.SimpleCsr n).step o).value

/-- An operation on sip (riscv_csr.h:450-463 with `Set` and the getters of `RiscVSIp`,
riscv_xip_xie.cc:52-57, 76-80): the 64-bit value handed to `Write`. -/
def sipArg (g : BitVec 64) : Csr.Op → BitVec 64
  | .write32 v => v.setWidth 64
  | .write64 v => v
  | .setBits32 v => (g.setWidth 32 ||| v).setWidth 64
  | .setBits64 v => g ||| v
  | .clearBits32 v => (g.setWidth 32 &&& ~~~v).setWidth 64
  | .clearBits64 v => g &&& ~~~v

/-- `Write`, `SetBits` or `ClearBits` of a register in `Hart`. -/
def writeHart (h : Hart.Hart n) (o : Csr.Op) : HReg → Hart.Hart n
  | .mstatus => h.setMstatus (h.mstatus.csrOp o)
  | .sstatus => h.setMstatus (XStatus.sstatusOp h.mstatus o)
  | .mip => h.setMip (h.mip.csrOp o)
  | .sip => h.setMip (Xip.sipWrite (h.mideleg.get 64) h.mip
      (sipArg (Xip.sipGet (h.mideleg.get 64) h.mip) o))
  | .mie => h.setMie (Xip.mieOp h.mie o)
  | .sie => h.setMie (Xip.sieWrite (h.mideleg.get 64) h.mie
      (sipArg (Xip.sieGet (h.mideleg.get 64) h.mie) o))
  | .medeleg => { h with medeleg := h.medeleg.step o }
  | .mideleg => { h with mideleg := h.mideleg.step o }
  | .sideleg => { h with sideleg := h.sideleg.step o }
  | .mtvec => { h with mtvec := whole h.mtvec o }
  | .mepc => { h with mepc := whole h.mepc o }
  | .mcause => { h with mcause := whole h.mcause o }
  | .mtval => { h with mtval := whole h.mtval o }
  | .stvec => { h with stvec := whole h.stvec o }
  | .sepc => { h with sepc := whole h.sepc o }
  | .scause => { h with scause := whole h.scause o }
  | .stval => { h with stval := whole h.stval o }

/-- The value of the register found; none for one that is not modelled. -/
def readFound (h : Hart.Hart n) : Found n → Option (BitVec n)
  | .hart r => some (readHart h r)
  | .plain c => some (c.as n)
  | _ => none

/-- The register found at `a` changed. -/
def writeFound (st : XSt n ρ) (a : BitVec 12) (o : Csr.Op) : Found n → XSt n ρ
  | .hart r => { st with base := withHart st.base (writeHart st.base.core.hart o r) }
  | .plain c => { st with csrs := fun b => if b = a then .plain (c.step o) else st.csrs b }
  | _ => st

/-- The semantic functions by name (riscv_zicsr_instructions.cc:210-280). -/
def csrFns : Xlen → List (String × Zicsr.Sem)
  | .rv32 => [("RV32::RiscVZiCsrrw", .csrrw), ("RV32::RiscVZiCsrrs", .csrrs), ("RV32::RiscVZiCsrrc", .csrrc),
      ("RV32::RiscVZiCsrrwNr", .csrrwNr), ("RV32::RiscVZiCsrrNw", .csrrNw)]
  | .rv64 => [("RV64::RiscVZiCsrrw", .csrrw), ("RV64::RiscVZiCsrrs", .csrrs), ("RV64::RiscVZiCsrrc", .csrrc),
      ("RV64::RiscVZiCsrrwNr", .csrrwNr), ("RV64::RiscVZiCsrrNw", .csrrNw)]

def csrFn (x : Xlen) (name : String) : Option Zicsr.Sem :=
  ((csrFns x).find? fun p => p.1 == name).map fun p => p.2

structure CAct where
  sem : Zicsr.Sem
  ops : Act
  deriving DecidableEq, Repr

def csrAct (x : Xlen) (p : Phase) : Option CAct :=
  (p.fn.bind fun c => csrFn x c.name).map fun m => ⟨m, ⟨.nop, p.srcs, p.dsts⟩⟩

def csrPart (x : Xlen) : List Phase → Option CAct
  | [p] => csrAct x p
  | _ => none

/-- The description of an instruction, by its name. -/
def csrActs (s : Sim) (o : Op) : Option CAct :=
  (s.isa.instrs.find? fun i => i.name == opName o).bind fun i => csrPart s.xlen i.phases

/-- `CheckCsrPermission` (riscv_zicsr_instructions.cc:47-69). -/
def refusedCsr (h : Hart.Hart n) (a : BitVec 12) : Bool :=
  decide (h.mode.toNat < ((a >>> 8) &&& 3#12).toNat) ||
    (decide (h.mode = Hart.S) && decide (a = 0x180#12) && decide (h.mstatus.getter .tvm ≠ 0))

/-- Which source is the number of the register: `Source(1)`, in `RVZiCsrrNw` `Source(0)`. -/
def csrSource : Zicsr.Sem → Nat
  | .csrrNw => 0
  | _ => 1

/-- Destination 0 is set to `v`. -/
def putCsr (s : Sim) (w : Nat) (a : Act) (v : BitVec n) (st : XSt n ρ) : Option (XSt n ρ) :=
  (dstAt s w a 0).bind fun d => (put st.base.core d v).map fun c =>
    { st with base := { st.base with core := c } }

/-- The five templates (riscv_zicsr_instructions.cc:74-208) after the register has been found. -/
def access (s : Sim) (w : Nat) (p : CAct) (a : BitVec 12) (f : Found n) (st : XSt n ρ) : Option (XSt n ρ) :=
  (readFound st.base.core.hart f).bind fun old =>
    match p.sem with
    | .csrrw => (srcAt s w st.base.core p.ops 0).bind fun v =>
        (putCsr s w p.ops old st).map fun st' => writeFound st' a (opOf .write v) f
    | .csrrs => (srcAt s w st.base.core p.ops 0).bind fun v =>
        (putCsr s w p.ops old st).map fun st' => writeFound st' a (opOf .setBits v) f
    | .csrrc => (srcAt s w st.base.core p.ops 0).bind fun v =>
        (putCsr s w p.ops old st).map fun st' => writeFound st' a (opOf .clearBits v) f
    | .csrrwNr => (srcAt s w st.base.core p.ops 0).map fun v => writeFound st a (opOf .write v) f
    | .csrrNw => putCsr s w p.ops old st

/-- A register that is not there is only logged. -/
def accessCsr (s : Sim) (w : Nat) (p : CAct) (a : BitVec 12) (st : XSt n ρ) : Found n → Option (XSt n ρ)
  | .absent => some st
  | f => access s w p a f st

/-- One CSR instruction at `addr`. -/
def csrCarry (s : Sim) (w : Nat) (addr : BitVec 64) (st : XSt n ρ) (p : CAct) : Option (XSt n ρ) :=
  (srcAt s w st.base.core p.ops (csrSource p.sem)).bind fun v =>
    if refusedCsr st.base.core.hart (v.setWidth 12) then some { st with base := fault st.base 2#64 addr }
    else accessCsr s w p (v.setWidth 12) st (getCsr st.csrs (v.setWidth 12))

/-- One turn of the loop of `RiscVTop` with a CSR instruction. -/
def csrTurn (s : Sim) (i : Inst) (w : Nat) (size : Nat) (st : XSt s.xlen.bits ρ) :
    Option (XSt s.xlen.bits ρ) :=
  let pc : BitVec 64 := st.base.core.hart.pc.setWidth 64
  (csrActs s i.op).bind fun p => (csrCarry s w pc st p).map fun st' =>
    { st' with base := { st'.base with core := next st'.base.core pc size } }

/-- A turn with any instruction of the model. -/
def turnZ (s : Sim) (i : Inst) (w : Nat) (size : Nat) (dev : Option (Atomic.Device ρ))
    (st : XSt s.xlen.bits ρ) : Option (XSt s.xlen.bits ρ) :=
  match csrActs s i.op with
  | some _ => csrTurn s i w size st
  | none => (turnX s i w size dev st.base).map fun b => { st with base := b }

/-- A turn, with some entry of the decoder that the word matches. -/
def TurnZ (s : Sim) (dev : Option (Atomic.Device ρ)) (st st' : XSt s.xlen.bits ρ) : Prop :=
  ∃ i size, Finds s (wordAt st.base.core) i size ∧
    turnZ s i (wordAt st.base.core) size dev st = some st'

end Verif.Exec
