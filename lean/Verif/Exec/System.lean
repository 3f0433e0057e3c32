import Verif.Exec.Model
import Verif.Dispatch.Model
import Verif.Atomic.Model

/-!
# System and atomic instructions, from the word in memory

The composition of `Exec.Model` for the instructions whose semantic functions need more than the core:
the trap and return instructions, fences, and the A extension, which works through the atomic memory of
the program that embeds the simulator (`Atomic.Device`).

Simplification: no handler is installed for `ecall`, `ebreak` and `wfi` (`Dispatch.Model` has them), the
trap callback declines, and the physical memory protection is not consulted (the code does not either).
-/

namespace Verif.Exec

open Decode Decode.Isa Core Operands

/-- What a semantic function does. -/
inductive Sys where
  /-- `RiscVIEcall` (riscv_i_instructions.cc:614-617): `RiscVState::ECall` -/
  | ecall
  /-- `RiscVIEbreak` (riscv_i_instructions.cc:619-622): `RiscVState::EBreak` -/
  | ebreak
  /-- `RiscVPrivMRet` (riscv_priv_instructions.cc:100-159, 237-292) -/
  | mret
  /-- `RiscVPrivSRet` (riscv_priv_instructions.cc:45-98, 167-235) -/
  | sret
  /-- `RiscVPrivSFenceVma…` (riscv_priv_instructions.cc:300-350) -/
  | sfence
  /-- `RiscVIFence`, `RiscVIFenceTso` (riscv_i_instructions.cc:600-612), `RiscVZFencei`
  (riscv_zfencei_instructions.cc:24-27), `RiscVPrivWfi` (riscv_priv_instructions.cc:294-298): the functions
  `Fence`, `FenceI` and `WFI` of the state change nothing (riscv_state.cc:576-583, 626-637). -/
  | quiet
  /-- the functions of riscv_a_instructions.cc:71-182 -/
  | atomic (i : Atomic.Insn) (sz : Mem.Size)
  deriving DecidableEq, Repr

/-- The semantic functions by name (the declarations cited at `Sys`). -/
def sysFns : List (String × Sys) :=
  [("RiscVIEcall", .ecall), ("RiscVIEbreak", .ebreak),
   ("RiscVIFence", .quiet), ("RiscVIFenceTso", .quiet), ("RiscVZFencei", .quiet), ("RiscVPrivWfi", .quiet),
   ("RiscVPrivSFenceVmaZZ", .sfence), ("RiscVPrivSFenceVmaZN", .sfence),
   ("RiscVPrivSFenceVmaNZ", .sfence), ("RiscVPrivSFenceVmaNN", .sfence),
   ("ALrw", .atomic .lr .w), ("AScw", .atomic .sc .w), ("AAmoswapw", .atomic .amoswap .w),
   ("AAmoaddw", .atomic .amoadd .w), ("AAmoandw", .atomic .amoand .w), ("AAmoorw", .atomic .amoor .w),
   ("AAmoxorw", .atomic .amoxor .w), ("AAmomaxw", .atomic .amomax .w), ("AAmomaxuw", .atomic .amomaxu .w),
   ("AAmominw", .atomic .amomin .w), ("AAmominuw", .atomic .amominu .w),
   ("ALrd", .atomic .lr .d), ("AScd", .atomic .sc .d), ("AAmoswapd", .atomic .amoswap .d),
   ("AAmoaddd", .atomic .amoadd .d), ("AAmoandd", .atomic .amoand .d), ("AAmoord", .atomic .amoor .d),
   ("AAmoxord", .atomic .amoxor .d), ("AAmomaxd", .atomic .amomax .d), ("AAmomaxud", .atomic .amomaxu .d),
   ("AAmomind", .atomic .amomin .d), ("AAmominud", .atomic .amominu .d)]

/-- Those that exist for RV32 and RV64 separately. -/
def retFns : Xlen → List (String × Sys)
  | .rv32 => [("RV32::RiscVPrivMRet", .mret), ("RV32::RiscVPrivSRet", .sret)]
  | .rv64 => [("RV64::RiscVPrivMRet", .mret), ("RV64::RiscVPrivSRet", .sret)]

def sysFn (x : Xlen) (name : String) : Option Sys :=
  ((retFns x ++ sysFns).find? fun p => p.1 == name).map fun p => p.2

/-- The part of a system or atomic instruction that runs first: its function and its operands. -/
structure SAct where
  sem : Sys
  ops : Act
  deriving DecidableEq, Repr

def sysAct (x : Xlen) (p : Phase) : Option SAct :=
  (p.fn.bind fun c => sysFn x c.name).map fun m => ⟨m, ⟨.nop, p.srcs, p.dsts⟩⟩

/-- The one or two parts of an instruction. -/
def sysParts (x : Xlen) : List Phase → Option (SAct × Option Act)
  | [p] => (sysAct x p).map fun a => (a, none)
  | [p, q] => (sysAct x p).bind fun a => (act x q).map fun b => (a, some b)
  | _ => none

/-- The description of an instruction, by its name. -/
def sysActs (s : Sim) (o : Op) : Option (SAct × Option Act) :=
  (s.isa.instrs.find? fun i => i.name == opName o).bind fun i => sysParts s.xlen i.phases

variable {n : Nat} {ρ : Type}

/-- An exception with no trap value, nothing else changed. -/
def fault (st : Atomic.St n ρ) (code addr : BitVec 64) : Atomic.St n ρ :=
  { st with core := raise st.core 0#64 code addr false }

/-- The privilege and control registers of the state replaced. -/
def withHart (st : Atomic.St n ρ) (h : Hart.Hart n) : Atomic.St n ρ :=
  { st with core := { st.core with hart := h } }

/-- `RiscVState::ECall` without a handler (riscv_state.cc:595-612). -/
def doEcall (st : Atomic.St n ρ) (addr : BitVec 64) : Atomic.St n ρ :=
  match Dispatch.callCode st.core.hart.mode with
  | some code => fault st code addr
  | none => st

/-- A return writes its target to destination 0, which must be the program counter. -/
def doReturn (d : Dst) (st : Atomic.St n ρ) (h : Hart.Hart n) : Option (Atomic.St n ρ) :=
  match d with
  | .pc => some (withHart st h)
  | _ => none

/-- The operand of an atomic operation (riscv_a_instructions.cc:53-58): source 1, of the size of the
access. -/
def storeValue (s : Sim) (w : Nat) (c : Core n) (a : Act) (i : Atomic.Insn) (sz : Mem.Size) :
    Option (Option Nat) :=
  if (Atomic.semOp i).2 then (srcAt s w c a 1).map fun v => some (v.toNat % 2 ^ (8 * sz.bytes)) else some none

/-- The second part: the value left by the memory goes to the destination. -/
def finish (s : Sim) (w : Nat) (b : Act) (st : Atomic.St n ρ) (v : Nat) : Option (Atomic.St n ρ) :=
  match b.sem with
  | .child sz sgn => (dstAt s w b 0).bind fun d =>
      (put st.core d (Mem.extend n sgn sz.bytes v)).map fun c => { st with core := c }
  | _ => none

/-- `AInstructionHelper` (riscv_a_instructions.cc:37-69) and the child instruction. -/
def doAtomic (s : Sim) (w : Nat) (addr : BitVec 64) (dev : Option (Atomic.Device ρ)) (a b : Act)
    (i : Atomic.Insn) (sz : Mem.Size) (st : Atomic.St n ρ) : Option (Atomic.St n ρ) :=
  match dev with
  | none => some (fault st 2#64 addr)
  | some d => (srcAt s w st.core a 0).bind fun u => (storeValue s w st.core a i sz).bind fun v =>
    match d (st.resv, st.core.mem) ⟨u.setWidth 64, (Atomic.semOp i).1, sz.bytes, v⟩ with
    | none => some (fault st 2#64 addr)
    | some ((r, m), x) => finish s w b { resv := r, core := { st.core with mem := m } } x

/-- One system or atomic instruction at `addr`. -/
def sysCarry (s : Sim) (w : Nat) (addr : BitVec 64) (dev : Option (Atomic.Device ρ)) (st : Atomic.St n ρ)
    (p : SAct × Option Act) : Option (Atomic.St n ρ) :=
  match p.1.sem, p.2 with
  | .ecall, none => some (doEcall st addr)
  | .ebreak, none => some (fault st 3#64 addr)
  | .mret, none => (dstAt s w p.1.ops 0).bind fun d => doReturn d st (st.core.hart.mret addr)
  | .sret, none => (dstAt s w p.1.ops 0).bind fun d => doReturn d st (st.core.hart.sret addr)
  | .sfence, none => some (withHart st (st.core.hart.sfenceVma addr))
  | .quiet, none => some st
  | .atomic i sz, some b => doAtomic s w addr dev p.1.ops b i sz st
  | _, _ => none

/-- One turn of the loop of `RiscVTop` (riscv_top.cc:259, 282-288) with a system or atomic instruction. -/
def sysTurn (s : Sim) (i : Inst) (w : Nat) (size : Nat) (dev : Option (Atomic.Device ρ))
    (st : Atomic.St s.xlen.bits ρ) : Option (Atomic.St s.xlen.bits ρ) :=
  let pc : BitVec 64 := st.core.hart.pc.setWidth 64
  (sysActs s i.op).bind fun p => (sysCarry s w pc dev st p).map fun st' =>
    { st' with core := next st'.core pc size }

/-- A turn with any instruction of the model. -/
def turnX (s : Sim) (i : Inst) (w : Nat) (size : Nat) (dev : Option (Atomic.Device ρ))
    (st : Atomic.St s.xlen.bits ρ) : Option (Atomic.St s.xlen.bits ρ) :=
  match acts s i.op with
  | some _ => (turn s i w size st.core).map fun c => { st with core := c }
  | none => sysTurn s i w size dev st

/-- A turn, with some entry of the decoder that the word matches. -/
def TurnX (s : Sim) (dev : Option (Atomic.Device ρ)) (st st' : Atomic.St s.xlen.bits ρ) : Prop :=
  ∃ i size, Finds s (wordAt st.core) i size ∧ turnX s i (wordAt st.core) size dev st = some st'

end Verif.Exec
