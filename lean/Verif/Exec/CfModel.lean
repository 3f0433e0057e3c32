import Verif.Exec.FkModel

/-!
# Compressed loads and stores of floating-point registers

The composition of `Exec.FkModel` with `c.flw`, `c.fld`, `c.fsw`, `c.fsd` and their forms relative to the stack
pointer.  Their semantic functions are those of integer loads and stores, on RV32 in part those of RV64
(riscv32g.isa:872-918, riscv64g.isa:1050-1089).
-/

namespace Verif.Exec

open Decode Decode.Isa Core Operands

/-- The first part of a load, with the width of its registers and the bytes loaded
(riscv_i_instructions.cc:433-439, 483-485). -/
def qLoads : List (String × (Nat × Nat)) :=
  [("RV32::RiscVILw", (32, 4)), ("RV64::RiscVILd", (64, 8))]

/-- The second part (riscv_i_instructions.cc:441-443, 487-489). -/
def qBacks : List (String × FpMem.Back) :=
  [("RV32::RiscVILwChild", .low), ("RV64::RiscVILdChild", .whole)]

/-- Stores: width of the registers, bytes, and whether nothing is done while FS is 0
(riscv_i_instructions.cc:549-551, 567-573; riscv_d_instructions.cc:363-375). -/
def qStores : List (String × (Nat × Nat × Bool)) :=
  [("RV32::RiscVISw", (32, 4, false)), ("RV64::RiscVISd", (64, 8, false)), ("RV32::RiscVDSd", (32, 8, true))]

/-- What the functions of an instruction do. -/
inductive QSem where
  | load (width bytes : Nat) (back : FpMem.Back) (to : Act)
  | store (width bytes : Nat) (checks : Bool)
  deriving DecidableEq

structure QAct where
  sem : QSem
  ops : Act
  deriving DecidableEq

def qOne (p : Phase) : Option QAct :=
  (p.fn.bind fun c => byName qStores c.name).map fun m => ⟨.store m.1 m.2.1 m.2.2, opsOf p⟩

def qTwo (p q : Phase) : Option QAct :=
  (p.fn.bind fun c => byName qLoads c.name).bind fun m =>
    (q.fn.bind fun c => byName qBacks c.name).map fun b => ⟨.load m.1 m.2 b (opsOf q), opsOf p⟩

def qParts : List Phase → Option QAct
  | [p] => qOne p
  | [p, q] => qTwo p q
  | _ => none

/-- The instructions. -/
def qOps : List Op := [.cflw, .cfld, .cfsw, .cfsd, .cflwsp, .cfldsp, .cfswsp, .cfsdsp]

/-- The description of such an instruction, by its name. -/
def qActs (s : Sim) (o : Op) : Option QAct :=
  if qOps.contains o then
    (s.isa.instrs.find? fun i => i.name == opName o).bind fun i => qParts i.phases
  else none

variable {n : Nat} {ρ : Type} {H : FpState.Host}

/-- The address formed with registers of `width` bits (riscv_instruction_helpers.h:379-381, 417-419); see
`FpMem.address`. -/
def addressQ (width : Nat) (s : Sim) (w : Nat) (a : Act) (st : FSt n ρ H) : Option (BitVec 64) :=
  (srcAt s w st.core a 0).bind fun b => (srcAt s w st.core a 1).map fun o =>
    (b.setWidth width + o.setWidth width).setWidth 64

/-- The loaded number for an integer register: `Set<int32_t>` for registers of 32 bits, `Set<uint64_t>` for
registers of 64 bits.  A number of 64 bits for a register of 32 bits is written beyond its buffer, which has no
meaning. -/
def wholeX (n : Nat) (b : FpMem.Back) (v : Nat) : Option (BitVec n) :=
  match b with
  | .low => if n = 32 then some (BitVec.ofNat n v) else none
  | .whole => if n = 64 then some (BitVec.ofNat n v) else none
  | .box _ => none

/-- The destination gets the loaded number; it is an integer register in some encodings. -/
def backQ (s : Sim) (w : Nat) (b : FpMem.Back) (q : Act) (st : FSt n ρ H) (v : Nat) : Option (FSt n ρ H) :=
  match fdstAt s w q 0 with
  | some r => some (st.setF r (FpMem.back b (st.fregs r) v))
  | none => (wholeX n b v).bind fun u => putX s w q u st

def loadedQ (s : Sim) (w : Nat) (b : FpMem.Back) (q : Act) (st : FSt n ρ H) :
    Mem.Loaded n Nat → Option (FSt n ρ H)
  | .trapped c => some (st.withCore c)
  | .value v => backQ s w b q st v

/-- One such instruction at `addr` (riscv_instruction_helpers.h:374-426). -/
def carryQ (s : Sim) (w : Nat) (addr : BitVec 64) (st : FSt n ρ H) (p : QAct) : Option (FSt n ρ H) :=
  match p.sem with
  | .load width bytes b q => (addressQ width s w p.ops st).bind fun u =>
      loadedQ s w b q st (Mem.load st.core u bytes addr false)
  | .store width bytes checks =>
    if checks && unitOff st then some st
    else (addressQ width s w p.ops st).bind fun u => (fsrcAt s w p.ops 2).map fun r =>
      st.withCore (Mem.store st.core u bytes ((st.fregs r).toNat % 2 ^ (8 * bytes)) addr false)

/-- A turn with such an instruction. -/
def qTurn (s : Sim) (p : QAct) (w : Nat) (size : Nat) (st : FSt n ρ H) : Option (FSt n ρ H) :=
  (carryQ s w (st.core.hart.pc.setWidth 64) st p).map fun st' => closeF st' (st.core.hart.pc.setWidth 64) size

/-- A turn with any instruction of the model. -/
def turnQ (A : Arith H) (C : Cvt) (s : Sim) (i : Inst) (w : Nat) (size : Nat) (dev : Option (Atomic.Device ρ))
    (st : FSt s.xlen.bits ρ H) : Option (FSt s.xlen.bits ρ H) :=
  match qActs s i.op with
  | some p => qTurn s p w size st
  | none => turnK A C s i w size dev st

/-- A turn, with some entry of the decoder that the word matches, or with the default if there is
none. -/
def TurnQ (A : Arith H) (C : Cvt) (s : Sim) (dev : Option (Atomic.Device ρ)) (st st' : FSt s.xlen.bits ρ H) : Prop :=
  (∃ i size, Finds s (wordAt st.core) i size ∧ turnQ A C s i (wordAt st.core) size dev st = some st') ∨
  ((∀ i size, ¬ Finds s (wordAt st.core) i size) ∧ st' = refusedF s st)

end Verif.Exec
