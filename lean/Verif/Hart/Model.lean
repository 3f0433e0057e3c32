import Verif.Csr.Model
import Verif.XStatus.Model
import Verif.Xip.Model
/-
Model of interrupt evaluation, trap entry and trap return
(riscv/riscv_state.cc:665-885, riscv/riscv_priv_instructions.cc).

`w` is xlen (32 or 64). Simplifications, valid for everything in this file:
* the data-buffer delay line is not modelled: a write submitted to the pc takes effect at once;
* the minstret correction at the start of `Trap` (riscv_state.cc:668-680) is in `Verif.Counter`;
* the user `on_trap_` callback (riscv_state.cc:681-684) is represented by its answer only.
-/
namespace Verif.Hart
open Verif.Csr (Op SimpleCsr)
open Verif.XStatus (MStatus Field)
open Verif.Xip (MIp MipEvent)

/-- `PrivilegeMode` (riscv_state.h:148-152). `2` is not an enumerator, but `static_cast` from
MPP can produce it. -/
abbrev Mode := BitVec 2
def U : Mode := 0
def S : Mode := 1
def M : Mode := 3

/-- The part of `RiscVState` used by interrupts and traps. -/
structure Hart (w : Nat) where
  mode : Mode
  mstatus : MStatus
  mip : MIp
  mie : BitVec 64
  mideleg : SimpleCsr w
  sideleg : SimpleCsr w
  medeleg : SimpleCsr w
  mepc : BitVec w
  mcause : BitVec w
  mtval : BitVec w
  mtvec : BitVec w
  sepc : BitVec w
  scause : BitVec w
  stval : BitVec w
  stvec : BitVec w
  pc : BitVec w
  branch : Bool
  /-- `is_interrupt_available_` -/
  avail : Bool
  /-- `available_interrupt_code_`; `kNone` is all ones -/
  code : BitVec 64
  /-- `counter_interrupts_taken_`, `counter_interrupt_returns_` -/
  taken : Nat
  returns : Nat

variable {w : Nat}

/-- `InterruptCode::kNone` (riscv_state.h:113). -/
def kNone : BitVec 64 := -1

/-- Reset state: CSR initial values of `CreateCsrs` (riscv_state.cc:171-406); execution starts in
machine mode (riscv_state.h, `privilege_mode_`). -/
def Hart.init (w : Nat) (hasS : Bool) : Hart w :=
  { mode := M, mstatus := MStatus.init hasS, mip := ⟨0, false⟩, mie := 0
    mideleg := ⟨0, 0xbbb, 0xbbb⟩, sideleg := ⟨0, 0xbbb, 0xbbb⟩, medeleg := ⟨0, 0xb3ff, 0xb3ff⟩
    mepc := 0, mcause := 0, mtval := 0, mtvec := 0, sepc := 0, scause := 0, stval := 0, stvec := 0
    pc := 0, branch := false, avail := false, code := kNone, taken := 0, returns := 0 }

/-- `PickInterrupt` (riscv_state.cc:862-885). -/
def pick (x : BitVec 32) : BitVec 64 :=
  if x &&& ((1 : BitVec 32) <<< 11) ≠ 0 then 11
  else if x &&& ((1 : BitVec 32) <<< 3) ≠ 0 then 3
  else if x &&& ((1 : BitVec 32) <<< 7) ≠ 0 then 7
  else if x &&& ((1 : BitVec 32) <<< 9) ≠ 0 then 9
  else if x &&& ((1 : BitVec 32) <<< 1) ≠ 0 then 1
  else if x &&& ((1 : BitVec 32) <<< 5) ≠ 0 then 5
  else if x &&& ((1 : BitVec 32) <<< 8) ≠ 0 then 8
  else if x &&& ((1 : BitVec 32) <<< 0) ≠ 0 then 0
  else if x &&& ((1 : BitVec 32) <<< 4) ≠ 0 then 4
  else kNone

namespace Hart

/-- `mie_->AsUint32()` (riscv_csr.h:443-445). -/
def mieAs32 (h : Hart w) : BitVec 32 := (h.mie &&& Xip.mieMask).setWidth 32

/-- mstatus interrupt-enable getters (riscv_xstatus.h:87-89). -/
def mieBit (h : Hart w) : Bool := h.mstatus.getter .mie ≠ 0
def sieBit (h : Hart w) : Bool := h.mstatus.getter .sie ≠ 0
def uieBit (h : Hart w) : Bool := h.mstatus.getter .uie ≠ 0

/-- `CheckForInterrupt` (riscv_state.cc:805-846). -/
def check (h : Hart w) : Hart w :=
  let interrupts := h.mip.as32 &&& h.mieAs32
  if interrupts = 0 then h else
  let mInts := interrupts &&& ~~~(h.mideleg.as 32)
  let interrupts := interrupts &&& h.mideleg.as 32
  let sInts := interrupts &&& ~~~(h.sideleg.as 32)
  let uInts := interrupts &&& h.sideleg.as 32
  let mie := h.mode ≠ M || h.mieBit
  let sie := (h.mode.toNat < S.toNat || h.sieBit) && h.mode ≠ M
  let uie := h.uieBit && h.mode = U
  if !(mie || sie || uie) then h
  else if mie && mInts ≠ 0 then { h with code := pick mInts, avail := true }
  else if sie && sInts ≠ 0 then { h with code := pick sInts, avail := true }
  else if uie && uInts ≠ 0 then h  -- logged as unsupported
  else h

/-- Storing a new mip value through `RiscVMIp::Set` (riscv_xip_xie.cc:30-35). -/
def setMip (h : Hart w) (m : MIp) : Hart w :=
  let h' := { h with mip := m }
  if m.stored ≠ 0 then h'.check else h'

/-- Storing a new mie value through `RiscVMIe::Set` (riscv_xip_xie.cc:66-71). -/
def setMie (h : Hart w) (v : BitVec 64) : Hart w :=
  let h' := { h with mie := v }
  if v ≠ 0 then h'.check else h'

/-- Storing a new mstatus value through `RiscVMStatus::Set` (riscv_xstatus.cc:107-113). -/
def setMstatus (h : Hart w) (m : MStatus) : Hart w :=
  let h' := { h with mstatus := m }
  if m.value &&& 0xf ≠ 0 then h'.check else h'

/-- Destination of a trap (riscv_state.cc:698-716). `1U << exception_code` is only defined for
codes below 32 and `1ULL << exception_code` for codes below 64; larger codes read as not
delegated here and are excluded in the theorems. -/
def dest (h : Hart w) (isInt : Bool) (code : BitVec 64) : Mode :=
  if isInt then
    if (h.mideleg.as 32).getLsbD code.toNat then
      if (h.sideleg.as 32).getLsbD code.toNat then U else S
    else M
  else
    if h.mode ≠ M ∧ (h.medeleg.as 64).getLsbD code.toNat then S else M

/-- Trap target (riscv_state.cc:739-744). -/
def target (tvec : BitVec w) (code : BitVec 64) : BitVec 64 :=
  let t := tvec.setWidth 64
  if t &&& 3 = 1 then (t &&& ~~~3) + 4 * code else t &&& ~~~3

/-- The value stored to xcause (riscv_state.cc:750-761): `Set(code)` then `SetBits` of the top
bit, on a CSR with full masks. -/
def causeValue (w : Nat) (isInt : Bool) (code : BitVec 64) : BitVec w :=
  if isInt then code.setWidth w ||| ((1 : BitVec w) <<< (w - 1)) else code.setWidth w

/-- `Trap` (riscv_state.cc:665-799) without the minstret correction. `handled` is the answer of
the `on_trap_` callback (false if there is none). -/
def trap (h : Hart w) (isInt : Bool) (tval code epc : BitVec 64) (handled : Bool := false) :
    Hart w :=
  if handled then h else
  let d := h.dest isInt code
  if d = M then
    let us : List (Field × BitVec 32) :=
      [(.mpp, h.mode.setWidth 32), (.mpie, (h.mstatus.getter .mie).setWidth 32), (.mie, 0)]
    let h1 := { h with
      mepc := epc.setWidth w, mtval := tval.setWidth w, mcause := causeValue w isInt code
      pc := (target h.mtvec code).setWidth w, branch := true, mode := d }
    h1.setMstatus (h.mstatus.update us)
  else if d = S then
    let us : List (Field × BitVec 32) :=
      [(.spp, h.mode.setWidth 32 &&& 1), (.spie, (h.mstatus.getter .sie).setWidth 32), (.sie, 0)]
    let h1 := { h with
      sepc := epc.setWidth w, stval := tval.setWidth w, scause := causeValue w isInt code
      pc := (target h.stvec code).setWidth w, branch := true, mode := d }
    h1.setMstatus (h.mstatus.update us)
  else h  -- "Invalid destination execution mode"

/-- `TakeAvailableInterrupt` (riscv_state.cc:849-858). -/
def takeAvailable (h : Hart w) (epc : BitVec 64) (handled : Bool := false) : Hart w :=
  if h.avail then
    let h1 := h.trap true 0 h.code epc handled
    { h1 with avail := false, taken := h1.taken + 1, code := kNone }
  else h

/-- `ExceptionCode::kIllegalInstruction` (riscv_state.h). -/
def kIllegal : BitVec 64 := 2

/-- The part of mret after the checks (riscv_priv_instructions.cc:107-152, 244-289). All CSRs are
present; `HasUserMode` is constant true. -/
def mretBody (h : Hart w) : Hart w :=
  let us : List (Field × BitVec 32) :=
    [(.mie, (h.mstatus.getter .mpie).setWidth 32), (.mpie, 1), (.mpp, 0)]
  let h1 := { h with
    pc := h.mepc, branch := true, mode := (h.mstatus.getter .mpp).setWidth 2
    returns := h.returns + 1 }
  h1.setMstatus (h.mstatus.update us)

/-- `RiscVPrivMRet` (riscv_priv_instructions.cc:100-153, 237-290). -/
def mret (h : Hart w) (addr : BitVec 64) (handled : Bool := false) : Hart w :=
  if h.mode ≠ M then h.trap false 0 kIllegal addr handled else h.mretBody

/-- The part of sret after the checks (riscv_priv_instructions.cc:57-97, 182-234). -/
def sretBody (h : Hart w) : Hart w :=
  let us : List (Field × BitVec 32) :=
    [(.sie, (h.mstatus.getter .spie).setWidth 32), (.spie, 1), (.spp, 0)]
  let h1 := { h with
    pc := h.sepc, branch := true, mode := (h.mstatus.getter .spp).setWidth 2
    returns := h.returns + 1 }
  h1.setMstatus (h.mstatus.update us)

/-- The privilege test of sret: RV32 requires supervisor mode exactly
(riscv_priv_instructions.cc:47), RV64 supervisor or above (riscv_priv_instructions.cc:169). -/
def sretBadMode (h : Hart w) : Bool :=
  if w = 32 then h.mode ≠ S else h.mode.toNat < S.toNat

/-- `RiscVPrivSRet` (riscv_priv_instructions.cc:45-98, 167-235). -/
def sret (h : Hart w) (addr : BitVec 64) (handled : Bool := false) : Hart w :=
  if h.sretBadMode then h.trap false 0 kIllegal addr handled
  else if h.mstatus.getter .tsr ≠ 0 then h.trap false 0 kIllegal addr handled
  else h.sretBody

/-- `RiscVPrivSFenceVma{ZZ,ZN,NZ,NN}` (riscv_priv_instructions.cc:300-350): all four bodies are
the same; beyond the check they do nothing. -/
def sfenceVma (h : Hart w) (addr : BitVec 64) (handled : Bool := false) : Hart w :=
  if h.mode = U ∨ (h.mode = S ∧ h.mstatus.getter .tvm ≠ 0) then
    h.trap false 0 kIllegal addr handled
  else h

/-- `InterruptHandlerDepth` (riscv_state.h:326-329). -/
def depth (h : Hart w) : Int := (h.taken : Int) - h.returns

end Hart

/-- What can happen to this part of the hart. -/
inductive Ev (w : Nat) where
  | mip (e : MipEvent)
  | mie (op : Op)
  | sip (v : BitVec 64)
  | sie (v : BitVec 64)
  | mstatus (op : Op)
  | sstatus (op : Op)
  | mideleg (op : Op)
  | sideleg (op : Op)
  | medeleg (op : Op)
  | mtvec (v : BitVec w)
  | stvec (v : BitVec w)
  | mepc (v : BitVec w)
  | sepc (v : BitVec w)
  | exception (tval code epc : BitVec 64)
  | take (epc : BitVec 64)
  | mret (addr : BitVec 64)
  | sret (addr : BitVec 64)

/-- One event: CSR writes by software, line changes by the interrupt controller, exceptions,
interrupt taking by the run loop (riscv_top.cc:340-347), and trap returns. -/
def step (h : Hart w) : Ev w → Hart w
  | .mip (.ext v) => { h with mip := h.mip.setExtSeip v }
  | .mip e => h.setMip (Xip.mipStep h.mip e)
  | .mie op => h.setMie (Xip.mieOp h.mie op)
  | .sip v => h.setMip (Xip.sipWrite (h.mideleg.get 64) h.mip v)
  | .sie v => h.setMie (Xip.sieWrite (h.mideleg.get 64) h.mie v)
  | .mstatus op => h.setMstatus (h.mstatus.csrOp op)
  | .sstatus op => h.setMstatus (XStatus.sstatusOp h.mstatus op)
  | .mideleg op => { h with mideleg := h.mideleg.step op }
  | .sideleg op => { h with sideleg := h.sideleg.step op }
  | .medeleg op => { h with medeleg := h.medeleg.step op }
  | .mtvec v => { h with mtvec := v }
  | .stvec v => { h with stvec := v }
  | .mepc v => { h with mepc := v }
  | .sepc v => { h with sepc := v }
  | .exception t c e => h.trap false t c e
  | .take e => h.takeAvailable e
  | .mret a => h.mret a
  | .sret a => h.sret a

/-- A history from reset. -/
def run (h : Hart w) (es : List (Ev w)) : Hart w := es.foldl step h

end Verif.Hart
