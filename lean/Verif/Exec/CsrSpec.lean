import Verif.Exec.SpecS
import Verif.Exec.CsrModel
import Verif.Zicsr.Spec

/-!
# CSR instructions, by the manual

A register is named by its number.  `Holds` says what reading it gives, `Takes` what writing it does to
the state.
-/

namespace Verif.Exec.Spec

open Decode Decode.Isa Core
open Zicsr (Insn)
open Zicsr.Spec (minMode readOnly writes newBit)
open XStatus.Spec (field)

def ckind : Op → Option Insn
  | .csrrw => some .rw
  | .csrrs => some .rs
  | .csrrc => some .rc
  | .csrrwi => some .rwi
  | .csrrsi => some .rsi
  | .csrrci => some .rci
  | _ => none

/-- The word `w` is a CSR instruction. -/
def IsC (x : Xlen) (w : Nat) (i : Insn) : Prop := ∃ o, ckind o = some i ∧ Listed x o w

variable {n : Nat} {ρ : Type}

/-- The number of the register: bits 31 to 20. -/
def csrNo (w : Nat) : BitVec 12 := BitVec.ofNat 12 (Getters.Spec.unsigned w (Getters.Spec.positions [(31, 20)]))

/-- The operand: a register, or the number in its place. -/
def csrOperand (c : Core n) (i : Insn) (w : Nat) : BitVec n :=
  match i with
  | .rw | .rs | .rc => X c (rs1 w)
  | .rwi | .rsi | .rci => BitVec.ofNat n (rs1 w).toNat

/-- An access that must be refused: the mode is too low, or satp in S-mode with TVM. -/
def Forbidden (h : Hart.Hart n) (a : BitVec 12) : Prop :=
  h.mode.toNat < minMode a ∨ (h.mode = S ∧ a = 0x180#12 ∧ field h.mstatus.value .tvm = 1)

/-- The bits of mip and mie that exist. -/
def irqBit (k : Nat) : Bool := k ∈ [0, 1, 3, 4, 5, 7, 8, 9, 11]

/-- The bits of mip that software can write: those of S and U mode. -/
def softBit (k : Nat) : Bool := k ∈ [0, 1, 4, 5, 8, 9]

/-- What is read from register `a`. -/
inductive Holds (h : Hart.Hart n) (csrs : BitVec 12 → Slot n) : BitVec 12 → BitVec n → Prop where
  | mtvec : Holds h csrs 0x305#12 h.mtvec
  | mepc : Holds h csrs 0x341#12 h.mepc
  | mcause : Holds h csrs 0x342#12 h.mcause
  | mtval : Holds h csrs 0x343#12 h.mtval
  | stvec : Holds h csrs 0x105#12 h.stvec
  | sepc : Holds h csrs 0x141#12 h.sepc
  | scause : Holds h csrs 0x142#12 h.scause
  | stval : Holds h csrs 0x143#12 h.stval
  /-- every field of mstatus -/
  | mstatus (v : BitVec n) (hv : ∀ k, k < 23 → XStatus.Spec.inFields k XStatus.Spec.fields = true →
      v.getLsbD k = h.mstatus.value.getLsbD k) : Holds h csrs 0x300#12 v
  | mie (v : BitVec n) (hv : ∀ k, k < n → v.getLsbD k = (irqBit k && h.mie.getLsbD k)) :
      Holds h csrs 0x304#12 v
  | mip (v : BitVec n) (hv : ∀ k, k < n → v.getLsbD k =
      (irqBit k && (h.mip.stored.getLsbD k || (decide (k = 9) && h.mip.ext)))) : Holds h csrs 0x344#12 v
  /-- the supervisor's fields of mstatus -/
  | sstatus (v : BitVec n) (hv : ∀ k, k < 23 → XStatus.Spec.inFields k XStatus.Spec.sFields = true →
      v.getLsbD k = h.mstatus.value.getLsbD k) : Holds h csrs 0x100#12 v
  /-- the bits of mie that are delegated -/
  | sie (v : BitVec n) (hv : ∀ k, k < n → v.getLsbD k =
      (irqBit k && (h.mideleg.value.getLsbD k && h.mie.getLsbD k))) : Holds h csrs 0x104#12 v
  /-- the bits of mip that are delegated -/
  | sip (v : BitVec n) (hv : ∀ k, k < n → v.getLsbD k = (irqBit k && (h.mideleg.value.getLsbD k &&
      (h.mip.stored.getLsbD k || (decide (k = 9) && h.mip.ext))))) : Holds h csrs 0x144#12 v
  | medeleg (v : BitVec n) (hv : ∀ k, k < n → v.getLsbD k =
      (h.medeleg.value.getLsbD k && h.medeleg.readMask.getLsbD k)) : Holds h csrs 0x302#12 v
  | mideleg (v : BitVec n) (hv : ∀ k, k < n → v.getLsbD k =
      (h.mideleg.value.getLsbD k && h.mideleg.readMask.getLsbD k)) : Holds h csrs 0x303#12 v
  | sideleg (v : BitVec n) (hv : ∀ k, k < n → v.getLsbD k =
      (h.sideleg.value.getLsbD k && h.sideleg.readMask.getLsbD k)) : Holds h csrs 0x103#12 v
  | plain (a : BitVec 12) (c : Csr.SimpleCsr n) (hc : csrs a = .plain c) (v : BitVec n)
      (hv : ∀ k, k < n → v.getLsbD k = (c.value.getLsbD k && c.readMask.getLsbD k)) : Holds h csrs a v

/-- `new` follows from `old` by instruction `i` with operand `u`, where bit `k` can be written if
`wm k`. -/
def IsNew (i : Insn) (wm : Nat → Bool) (u old new : BitVec n) : Prop :=
  ∀ k, k < n → new.getLsbD k = if wm k then newBit i (old.getLsbD k) (u.getLsbD k) else old.getLsbD k

/-- The same of a register with masks; the masks stay. -/
def IsNewCsr (i : Insn) (u : BitVec n) (c c' : Csr.SimpleCsr n) : Prop :=
  IsNew i (fun k => c.writeMask.getLsbD k) u c.value c'.value ∧ c'.readMask = c.readMask ∧
    c'.writeMask = c.writeMask

/-- All bits can be written. -/
def every (_ : Nat) : Bool := true

/-- What writing register `a` does. -/
inductive Takes (i : Insn) (u : BitVec n) (h : Hart.Hart n) (csrs : BitVec 12 → Slot n) :
    BitVec 12 → Hart.Hart n → (BitVec 12 → Slot n) → Prop where
  | mtvec (v : BitVec n) (hv : IsNew i every u h.mtvec v) : Takes i u h csrs 0x305#12 { h with mtvec := v } csrs
  | mepc (v : BitVec n) (hv : IsNew i every u h.mepc v) : Takes i u h csrs 0x341#12 { h with mepc := v } csrs
  | mcause (v : BitVec n) (hv : IsNew i every u h.mcause v) :
      Takes i u h csrs 0x342#12 { h with mcause := v } csrs
  | mtval (v : BitVec n) (hv : IsNew i every u h.mtval v) : Takes i u h csrs 0x343#12 { h with mtval := v } csrs
  | stvec (v : BitVec n) (hv : IsNew i every u h.stvec v) : Takes i u h csrs 0x105#12 { h with stvec := v } csrs
  | sepc (v : BitVec n) (hv : IsNew i every u h.sepc v) : Takes i u h csrs 0x141#12 { h with sepc := v } csrs
  | scause (v : BitVec n) (hv : IsNew i every u h.scause v) :
      Takes i u h csrs 0x142#12 { h with scause := v } csrs
  | stval (v : BitVec n) (hv : IsNew i every u h.stval v) : Takes i u h csrs 0x143#12 { h with stval := v } csrs
  /-- the fields of mstatus; interrupts are looked for -/
  | mstatus (m : XStatus.MStatus) (a : Bool) (q : BitVec 64)
      (hv : ∀ k, k < 64 → m.value.getLsbD k =
        if XStatus.Spec.inFields k XStatus.Spec.fields then
          newBit i (h.mstatus.value.getLsbD k) (u.getLsbD k)
        else h.mstatus.value.getLsbD k)
      (ha : Looks (m.value &&& 0xf#64 ≠ 0#64) h { h with mstatus := m, avail := a, code := q }) :
      Takes i u h csrs 0x300#12 { h with mstatus := m, avail := a, code := q } csrs
  /-- the enable bits; interrupts are looked for -/
  | mie (e : BitVec 64) (a : Bool) (q : BitVec 64)
      (hv : ∀ k, irqBit k = true → e.getLsbD k = newBit i (h.mie.getLsbD k) (u.getLsbD k))
      (hz : ∀ k, irqBit k = false → e.getLsbD k = true → h.mie.getLsbD k = true)
      (ha : Looks (e ≠ 0#64) h { h with mie := e, avail := a, code := q }) :
      Takes i u h csrs 0x304#12 { h with mie := e, avail := a, code := q } csrs
  /-- the bits of mip that software can write; interrupts are looked for -/
  | mip (m : Xip.MIp) (a : Bool) (q : BitVec 64) (hx : m.ext = h.mip.ext)
      (hv : ∀ k, irqBit k = true → m.stored.getLsbD k =
        if softBit k then newBit i (h.mip.stored.getLsbD k) (u.getLsbD k) else h.mip.stored.getLsbD k)
      (hz : ∀ k, irqBit k = false → m.stored.getLsbD k = true → h.mip.stored.getLsbD k = true)
      (ha : Looks (m.stored ≠ 0#64) h { h with mip := m, avail := a, code := q }) :
      Takes i u h csrs 0x344#12 { h with mip := m, avail := a, code := q } csrs
  /-- the supervisor's fields of mstatus; interrupts are looked for -/
  | sstatus (m : XStatus.MStatus) (a : Bool) (q : BitVec 64)
      (hv : ∀ k, k < 64 → m.value.getLsbD k =
        if XStatus.Spec.inFields k XStatus.Spec.sFields then
          newBit i (h.mstatus.value.getLsbD k) (u.getLsbD k)
        else h.mstatus.value.getLsbD k)
      (ha : Looks (m.value &&& 0xf#64 ≠ 0#64) h { h with mstatus := m, avail := a, code := q }) :
      Takes i u h csrs 0x100#12 { h with mstatus := m, avail := a, code := q } csrs
  /-- SSIP of mip if it is delegated; interrupts are looked for -/
  | sip (m : Xip.MIp) (a : Bool) (q : BitVec 64) (hx : m.ext = h.mip.ext)
      (hv : ∀ k, irqBit k = true → m.stored.getLsbD k =
        if k = 1 ∧ h.mideleg.value.getLsbD 1 = true then newBit i (h.mip.stored.getLsbD k) (u.getLsbD k)
        else h.mip.stored.getLsbD k)
      (hz : ∀ k, irqBit k = false → m.stored.getLsbD k = true → h.mip.stored.getLsbD k = true)
      (ha : Looks (m.stored ≠ 0#64) h { h with mip := m, avail := a, code := q }) :
      Takes i u h csrs 0x144#12 { h with mip := m, avail := a, code := q } csrs
  /-- the enable bits that are delegated; interrupts are looked for -/
  | sie (e : BitVec 64) (a : Bool) (q : BitVec 64)
      (hv : ∀ k, irqBit k = true → e.getLsbD k =
        if h.mideleg.value.getLsbD k then newBit i (h.mie.getLsbD k) (u.getLsbD k) else h.mie.getLsbD k)
      (hz : ∀ k, irqBit k = false → e.getLsbD k = true → h.mie.getLsbD k = true)
      (ha : Looks (e ≠ 0#64) h { h with mie := e, avail := a, code := q }) :
      Takes i u h csrs 0x104#12 { h with mie := e, avail := a, code := q } csrs
  | medeleg (c : Csr.SimpleCsr n) (hc : IsNewCsr i u h.medeleg c) :
      Takes i u h csrs 0x302#12 { h with medeleg := c } csrs
  | mideleg (c : Csr.SimpleCsr n) (hc : IsNewCsr i u h.mideleg c) :
      Takes i u h csrs 0x303#12 { h with mideleg := c } csrs
  | sideleg (c : Csr.SimpleCsr n) (hc : IsNewCsr i u h.sideleg c) :
      Takes i u h csrs 0x103#12 { h with sideleg := c } csrs
  | plain (a : BitVec 12) (c c' : Csr.SimpleCsr n) (hc : csrs a = .plain c) (hn : IsNewCsr i u c c') :
      Takes i u h csrs a h (fun b => if b = a then .plain c' else csrs b)

/-- The numbers of the registers in `Hart`. -/
def hartNos : List (BitVec 12) :=
  [0x300#12, 0x302#12, 0x303#12, 0x304#12, 0x305#12, 0x341#12, 0x342#12, 0x343#12, 0x344#12,
   0x100#12, 0x103#12, 0x104#12, 0x105#12, 0x141#12, 0x142#12, 0x143#12, 0x144#12]

/-- The address written to mepc or sepc is one an instruction can have. -/
def Aligned (hasC : Bool) (v : BitVec n) : Prop := v.toNat % (if hasC then 2 else 4) = 0

/-- The mode written to mtvec or stvec is 0 or 1. -/
def ModeOk (v : BitVec n) : Prop := v.getLsbD 1 = false

/-- The accesses that are described here: to a register that is not `special`, not a write to a
read-only one, not a value that must not be taken over as it is (C92).  Of sie and sip only what is
delegated must be set, and neither may lose bits (C09), of sip only SSIP is written; sip and mip are
written only while the external line is low (C08), and MSIP not at all.  `wr` tells whether the instruction writes. -/
inductive Covered (c : Core n) (csrs : BitVec 12 → Slot n) (i : Insn) (wr : Bool) (u : BitVec n) :
    BitVec 12 → Prop where
  | mstatus : Covered c csrs i wr u 0x300#12
  | medeleg : Covered c csrs i wr u 0x302#12
  | mideleg : Covered c csrs i wr u 0x303#12
  | sideleg : Covered c csrs i wr u 0x103#12
  | mie : Covered c csrs i wr u 0x304#12
  | mip (h : wr = true → c.hart.mip.ext = false ∧
        newBit i (c.hart.mip.stored.getLsbD 3) (u.getLsbD 3) = c.hart.mip.stored.getLsbD 3) :
      Covered c csrs i wr u 0x344#12
  | sstatus : Covered c csrs i wr u 0x100#12
  | sie (hd : ∀ k, irqBit k = true → c.hart.mie.getLsbD k = true → c.hart.mideleg.value.getLsbD k = true)
      (h : wr = true → ∀ k, irqBit k = true →
        (c.hart.mie.getLsbD k = true → newBit i true (u.getLsbD k) = true) ∧
        (newBit i (c.hart.mie.getLsbD k) (u.getLsbD k) = true → c.hart.mideleg.value.getLsbD k = true)) :
      Covered c csrs i wr u 0x104#12
  | sip (hd : ∀ k, irqBit k = true → (c.hart.mip.stored.getLsbD k || (decide (k = 9) && c.hart.mip.ext)) = true →
        c.hart.mideleg.value.getLsbD k = true)
      (h : wr = true → c.hart.mip.ext = false ∧
        (∀ k, irqBit k = true → k ≠ 1 →
          newBit i (c.hart.mip.stored.getLsbD k) (u.getLsbD k) = c.hart.mip.stored.getLsbD k) ∧
        (c.hart.mip.stored.getLsbD 1 = true → newBit i true (u.getLsbD 1) = true) ∧
        (newBit i (c.hart.mip.stored.getLsbD 1) (u.getLsbD 1) = true → c.hart.mideleg.value.getLsbD 1 = true)) :
      Covered c csrs i wr u 0x144#12
  | mcause : Covered c csrs i wr u 0x342#12
  | mtval : Covered c csrs i wr u 0x343#12
  | scause : Covered c csrs i wr u 0x142#12
  | stval : Covered c csrs i wr u 0x143#12
  | mtvec (h : wr = true → ∀ v, IsNew i every u c.hart.mtvec v → ModeOk v) : Covered c csrs i wr u 0x305#12
  | stvec (h : wr = true → ∀ v, IsNew i every u c.hart.stvec v → ModeOk v) : Covered c csrs i wr u 0x105#12
  | mepc (h : wr = true → ∀ v, IsNew i every u c.hart.mepc v → Aligned c.hasC v) :
      Covered c csrs i wr u 0x341#12
  | sepc (h : wr = true → ∀ v, IsNew i every u c.hart.sepc v → Aligned c.hasC v) :
      Covered c csrs i wr u 0x141#12
  | plain (a : BitVec 12) (r : Csr.SimpleCsr n) (hr : csrs a = .plain r) (ha : a ∉ hartNos)
      (hro : readOnly a = true → wr = false) : Covered c csrs i wr u a

/-- The effect of a CSR instruction. -/
def DoesC (i : Insn) (w : Nat) (st st' : XSt n ρ) : Prop :=
  let c := st.base.core
  let c' := st'.base.core
  st'.base.resv = st.base.resv ∧
  (Forbidden c.hart (csrNo w) → st'.csrs = st.csrs ∧ Raises c c' 0#64 2#64) ∧
  (¬ Forbidden c.hart (csrNo w) →
    ∃ old h' p, Holds c.hart st.csrs (csrNo w) old ∧
      (writes i (rs1 w) = true → Takes i (csrOperand c i w) c.hart st.csrs (csrNo w) h' st'.csrs) ∧
      (writes i (rs1 w) = false → h' = c.hart ∧ st'.csrs = st.csrs) ∧
      IsNext c 4 p ∧ c'.hart = { h' with pc := p } ∧
      c'.mem = c.mem ∧ c'.limit = c.limit ∧ c'.hasC = c.hasC ∧ SetsReg c c' (rd w) old)

end Verif.Exec.Spec
