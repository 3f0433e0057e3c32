import Verif.Exec.IrModel
import Verif.Exec.FkSpec
import Verif.Hart.Spec

/-!
# Interrupts between instructions, by the manual

Which interrupt is to be taken is `Hart.Spec.choose` (section 3.1.9 of the privileged manual).
-/

namespace Verif.Exec.Spec

open Core
open XStatus.Spec (field)

variable {n : Nat}

/-- The last level a line is set to. -/
def lastLevel (ls : List (Line × Bool)) (k : Nat) : Option Bool :=
  (ls.reverse.find? fun p => p.1.bit == k).map fun p => p.2

/-- The pending bits after the lines have changed. -/
def Pends (m m' : Xip.MIp) (ls : List (Line × Bool)) : Prop :=
  m'.ext = m.ext ∧ ∀ k, k < 64 → m'.stored.getLsbD k = (lastLevel ls k).getD (m.stored.getLsbD k)

/-- Interrupt `i` is taken in machine mode: the return address is the program counter. -/
def IntoM (h h' : Hart.Hart n) (i : Nat) : Prop :=
  ∃ m a q, h' = { h with
      mepc := h.pc, mtval := 0#n, mcause := BitVec.ofNat n (i + 2 ^ (n - 1)), mode := M
      pc := Hart.Spec.entry h.mtvec true i, mstatus := m, taken := h.taken + 1, avail := a, code := q } ∧
    field m.value .mpp = h.mode ∧ field m.value .mpie = field h.mstatus.value .mie ∧
    field m.value .mie = 0 ∧
    ∀ f, f ≠ .mpp → f ≠ .mpie → f ≠ .mie → field m.value f = field h.mstatus.value f

/-- Interrupt `i` is taken in supervisor mode. -/
def IntoS (h h' : Hart.Hart n) (i : Nat) : Prop :=
  ∃ m a q, h' = { h with
      sepc := h.pc, stval := 0#n, scause := BitVec.ofNat n (i + 2 ^ (n - 1)), mode := S
      pc := Hart.Spec.entry h.stvec true i, mstatus := m, taken := h.taken + 1, avail := a, code := q } ∧
    (field m.value .spp = if h.mode = S then 1 else 0) ∧ field m.value .spie = field h.mstatus.value .sie ∧
    field m.value .sie = 0 ∧
    ∀ f, f ≠ .spp → f ≠ .spie → f ≠ .sie → field m.value f = field h.mstatus.value f

/-- Interrupt `i` is taken. -/
def Interrupts (h h' : Hart.Hart n) (i : Nat) : Prop :=
  (Hart.Spec.level h i = M ∧ IntoM h h' i) ∨ (Hart.Spec.level h i = S ∧ IntoS h h' i)

/-- What happens between two instructions: the pending bits follow the lines, and the interrupt that is to
be taken then, if any, is taken.  Registers and memory stay. -/
def Between (ls : List (Line × Bool)) (c c' : Core n) : Prop :=
  ∃ m h', Pends c.hart.mip m ls ∧ c' = { c with hart := h' } ∧
    (∀ i, Hart.Spec.choose { c.hart with mip := m } = some i → Interrupts { c.hart with mip := m } h' i) ∧
    (Hart.Spec.choose { c.hart with mip := m } = none →
      ∃ a q, h' = { c.hart with mip := m, avail := a, code := q })

/-- Nothing is to be taken, and the simulator knows it. -/
def Settled (h : Hart.Hart n) : Prop :=
  Hart.Spec.legalMode h ∧ h.mip.ext = false ∧ h.avail = false ∧ Hart.Spec.choose h = none

/-- What the simulator has found is what is to be taken. -/
def Exact (h : Hart.Hart n) : Prop :=
  (h.avail = true ∧ ∃ i, Hart.Spec.choose h = some i ∧ h.code = BitVec.ofNat 64 i) ∨
  (h.avail = false ∧ Hart.Spec.choose h = none)

/-- Some change of a line takes away the last interrupt that could be taken. -/
def Withdraws (h : Hart.Hart n) : List (Line × Bool) → Prop
  | [] => False
  | p :: ls => (Hart.Spec.choose h ≠ none ∧ Hart.Spec.choose (drive h p) = none) ∨ Withdraws (drive h p) ls

/-! ## Where interrupts are overlooked -/

/-- `mret` to a mode in which an interrupt can be taken, with no enable bit of mstatus set after it. -/
def MissesM (h : Hart.Hart n) : Prop :=
  let v := h.mstatus.value
  field v .mpie = 0 ∧ field v .sie = 0 ∧ field v .uie = 0 ∧ Hart.Spec.choose { h with mode := field v .mpp } ≠ none

/-- The same for `sret`. -/
def MissesS (h : Hart.Hart n) : Prop :=
  let v := h.mstatus.value
  field v .spie = 0 ∧ field v .mie = 0 ∧ field v .uie = 0 ∧
    Hart.Spec.choose { h with mode := (field v .spp).setWidth 2 } ≠ none

/-- The word at the program counter is a return after which an interrupt is missed, a return to the mode that
is none, `sret` in machine mode (C15), or a write to mideleg or sideleg. -/
def Overlooks (x : Decode.Isa.Xlen) (c : Core x.bits) : Prop :=
  (∃ size, IsS x (wordAt c) .mret size ∧ c.hart.mode = M ∧
    (field c.hart.mstatus.value .mpp = 2#2 ∨ MissesM c.hart)) ∨
  (∃ size, IsS x (wordAt c) .sret size ∧ (c.hart.mode = M ∨ MissesS c.hart)) ∨
  (∃ i, IsC x (wordAt c) i ∧ Zicsr.Spec.writes i (rs1 (wordAt c)) = true ∧
    (csrNo (wordAt c) = 0x303#12 ∨ csrNo (wordAt c) = 0x103#12))

end Verif.Exec.Spec
