import Verif.Hart.Model
import Verif.XStatus.Spec
/-
Specification of interrupt selection (RISC-V privileged manual, "Machine Interrupt Registers" and
"Interrupt delegation"), stated on single interrupt numbers, not on masks.
-/
namespace Verif.Hart.Spec
variable {w : Nat}

/-- The nine standard interrupts in decreasing priority: MEI, MSI, MTI, SEI, SSI, STI, UEI, USI,
UTI. -/
def priority : List Nat := [11, 3, 7, 9, 1, 5, 8, 0, 4]

/-- Interrupt `i` is pending and individually enabled. -/
def pendEn (h : Hart w) (i : Nat) : Bool :=
  (h.mip.stored.getLsbD i || (i = 9 && h.mip.ext)) && h.mie.getLsbD i

/-- The level that handles interrupt `i`. -/
def level (h : Hart w) (i : Nat) : Mode :=
  if h.mideleg.value.getLsbD i && h.mideleg.readMask.getLsbD i then
    if h.sideleg.value.getLsbD i && h.sideleg.readMask.getLsbD i then U else S
  else M

/-- Interrupts of level `l` may be taken: in a lower mode always, in the same mode if the level's
enable bit is set, in a higher mode never. User-level interrupts are not supported by the
simulator (riscv_state.cc:834-838) and never taken. -/
def levelOn (h : Hart w) (l : Mode) : Bool :=
  if l = M then h.mode.toNat < 3 || h.mstatus.value.getLsbD 3
  else if l = S then h.mode.toNat < 1 || (h.mode = S && h.mstatus.value.getLsbD 1)
  else false

/-- Interrupt `i` may be taken now. -/
def takeable (h : Hart w) (i : Nat) : Bool := pendEn h i && levelOn h (level h i)

/-- Best interrupt of level `l`. -/
def best (h : Hart w) (l : Mode) : Option Nat :=
  if levelOn h l then priority.find? (fun i => pendEn h i && level h i = l) else none

/-- The interrupt to take: machine level before supervisor level. -/
def choose (h : Hart w) : Option Nat := (best h M).or (best h S)

/-- The mode is one of U, S, M. -/
def legalMode (h : Hart w) : Prop := h.mode = U ∨ h.mode = S ∨ h.mode = M

/-- The mode that handles a trap: interrupts go to the level they are delegated to; exceptions go
to supervisor mode if delegated and not raised in machine mode, else to machine mode. -/
def trapMode (h : Hart w) (isInt : Bool) (cause : Nat) : Mode :=
  if isInt then level h cause
  else if h.mode ≠ M && (h.medeleg.value.getLsbD cause && h.medeleg.readMask.getLsbD cause) then S
  else M

/-- The entry point of a trap: BASE, or BASE + 4*cause for interrupts in vectored mode (1). -/
def entry (tvec : BitVec w) (isInt : Bool) (cause : Nat) : BitVec w :=
  let base := tvec &&& ~~~3
  if isInt && (tvec &&& 3 = 1) then base + BitVec.ofNat w (4 * cause) else base

/-- The stack of handlers in progress: `true` is an interrupt handler, `false` an exception
handler. `took` says whether the event entered a trap, `ret` whether it returned from one. -/
def nest (st : List Bool) (tookInt tookExc ret : Bool) : List Bool :=
  if tookInt then true :: st else if tookExc then false :: st else if ret then st.tail else st

/-- A state reachable from reset; supervisor mode is always present (riscv_state.cc:60-66, 86-91:
misa's initial value, which is read-only). -/
def Reachable (h : Hart w) : Prop := ∃ es, h = run (Hart.init w true) es

end Verif.Hart.Spec
