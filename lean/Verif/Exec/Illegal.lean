import Verif.Exec.CsrModel

/-!
# Words that are no instruction, from the word in memory

The composition of `Exec.CsrModel` with the two functions for illegal instructions.
-/

namespace Verif.Exec

open Decode Decode.Isa Core Operands

/-- The function of the instructions that no entry matches, `default opcode` of the slot of the core
(riscv32g.isa:1051-1053, riscv32gzb.isa:28-30, riscv32v.isa:37-46, riscv64g.isa:45-47,
riscv64gzb.isa:28-30, riscv64v.isa:38-48): `RiscVIllegalInstruction` in all of them. -/
def defaultFn : Sim → String
  | _ => "RiscVIllegalInstruction"

/-- Its size, `default size`. -/
def defaultSize : Sim → Nat
  | _ => 4

/-- The instruction is described by `RiscVIUnimplemented` (riscv32g.isa:622-624, 1012-1014,
riscv64g.isa:282-284, 1191-1193). -/
def isUnimpPart : List Phase → Bool
  | [p] => p.fn.any fun c => c.name == "RiscVIUnimplemented"
  | _ => false

def isUnimp (s : Sim) (o : Op) : Bool :=
  (s.isa.instrs.find? fun i => i.name == opName o).any fun i => isUnimpPart i.phases

variable {n : Nat} {ρ : Type}

/-- An exception with a trap value, nothing else changed. -/
def refuse (st : XSt n ρ) (tval addr : BitVec 64) : XSt n ρ :=
  { st with base := { st.base with core := raise st.base.core tval 2#64 addr false } }

/-- `RiscVIllegalInstruction` (riscv_i_instructions.cc:36-41). -/
def doIllegal (st : XSt n ρ) (addr : BitVec 64) : XSt n ρ := refuse st 0#64 addr

/-- The trap value of `RiscVIUnimplemented` (riscv_i_instructions.cc:588-594). -/
def unimpWord (w : Nat) : BitVec 64 := BitVec.ofNat 64 (if w &&& 3 ≠ 3 then w &&& 0xffff else w)

/-- `RiscVIUnimplemented` (riscv_i_instructions.cc:585-598).  It loads its own word again; beyond the
highest physical address that load raises an exception of its own first (riscv_state.cc:533-536), which
is not modelled. -/
def doUnimp (st : XSt n ρ) (w : Nat) (addr : BitVec 64) : Option (XSt n ρ) :=
  if st.base.core.limit < addr then none else some (refuse st (unimpWord w) addr)

/-- The end of the turn (riscv_top.cc:259, 282-288). -/
def close (st : XSt n ρ) (pc : BitVec 64) (size : Nat) : XSt n ρ :=
  { st with base := { st.base with core := next st.base.core pc size } }

/-- A turn with an entry that matches. -/
def turnI (s : Sim) (i : Inst) (w : Nat) (size : Nat) (dev : Option (Atomic.Device ρ))
    (st : XSt s.xlen.bits ρ) : Option (XSt s.xlen.bits ρ) :=
  let pc : BitVec 64 := st.base.core.hart.pc.setWidth 64
  if isUnimp s i.op then (doUnimp st w pc).map fun st' => close st' pc size
  else turnZ s i w size dev st

/-- A turn, with some entry of the decoder that the word matches, or with the default if there is
none. -/
def TurnI (s : Sim) (dev : Option (Atomic.Device ρ)) (st st' : XSt s.xlen.bits ρ) : Prop :=
  (∃ i size, Finds s (wordAt st.base.core) i size ∧
    turnI s i (wordAt st.base.core) size dev st = some st') ∨
  ((∀ i size, ¬ Finds s (wordAt st.base.core) i size) ∧
    st' = close (doIllegal st (st.base.core.hart.pc.setWidth 64)) (st.base.core.hart.pc.setWidth 64)
      (defaultSize s))

end Verif.Exec
