import Verif.Exec.VrModel
import Verif.VecMask.Model

/-!
# Logical operations on mask registers, from the word in memory

The functions `Vmandnot` … `Vmxnor` (`VecMask.execBitwise`).
-/

namespace Verif.Exec

open Decode Decode.Isa Core Operands

/-- The functions bound to the instructions by riscv_vector.isa (859-882, and the same at 2185-2208). -/
def vlFns : List (String × VecMask.Op) :=
  [("Vmandnot", .andnot), ("Vmand", .and), ("Vmor", .or), ("Vmxor", .xor), ("Vmornot", .ornot), ("Vmnand", .nand),
   ("Vmnor", .nor), ("Vmxnor", .xnor)]

/-- A description of these instructions. -/
structure VlAct where
  fn : VecMask.Op
  ops : Act
  deriving DecidableEq

/-- `semfunc: "&Vmand"`: no arguments are bound. -/
def vlAct (p : Phase) : Option VlAct :=
  match p.fn, p.args with
  | some c, [] => (vlFns.lookup c.name).map fun o => ⟨o, .nop, p.srcs, p.dsts⟩
  | _, _ => none

def vlPart : List Phase → Option VlAct
  | [p] => vlAct p
  | _ => none

/-- The description of an instruction, by its name. -/
def vlActs (s : Sim) (o : Op) : Option VlAct :=
  (s.isa.instrs.find? fun i => i.name == opName o).bind fun i => vlPart i.phases

variable {n : Nat}

/-- The function with its operands, which are two mask registers (`BitwiseMaskBinaryOp`,
riscv_vector_opm_instructions.cc:188-225). -/
def vlCarry (s : Sim) (w : Nat) (st : VaSt n) (p : VlAct) : Option (VaSt n) :=
  ((vaSrc s w p.ops 0).bind vaReg).bind fun vs2 => ((vaSrc s w p.ops 1).bind vaReg).bind fun vs1 =>
    ((vaDst s w p.ops 0).bind vaReg).map fun vd => { st with vec := VecMask.execBitwise p.fn.fn st.vec vd vs2 vs1 }

/-- One turn of the loop of `RiscVTop` with any instruction of the model. -/
def turnVl (s : Sim) (i : Inst) (w : Nat) (size : Nat) (junk : Nat → Mem.Elem) (st : VaSt s.xlen.bits) :
    Option (VaSt s.xlen.bits) :=
  match vlActs s i.op with
  | some p => (vlCarry s w st p).map fun st' =>
      { st' with core := next st'.core (st.core.hart.pc.setWidth 64) size }
  | none => turnVr s i w size junk st

/-- A turn, with some entry of the decoder that the word matches and any contents of new buffers. -/
def TurnVl (s : Sim) (st st' : VaSt s.xlen.bits) : Prop :=
  ∃ i size junk, Finds s (wordAt st.core) i size ∧ turnVl s i (wordAt st.core) size junk st = some st'

end Verif.Exec
