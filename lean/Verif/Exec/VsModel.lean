import Verif.Exec.Model
import Verif.VecState.Model

/-!
# The instructions that configure the vector unit, from the word in memory

`Vsetvl` (`VecState.vsetvl`) reads its operands by position as the other functions do; the three
instructions have seven descriptions (riscv_vector.isa:40-61), which differ in the operands and in the two
arguments `rd_zero` and `rs1_zero`.
-/

namespace Verif.Exec

open Decode Decode.Isa Core Operands

/-- The state of a core with vectors, as far as these instructions and the base instructions go. -/
structure VsSt (n : Nat) where
  core : Core n
  vec : VecState.VState

/-- A description of these instructions: the arguments and the operands. -/
structure VsAct where
  rdZero : Bool
  rs1Zero : Bool
  ops : Act
  deriving DecidableEq, Repr

/-- `absl::bind_front(&Vsetvl, rd_zero, rs1_zero)` (riscv_vector.isa:40-61). -/
def vsAct (p : Phase) : Option VsAct :=
  match p.fn, p.args with
  | some c, [a, b] => if c.name == "Vsetvl" then some ⟨a != 0, b != 0, ⟨.nop, p.srcs, p.dsts⟩⟩ else none
  | _, _ => none

def vsPart : List Phase → Option VsAct
  | [p] => vsAct p
  | _ => none

/-- The description of an instruction, by its name. -/
def vsActs (s : Sim) (o : Op) : Option VsAct :=
  (s.isa.instrs.find? fun i => i.name == opName o).bind fun i => vsPart i.phases

variable {n : Nat}

/-- `Vsetvl` (riscv_vector_memory_instructions.cc:155-207) with its operands; the register is set at once,
through its data buffer (:198-204).  Source 0 is read here even if `rs1_zero` says that it is not needed. -/
def vsCarry (s : Sim) (w : Nat) (st : VsSt n) (p : VsAct) : Option (VsSt n) :=
  (srcAt s w st.core p.ops 0).bind fun a => (srcAt s w st.core p.ops 1).bind fun t =>
    (VecState.vsetvl st.vec p.rdZero p.rs1Zero a t).bind fun r =>
      match r.2 with
      | none => some { st with vec := r.1 }
      | some v => (dstAt s w p.ops 0).bind fun d => (put st.core d v).map fun c => ⟨c, r.1⟩

/-- One turn of the loop of `RiscVTop` with any instruction of the model. -/
def turnVs (s : Sim) (i : Inst) (w : Nat) (size : Nat) (st : VsSt s.xlen.bits) : Option (VsSt s.xlen.bits) :=
  match vsActs s i.op with
  | some p => (vsCarry s w st p).map fun st' =>
      { st' with core := next st'.core (st.core.hart.pc.setWidth 64) size }
  | none => (turn s i w size st.core).map fun c => { st with core := c }

/-- A turn, with some entry of the decoder that the word matches. -/
def TurnVs (s : Sim) (st st' : VsSt s.xlen.bits) : Prop :=
  ∃ i size, Finds s (wordAt st.core) i size ∧ turnVs s i (wordAt st.core) size st = some st'

end Verif.Exec
