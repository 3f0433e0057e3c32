import Verif.Exec.VsModel
import Verif.VecInt.Model

/-!
# The element-wise integer instructions of the V extension, from the word in memory

The functions `Vadd` … `Vmulh` (`VecInt.same`) take operands vs2, vs1 (or rs1 or an immediate), the mask and vd by
position (riscv_vector.isa:461-930 and 1787-2256).  Not modelled here: the widening, narrowing and
multiply-add instructions (C85 has their functions).
-/

namespace Verif.Exec

open Decode Decode.Isa Core Operands
open VecLoop (VCore)
open VecInt (Src1)

/-- The state of a core with vectors, with the vector registers. -/
structure VaSt (n : Nat) where
  core : Core n
  vec : VCore

/-- The functions bound to the instructions by riscv_vector.isa (`semfunc: "&Vadd"` and so on). -/
def vaFns : List (String × VecInt.Same) :=
  [("Vadd", .add), ("Vsub", .sub), ("Vrsub", .rsub), ("Vminu", .minu), ("Vmin", .min), ("Vmaxu", .maxu),
   ("Vmax", .max), ("Vand", .and), ("Vor", .or), ("Vxor", .xor), ("Vsll", .sll), ("Vsrl", .srl),
   ("Vsra", .sra), ("Vdivu", .divu), ("Vdiv", .div), ("Vremu", .remu), ("Vrem", .rem), ("Vmulhu", .mulhu),
   ("Vmul", .mul), ("Vmulhsu", .mulhsu), ("Vmulh", .mulh)]

/-- A description of these instructions. -/
structure VaAct where
  fn : VecInt.Same
  ops : Act
  deriving DecidableEq

/-- `semfunc: "&Vadd"`: no arguments are bound. -/
def vaAct (p : Phase) : Option VaAct :=
  match p.fn, p.args with
  | some c, [] => (vaFns.lookup c.name).map fun o => ⟨o, .nop, p.srcs, p.dsts⟩
  | _, _ => none

def vaPart : List Phase → Option VaAct
  | [p] => vaAct p
  | _ => none

/-- The description of an instruction, by its name. -/
def vaActs (s : Sim) (o : Op) : Option VaAct :=
  (s.isa.instrs.find? fun i => i.name == opName o).bind fun i => vaPart i.phases

variable {n : Nat}

/-- The object given for source operand `k`. -/
def vaSrc (s : Sim) (w : Nat) (a : Act) (k : Nat) : Option Getters.Val :=
  match a.srcs[k]? with
  | some (.one o) => (s.source o).map fun g => g.source w
  | _ => none

/-- The object given for destination operand `k`. -/
def vaDst (s : Sim) (w : Nat) (a : Act) (k : Nat) : Option Getters.Val :=
  match a.dsts[k]? with
  | some (.one o) => (s.dest o).map fun g => g.dest w
  | _ => none

/-- Operand 1 as the functions read it (`RiscVMaskBinaryVectorOp`, riscv_vector_instruction_helpers.h:422-442: an
operand of shape 1 is a scalar; the shape of a vector operand is the number of bytes of a register, which is more).  A number (an immediate of five bits, or 0 for x0)
is an `ImmediateOperand`; it is between -16 and 31 and is given as `Src1` has it. -/
def vaSrc1 (c : Core n) : Getters.Val → Option (Src1 n)
  | .v r _ => some (.vec r)
  | .x r => some (.x (c.regs (BitVec.ofNat 5 r)))
  | .number z => some (if 0 ≤ z then .uimm (BitVec.ofInt 5 z) else .simm (BitVec.ofInt 5 z))
  | _ => none

/-- The first register of a vector operand. -/
def vaReg : Getters.Val → Option Nat
  | .v r _ => some r
  | _ => none

/-- The mask operand: all ones, or the register (which is v0). -/
def vaMask : Getters.Val → Option Bool
  | .allTrue => some true
  | .v 0 _ => some false
  | _ => none

/-- The function with its operands. -/
def vaCarry (s : Sim) (w : Nat) (st : VaSt n) (p : VaAct) : Option (VaSt n) :=
  ((vaSrc s w p.ops 0).bind vaReg).bind fun vs2 => ((vaSrc s w p.ops 1).bind (vaSrc1 st.core)).bind fun s1 =>
    ((vaSrc s w p.ops 2).bind vaMask).bind fun vm => ((vaDst s w p.ops 0).bind vaReg).bind fun vd =>
      (VecInt.same p.fn st.vec vd vs2 s1 vm).map fun v => { st with vec := v }

/-- One turn of the loop of `RiscVTop` with any instruction of the model. -/
def turnVa (s : Sim) (i : Inst) (w : Nat) (size : Nat) (st : VaSt s.xlen.bits) : Option (VaSt s.xlen.bits) :=
  match vaActs s i.op with
  | some p => (vaCarry s w st p).map fun st' =>
      { st' with core := next st'.core (st.core.hart.pc.setWidth 64) size }
  | none => (turnVs s i w size ⟨st.core, st.vec.vs⟩).map fun r => ⟨r.core, { st.vec with vs := r.vec }⟩

/-- A turn, with some entry of the decoder that the word matches. -/
def TurnVa (s : Sim) (st st' : VaSt s.xlen.bits) : Prop :=
  ∃ i size, Finds s (wordAt st.core) i size ∧ turnVa s i (wordAt st.core) size st = some st'

end Verif.Exec
