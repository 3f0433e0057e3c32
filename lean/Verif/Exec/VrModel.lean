import Verif.Exec.VmModel
import Verif.VecRed.Model

/-!
# Integer reductions of the V extension, from the word in memory

The functions `Vredsum` … `Vredmax` (`VecRed.vred`), `Vwredsumu` and `Vwredsum` (`VecRed.vwredsum`).
-/

namespace Verif.Exec

open Decode Decode.Isa Core Operands
open VecRed (IntOp)

/-- The two families. -/
inductive VrFn where
  | same (o : IntOp)
  /-- to double width, with sign or without -/
  | wide (sgn : Bool)
  deriving DecidableEq

/-- The functions bound to the instructions by riscv_vector.isa (794-825, and the same at 2120-2151). -/
def vrFns : List (String × VrFn) :=
  [("Vredsum", .same .sum), ("Vredand", .same .and), ("Vredor", .same .or), ("Vredxor", .same .xor),
   ("Vredminu", .same .minu), ("Vredmin", .same .min), ("Vredmaxu", .same .maxu), ("Vredmax", .same .max),
   ("Vwredsumu", .wide false), ("Vwredsum", .wide true)]

/-- A description of these instructions. -/
structure VrAct where
  fn : VrFn
  ops : Act
  deriving DecidableEq

/-- `semfunc: "&Vredsum"`: no arguments are bound. -/
def vrAct (p : Phase) : Option VrAct :=
  match p.fn, p.args with
  | some c, [] => (vrFns.lookup c.name).map fun o => ⟨o, .nop, p.srcs, p.dsts⟩
  | _, _ => none

def vrPart : List Phase → Option VrAct
  | [p] => vrAct p
  | _ => none

/-- The description of an instruction, by its name. -/
def vrActs (s : Sim) (o : Op) : Option VrAct :=
  (s.isa.instrs.find? fun i => i.name == opName o).bind fun i => vrPart i.phases

variable {n : Nat}

/-- The function. -/
def vrDo (v : VecLoop.VCore) (vd vs2 vs1 : Nat) (mask : VecLoop.Buf) : VrFn → Option VecLoop.VCore
  | .same o => VecRed.vred o v vd vs2 vs1 mask
  | .wide sgn => VecRed.vwredsum sgn v vd vs2 vs1 mask

/-- The function with its operands: source 0 the elements, source 1 the scalar, source 2 the mask
(`RiscVBinaryReductionVectorOp`, riscv_vector_instruction_helpers.h:646-691). -/
def vrCarry (s : Sim) (w : Nat) (st : VaSt n) (p : VrAct) : Option (VaSt n) :=
  ((vaSrc s w p.ops 0).bind vaReg).bind fun vs2 => ((vaSrc s w p.ops 1).bind vaReg).bind fun vs1 =>
    ((vaSrc s w p.ops 2).bind vaMask).bind fun vm => ((vaDst s w p.ops 0).bind vaReg).bind fun vd =>
      (vrDo st.vec vd vs2 vs1 (VecLoop.maskOf st.vec.regs vm) p.fn).map fun v => { st with vec := v }

/-- One turn of the loop of `RiscVTop` with any instruction of the model. -/
def turnVr (s : Sim) (i : Inst) (w : Nat) (size : Nat) (junk : Nat → Mem.Elem) (st : VaSt s.xlen.bits) :
    Option (VaSt s.xlen.bits) :=
  match vrActs s i.op with
  | some p => (vrCarry s w st p).map fun st' =>
      { st' with core := next st'.core (st.core.hart.pc.setWidth 64) size }
  | none => turnVm s i w size junk st

/-- A turn, with some entry of the decoder that the word matches and any contents of new buffers. -/
def TurnVr (s : Sim) (st st' : VaSt s.xlen.bits) : Prop :=
  ∃ i size junk, Finds s (wordAt st.core) i size ∧ turnVr s i (wordAt st.core) size junk st = some st'

end Verif.Exec
