import Verif.Exec.VaModel

/-!
# The narrowing, widening and multiply-add instructions of the V extension, from the word in memory

The functions `Vnsrl` … `Vwmaccsu` (`VecInt.narrow`, `wide`, `wideW`, `mac`, `wmac`).  The multiply-add instructions
have vd among the sources, before the mask (riscv_vector.isa:931-1044 and 2257-2370).
-/

namespace Verif.Exec

open Decode Decode.Isa Core Operands
open VecLoop (VCore)
open VecInt (Src1 Narrow Wide WideW Mac WMac)

/-- The families of functions. -/
inductive VwFn where
  /-- shift right from double width -/
  | narrow (o : Narrow)
  /-- to double width -/
  | wide (o : Wide)
  /-- vs2 already of double width -/
  | wideW (o : WideW)
  /-- multiply and add -/
  | mac (o : Mac)
  /-- multiply and add to double width -/
  | wmac (o : WMac)
  deriving DecidableEq

/-- The functions bound to the instructions by riscv_vector.isa (758-775, 931-1044, and the same at 2084-2101,
2257-2370). -/
def vwFns : List (String × VwFn) :=
  [("Vnsrl", .narrow .nsrl), ("Vnsra", .narrow .nsra), ("Vwaddu", .wide .waddu), ("Vwsubu", .wide .wsubu),
   ("Vwadd", .wide .wadd), ("Vwsub", .wide .wsub), ("Vwmulu", .wide .wmulu), ("Vwmulsu", .wide .wmulsu),
   ("Vwmul", .wide .wmul), ("Vwadduw", .wideW .wadduw), ("Vwsubuw", .wideW .wsubuw),
   ("Vwaddw", .wideW .waddw), ("Vwsubw", .wideW .wsubw), ("Vmadd", .mac .madd), ("Vnmsub", .mac .nmsub),
   ("Vmacc", .mac .macc), ("Vnmsac", .mac .nmsac), ("Vwmaccu", .wmac .wmaccu), ("Vwmacc", .wmac .wmacc),
   ("Vwmaccus", .wmac .wmaccus), ("Vwmaccsu", .wmac .wmaccsu)]

/-- A description of these instructions. -/
structure VwAct where
  fn : VwFn
  ops : Act
  deriving DecidableEq

/-- `semfunc: "&Vnsrl"`: no arguments are bound. -/
def vwAct (p : Phase) : Option VwAct :=
  match p.fn, p.args with
  | some c, [] => (vwFns.lookup c.name).map fun o => ⟨o, .nop, p.srcs, p.dsts⟩
  | _, _ => none

def vwPart : List Phase → Option VwAct
  | [p] => vwAct p
  | _ => none

/-- The description of an instruction, by its name. -/
def vwActs (s : Sim) (o : Op) : Option VwAct :=
  (s.isa.instrs.find? fun i => i.name == opName o).bind fun i => vwPart i.phases

variable {n : Nat}

/-- The function with two operands and the mask (`RiscVBinaryVectorOp`, riscv_vector_instruction_helpers.h:381-478). -/
def vwTwo (s : Sim) (w : Nat) (st : VaSt n) (p : VwAct)
    (f : VCore → Nat → Nat → Src1 n → Bool → Option VCore) : Option (VaSt n) :=
  ((vaSrc s w p.ops 0).bind vaReg).bind fun vs2 => ((vaSrc s w p.ops 1).bind (vaSrc1 st.core)).bind fun s1 =>
    ((vaSrc s w p.ops 2).bind vaMask).bind fun vm => ((vaDst s w p.ops 0).bind vaReg).bind fun vd =>
      (f st.vec vd vs2 s1 vm).map fun v => { st with vec := v }

/-- The function with three operands, the third being read from source 2, and the mask (`RiscVTernaryVectorOp`,
riscv_vector_instruction_helpers.h:570-641).
`VecInt.mac` and `wmac` read the third from vd: none other is modelled. -/
def vwThree (s : Sim) (w : Nat) (st : VaSt n) (p : VwAct)
    (f : VCore → Nat → Nat → Src1 n → Bool → Option VCore) : Option (VaSt n) :=
  ((vaSrc s w p.ops 0).bind vaReg).bind fun vs2 => ((vaSrc s w p.ops 1).bind (vaSrc1 st.core)).bind fun s1 =>
    ((vaSrc s w p.ops 2).bind vaReg).bind fun v3 =>
      ((vaSrc s w p.ops 3).bind vaMask).bind fun vm => ((vaDst s w p.ops 0).bind vaReg).bind fun vd =>
        if v3 = vd then (f st.vec vd vs2 s1 vm).map fun v => { st with vec := v } else none

def vwCarry (s : Sim) (w : Nat) (st : VaSt n) (p : VwAct) : Option (VaSt n) :=
  match p.fn with
  | .narrow o => vwTwo s w st p (VecInt.narrow o)
  | .wide o => vwTwo s w st p (VecInt.wide o)
  | .wideW o => vwTwo s w st p (VecInt.wideW o)
  | .mac o => vwThree s w st p (VecInt.mac o)
  | .wmac o => vwThree s w st p (VecInt.wmac o)

/-- One turn of the loop of `RiscVTop` with any instruction of the model. -/
def turnVw (s : Sim) (i : Inst) (w : Nat) (size : Nat) (st : VaSt s.xlen.bits) : Option (VaSt s.xlen.bits) :=
  match vwActs s i.op with
  | some p => (vwCarry s w st p).map fun st' =>
      { st' with core := next st'.core (st.core.hart.pc.setWidth 64) size }
  | none => turnVa s i w size st

/-- A turn, with some entry of the decoder that the word matches. -/
def TurnVw (s : Sim) (st st' : VaSt s.xlen.bits) : Prop :=
  ∃ i size, Finds s (wordAt st.core) i size ∧ turnVw s i (wordAt st.core) size st = some st'

end Verif.Exec
