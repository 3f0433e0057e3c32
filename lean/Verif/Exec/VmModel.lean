import Verif.Exec.VwModel
import Verif.VecMem.Model

/-!
# Unit-stride and strided vector loads and stores, from the word in memory

`VlStrided` with its child `VlChild`, and `VsStrided` (`VecMem.vlStrided`, `vsStrided`), with their operands by position
(riscv_vector.isa:66-105, 113-124, 280-291, 363-374, and the same at 1447-1505, 1645-1653, 1710-1718).  The number of bytes of an element is bound to the function
(`absl::bind_front(&VlStrided, /*element_width*/ 4)`).
-/

namespace Verif.Exec

open Decode Decode.Isa Core Operands
open VecLoop (VCore)
open VecMem (MCore)

/-- A description of these instructions. -/
structure VmAct where
  store : Bool
  bytes : Nat
  /-- the instruction -/
  ops : Act
  /-- its child, for a load -/
  child : Act
  deriving DecidableEq

def vmPart : List Phase → Option VmAct
  | [p] =>
    match p.fn, p.args with
    | some c, [k] => if c.name = "VsStrided" then some ⟨true, k, ⟨.nop, p.srcs, p.dsts⟩, ⟨.nop, [], []⟩⟩ else none
    | _, _ => none
  | [p, q] =>
    match p.fn, p.args, q.fn, q.args with
    | some c, [k], some d, [] =>
      if c.name = "VlStrided" ∧ d.name = "VlChild" then some ⟨false, k, ⟨.nop, p.srcs, p.dsts⟩, ⟨.nop, q.srcs, q.dsts⟩⟩
      else none
    | _, _, _, _ => none
  | _ => none

/-- The description of an instruction, by its name. -/
def vmActs (s : Sim) (o : Op) : Option VmAct :=
  (s.isa.instrs.find? fun i => i.name == opName o).bind fun i => vmPart i.phases

variable {n : Nat}

/-- `GetInstructionSource<uint64_t>`: a register is extended without a sign. -/
def vmBase (c : Core n) : Getters.Val → Option (BitVec 64)
  | .x r => some ((c.regs (BitVec.ofNat 5 r)).setWidth 64)
  | .number z => some (BitVec.ofInt 64 z)
  | _ => none

/-- `GetInstructionSource<int64_t>`: with its sign. -/
def vmStride (c : Core n) : Getters.Val → Option (BitVec 64)
  | .x r => some ((c.regs (BitVec.ofNat 5 r)).signExtend 64)
  | .number z => some (BitVec.ofInt 64 z)
  | _ => none

/-- The function with its operands.  `junk` is what the buffers of a store hold at first. -/
def vmCarry (s : Sim) (w : Nat) (junk : Nat → Mem.Elem) (st : VaSt n) (p : VmAct) : Option (VaSt n) :=
  let addr := st.core.hart.pc.setWidth 64
  let c : MCore n := ⟨st.core, st.vec⟩
  if p.store then
    ((vaSrc s w p.ops 0).bind vaReg).bind fun vs3 => ((vaSrc s w p.ops 1).bind (vmBase st.core)).bind fun base =>
      ((vaSrc s w p.ops 2).bind (vmStride st.core)).bind fun stride => ((vaSrc s w p.ops 3).bind vaMask).bind fun vm =>
        (VecMem.vsStrided c p.bytes vs3 base stride (VecLoop.maskOf st.vec.regs vm) junk addr false).map fun c' =>
          ⟨c'.core, c'.v⟩
  else
    ((vaSrc s w p.ops 0).bind (vmBase st.core)).bind fun base =>
      ((vaSrc s w p.ops 1).bind (vmStride st.core)).bind fun stride => ((vaSrc s w p.ops 2).bind vaMask).bind fun vm =>
        ((vaDst s w p.child 0).bind vaReg).bind fun vd =>
          (VecMem.vlStrided c p.bytes vd base stride (VecLoop.maskOf st.vec.regs vm) addr false).map fun c' =>
            ⟨c'.core, c'.v⟩

/-- One turn of the loop of `RiscVTop` with any instruction of the model. -/
def turnVm (s : Sim) (i : Inst) (w : Nat) (size : Nat) (junk : Nat → Mem.Elem) (st : VaSt s.xlen.bits) :
    Option (VaSt s.xlen.bits) :=
  match vmActs s i.op with
  | some p => (vmCarry s w junk st p).map fun st' =>
      { st' with core := next st'.core (st.core.hart.pc.setWidth 64) size }
  | none => turnVw s i w size st

/-- A turn, with some entry of the decoder that the word matches and any contents of new buffers. -/
def TurnVm (s : Sim) (st st' : VaSt s.xlen.bits) : Prop :=
  ∃ i size junk, Finds s (wordAt st.core) i size ∧ turnVm s i (wordAt st.core) size junk st = some st'

end Verif.Exec
