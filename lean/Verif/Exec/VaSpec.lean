import Verif.Exec.VsSpec
import Verif.VecInt.Spec

/-!
# The element-wise integer instructions of the V extension, by the word

The V extension, "Vector Integer Arithmetic Instructions" and "Vector Arithmetic Instruction encoding".  The value of
an element is in `VecInt.Spec`.
-/

namespace Verif.Exec.Spec

open Decode Decode.Isa Core VecInt VecLoop

/-- Where operand 1 comes from: register group vs1, integer register rs1, the sign extended immediate or (shifts) the
zero extended one. -/
inductive VForm where
  | vv | vx | vi | vu
  deriving DecidableEq, Repr

/-- What an instruction computes, and the form of operand 1. -/
def vaKind : Op → Option (VecInt.Same × VForm)
  | .vadd_vv => some (.add, .vv)
  | .vadd_vx => some (.add, .vx)
  | .vadd_vi => some (.add, .vi)
  | .vsub_vv => some (.sub, .vv)
  | .vsub_vx => some (.sub, .vx)
  | .vrsub_vx => some (.rsub, .vx)
  | .vrsub_vi => some (.rsub, .vi)
  | .vminu_vv => some (.minu, .vv)
  | .vminu_vx => some (.minu, .vx)
  | .vmin_vv => some (.min, .vv)
  | .vmin_vx => some (.min, .vx)
  | .vmaxu_vv => some (.maxu, .vv)
  | .vmaxu_vx => some (.maxu, .vx)
  | .vmax_vv => some (.max, .vv)
  | .vmax_vx => some (.max, .vx)
  | .vand_vv => some (.and, .vv)
  | .vand_vx => some (.and, .vx)
  | .vand_vi => some (.and, .vi)
  | .vor_vv => some (.or, .vv)
  | .vor_vx => some (.or, .vx)
  | .vor_vi => some (.or, .vi)
  | .vxor_vv => some (.xor, .vv)
  | .vxor_vx => some (.xor, .vx)
  | .vxor_vi => some (.xor, .vi)
  | .vsll_vv => some (.sll, .vv)
  | .vsll_vx => some (.sll, .vx)
  | .vsll_vi => some (.sll, .vu)
  | .vsrl_vv => some (.srl, .vv)
  | .vsrl_vx => some (.srl, .vx)
  | .vsrl_vi => some (.srl, .vu)
  | .vsra_vv => some (.sra, .vv)
  | .vsra_vx => some (.sra, .vx)
  | .vsra_vi => some (.sra, .vu)
  | .vdivu_vv => some (.divu, .vv)
  | .vdivu_vx => some (.divu, .vx)
  | .vdiv_vv => some (.div, .vv)
  | .vdiv_vx => some (.div, .vx)
  | .vremu_vv => some (.remu, .vv)
  | .vremu_vx => some (.remu, .vx)
  | .vrem_vv => some (.rem, .vv)
  | .vrem_vx => some (.rem, .vx)
  | .vmulhu_vv => some (.mulhu, .vv)
  | .vmulhu_vx => some (.mulhu, .vx)
  | .vmul_vv => some (.mul, .vv)
  | .vmul_vx => some (.mul, .vx)
  | .vmulhsu_vv => some (.mulhsu, .vv)
  | .vmulhsu_vx => some (.mulhsu, .vx)
  | .vmulh_vv => some (.mulh, .vv)
  | .vmulh_vx => some (.mulh, .vx)
  | _ => none

/-! ## Fields -/

def vdOf (w : Nat) : Nat := Getters.Spec.unsigned w (Getters.Spec.positions [(11, 7)])
def vs2Of (w : Nat) : Nat := Getters.Spec.unsigned w (Getters.Spec.positions [(24, 20)])
def vs1Of (w : Nat) : Nat := Getters.Spec.unsigned w (Getters.Spec.positions [(19, 15)])
/-- The instruction is not masked. -/
def vmOf (w : Nat) : Bool := w.testBit 25

variable {n : Nat}

/-- Operand 1. -/
def operand1 (c : Core n) (w : Nat) : VForm → Src1 n
  | .vv => .vec (vs1Of w)
  | .vx => .x (X c (rs1 w))
  | .vi => .simm (BitVec.ofNat 5 (vs1Of w))
  | .vu => .uimm (BitVec.ofNat 5 (vs1Of w))

/-- The value wanted of element `i`. -/
def Wanted (c : Core n) (v : VCore) (w : Nat) (o : VecInt.Same) (f : VForm) (i : Nat) (r : Int) : Prop :=
  ∃ a b : BitVec (8 * v.vs.sew), VecLoop.Spec.IsElem v.vs.vlenb v.vs.sew v.regs (vs2Of w) i a ∧
    VecInt.Spec.Operand v.vs v.regs i b (operand1 c w f) ∧ r = VecInt.Spec.same a b o

/-- The instruction is legal with the present type, and its registers are properly aligned and do not overlap in
forbidden ways. -/
structure Permitted (c : Core n) (v : VCore) (w : Nat) (f : VForm) : Prop where
  sew : v.vs.sew = 1 ∨ v.vs.sew = 2 ∨ v.vs.sew = 4 ∨ v.vs.sew = 8
  ready : VecLoop.Spec.Ready v.vs [v.vs.sew, v.vs.sew, v.vs.sew] v.vs.sew (vdOf w)
  vs2 : VecLoop.Spec.SourceOk v.vs.vlenb v.vs.vl v.vs.sew (vdOf w) v.vs.sew (vs2Of w)
  vs1 : VecInt.Spec.OperandOk v.vs v.vs.sew (vdOf w) v.vs.sew (operand1 c w f)

/-- Only the program counter of the core moves, to the next instruction. -/
def OnlyNext (c c' : Core n) (size : Nat) : Prop :=
  ∃ p, IsNext c size p ∧ GoesTo c c' p ∧ c'.regs = c.regs

end Verif.Exec.Spec
