import Verif.Exec.VaSpec
import Verif.Exec.VwModel

/-!
# The narrowing, widening and multiply-add instructions of the V extension, by the word

The V extension, "Vector Integer Arithmetic Instructions" and "Vector Arithmetic Instruction encoding".  The value of
an element is in `VecInt.Spec`.
-/

namespace Verif.Exec.Spec

open Decode Decode.Isa Core VecInt VecLoop

/-- What an instruction computes, and the form of operand 1 (the immediates are without a sign). -/
def vwKind : Op → Option (VwFn × VForm)
  | .vnsrl_vv => some (.narrow .nsrl, .vv)
  | .vnsrl_vx => some (.narrow .nsrl, .vx)
  | .vnsrl_vi => some (.narrow .nsrl, .vu)
  | .vnsra_vv => some (.narrow .nsra, .vv)
  | .vnsra_vx => some (.narrow .nsra, .vx)
  | .vnsra_vi => some (.narrow .nsra, .vu)
  | .vwaddu_vv => some (.wide .waddu, .vv)
  | .vwaddu_vx => some (.wide .waddu, .vx)
  | .vwsubu_vv => some (.wide .wsubu, .vv)
  | .vwsubu_vx => some (.wide .wsubu, .vx)
  | .vwadd_vv => some (.wide .wadd, .vv)
  | .vwadd_vx => some (.wide .wadd, .vx)
  | .vwsub_vv => some (.wide .wsub, .vv)
  | .vwsub_vx => some (.wide .wsub, .vx)
  | .vwmulu_vv => some (.wide .wmulu, .vv)
  | .vwmulu_vx => some (.wide .wmulu, .vx)
  | .vwmulsu_vv => some (.wide .wmulsu, .vv)
  | .vwmulsu_vx => some (.wide .wmulsu, .vx)
  | .vwmul_vv => some (.wide .wmul, .vv)
  | .vwmul_vx => some (.wide .wmul, .vx)
  | .vwaddu_w_vv => some (.wideW .wadduw, .vv)
  | .vwaddu_w_vx => some (.wideW .wadduw, .vx)
  | .vwsubu_w_vv => some (.wideW .wsubuw, .vv)
  | .vwsubu_w_vx => some (.wideW .wsubuw, .vx)
  | .vwadd_w_vv => some (.wideW .waddw, .vv)
  | .vwadd_w_vx => some (.wideW .waddw, .vx)
  | .vwsub_w_vv => some (.wideW .wsubw, .vv)
  | .vwsub_w_vx => some (.wideW .wsubw, .vx)
  | .vmadd_vv => some (.mac .madd, .vv)
  | .vmadd_vx => some (.mac .madd, .vx)
  | .vnmsub_vv => some (.mac .nmsub, .vv)
  | .vnmsub_vx => some (.mac .nmsub, .vx)
  | .vmacc_vv => some (.mac .macc, .vv)
  | .vmacc_vx => some (.mac .macc, .vx)
  | .vnmsac_vv => some (.mac .nmsac, .vv)
  | .vnmsac_vx => some (.mac .nmsac, .vx)
  | .vwmaccu_vv => some (.wmac .wmaccu, .vv)
  | .vwmaccu_vx => some (.wmac .wmaccu, .vx)
  | .vwmacc_vv => some (.wmac .wmacc, .vv)
  | .vwmacc_vx => some (.wmac .wmacc, .vx)
  | .vwmaccus_vx => some (.wmac .wmaccus, .vx)
  | .vwmaccsu_vv => some (.wmac .wmaccsu, .vv)
  | .vwmaccsu_vx => some (.wmac .wmaccsu, .vx)
  | _ => none

/-- The number of bytes of an element of vd, if that of the selected width is `n`. -/
def bytesD (n : Nat) : VwFn → Nat
  | .wide _ | .wideW _ | .wmac _ => 2 * n
  | _ => n

/-- The same for vs2. -/
def bytes2 (n : Nat) : VwFn → Nat
  | .narrow _ | .wideW _ => 2 * n
  | _ => n

variable {n : Nat}

/-- The value wanted of element `i`. -/
def WantedW (c : Core n) (v : VCore) (w : Nat) (f : VForm) (i : Nat) (r : Int) : VwFn → Prop
  | .narrow o => ∃ (a : BitVec (8 * (2 * v.vs.sew))) (b : BitVec (8 * v.vs.sew)),
      VecLoop.Spec.IsElem v.vs.vlenb (2 * v.vs.sew) v.regs (vs2Of w) i a ∧
      VecInt.Spec.Operand v.vs v.regs i b (operand1 c w f) ∧ r = VecInt.Spec.narrow a b o
  | .wide o => ∃ a b : BitVec (8 * v.vs.sew), VecLoop.Spec.IsElem v.vs.vlenb v.vs.sew v.regs (vs2Of w) i a ∧
      VecInt.Spec.Operand v.vs v.regs i b (operand1 c w f) ∧ r = VecInt.Spec.wide a b o
  | .wideW o => ∃ (a : BitVec (8 * (2 * v.vs.sew))) (b : BitVec (8 * v.vs.sew)),
      VecLoop.Spec.IsElem v.vs.vlenb (2 * v.vs.sew) v.regs (vs2Of w) i a ∧
      VecInt.Spec.Operand v.vs v.regs i b (operand1 c w f) ∧ r = VecInt.Spec.wideW a b o
  | .mac o => ∃ a b d : BitVec (8 * v.vs.sew), VecLoop.Spec.IsElem v.vs.vlenb v.vs.sew v.regs (vs2Of w) i a ∧
      VecInt.Spec.Operand v.vs v.regs i b (operand1 c w f) ∧
      VecLoop.Spec.IsElem v.vs.vlenb v.vs.sew v.regs (vdOf w) i d ∧ r = VecInt.Spec.mac a b d o
  | .wmac o => ∃ (a b : BitVec (8 * v.vs.sew)) (d : BitVec (8 * (2 * v.vs.sew))),
      VecLoop.Spec.IsElem v.vs.vlenb v.vs.sew v.regs (vs2Of w) i a ∧
      VecInt.Spec.Operand v.vs v.regs i b (operand1 c w f) ∧
      VecLoop.Spec.IsElem v.vs.vlenb (2 * v.vs.sew) v.regs (vdOf w) i d ∧ r = VecInt.Spec.wmac a b d o

/-- Only the multiply-add instructions without widening have no operand of double width. -/
def isMac : VwFn → Bool
  | .mac _ => true
  | _ => false

/-- The instruction is legal with the present type, and its registers are properly aligned and do not overlap in
forbidden ways. -/
structure PermittedW (c : Core n) (v : VCore) (w : Nat) (k : VwFn) (f : VForm) : Prop where
  sew : v.vs.sew = 1 ∨ v.vs.sew = 2 ∨ v.vs.sew = 4 ∨ (v.vs.sew = 8 ∧ isMac k = true)
  ready : VecLoop.Spec.Ready v.vs [bytesD v.vs.sew k, bytes2 v.vs.sew k, v.vs.sew] (bytesD v.vs.sew k) (vdOf w)
  vs2 : VecLoop.Spec.SourceOk v.vs.vlenb v.vs.vl (bytesD v.vs.sew k) (vdOf w) (bytes2 v.vs.sew k) (vs2Of w)
  vs1 : VecInt.Spec.OperandOk v.vs (bytesD v.vs.sew k) (vdOf w) v.vs.sew (operand1 c w f)

end Verif.Exec.Spec
