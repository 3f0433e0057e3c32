import Verif.Exec.VmSpec
import Verif.Exec.VrModel
import Verif.VecRed.Spec

/-!
# Integer reductions, by the word

The V extension, "Vector Integer Reduction Instructions": `vredop.vs vd, vs2, vs1, vm`.
-/

namespace Verif.Exec.Spec

open Decode Decode.Isa Core VecLoop

/-- The instructions and what they compute. -/
def vrKind : Op → Option VrFn
  | .vredsum_vv => some (.same .sum)
  | .vredand_vv => some (.same .and)
  | .vredor_vv => some (.same .or)
  | .vredxor_vv => some (.same .xor)
  | .vredminu_vv => some (.same .minu)
  | .vredmin_vv => some (.same .min)
  | .vredmaxu_vv => some (.same .maxu)
  | .vredmax_vv => some (.same .max)
  | .vwredsumu_vv => some (.wide false)
  | .vwredsum_vv => some (.wide true)
  | _ => none

/-- The kinds of results in the terms of the specification of C78. -/
def redKind : VecRed.IntOp → VecRed.Spec.Kind
  | .sum => .sum
  | .and => .and
  | .or => .or
  | .xor => .xor
  | .minu => .minu
  | .min => .min
  | .maxu => .maxu
  | .max => .max

/-- `x` are the elements of the group at the word's vs2, and `act` tells which of them are active. -/
structure Elements (v : VCore) (w : Nat) (x : Nat → BitVec (8 * v.vs.sew)) (act : Nat → Bool) : Prop where
  value : ∀ i, i < v.vs.vl → VecLoop.Spec.IsElem v.vs.vlenb v.vs.sew v.regs (vs2Of w) i (x i)
  mask : ∀ i, i < v.vs.vl → (act i = true ↔ VecLoop.Spec.Active v.regs (vmOf w) i)

end Verif.Exec.Spec
