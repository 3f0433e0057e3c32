import Verif.Exec.VmSpec
import Verif.Exec.VlModel
import Verif.VecMask.Spec

/-!
# Logical operations on mask registers, by the word

The V extension, "Vector Mask-Register Logical Instructions": `vmand.mm vd, vs2, vs1` and its like.
-/

namespace Verif.Exec.Spec

open Decode Decode.Isa Core

/-- The instructions. -/
def vlKind : Op → Option VecMask.Op
  | .vmandnot_vv => some .andnot
  | .vmand_vv => some .and
  | .vmor_vv => some .or
  | .vmxor_vv => some .xor
  | .vmornot_vv => some .ornot
  | .vmnand_vv => some .nand
  | .vmnor_vv => some .nor
  | .vmxnor_vv => some .xnor
  | _ => none

/-- What they compute of bit `a` of vs2 and bit `b` of vs1. -/
def logical (a b : Bool) : VecMask.Op → Bool
  | .andnot => a && !b
  | .and => a && b
  | .or => a || b
  | .xor => a != b
  | .ornot => a || !b
  | .nand => !(a && b)
  | .nor => !(a || b)
  | .xnor => a == b

end Verif.Exec.Spec
