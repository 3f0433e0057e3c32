import Verif.Exec.Spec
import Verif.VecState.Spec
import Verif.VecState.Model
import Verif.Decode.IsaProps

/-!
# What vsetvli, vsetivli and vsetvl do, as the manual has it

The V extension, "Configuration-Setting Instructions".  `VecState.Spec` has the fields of vtype and VLMAX.
-/

namespace Verif.Exec.Spec

open Decode Decode.Isa Core

/-- The three instructions. -/
inductive VInsn where
  | vsetvli | vsetivli | vsetvl
  deriving DecidableEq, Repr

def vsKind : Op → Option VInsn
  | .vsetvli_xn => some .vsetvli
  | .vsetivli => some .vsetivli
  | .vsetvl_xn => some .vsetvl
  | _ => none

/-- The word `w` is one of them. -/
def IsVs (x : Xlen) (w : Nat) (i : VInsn) : Prop := ∃ o, vsKind o = some i ∧ Listed x o w

variable {n : Nat}

/-- The new vtype: bits 30 to 20 of vsetvli, bits 29 to 20 of vsetivli, register rs2 of vsetvl. -/
def newType (c : Core n) (w : Nat) : VInsn → Nat
  | .vsetvli => Getters.Spec.unsigned w (Getters.Spec.positions [(30, 20)])
  | .vsetivli => Getters.Spec.unsigned w (Getters.Spec.positions [(29, 20)])
  | .vsetvl => (X c (rs2 w)).toNat

/-- The instruction keeps vl as it is: rd and rs1 are x0. -/
def KeepsVl (w : Nat) : VInsn → Prop
  | .vsetivli => False
  | _ => rd w = 0#5 ∧ rs1 w = 0#5

/-- The application vector length: bits 19 to 15 of vsetivli, else register rs1; none, for "as much as there can
be", if that is x0. -/
def avl (c : Core n) (w : Nat) : VInsn → Option Nat
  | .vsetivli => some (Getters.Spec.unsigned w (Getters.Spec.positions [(19, 15)]))
  | _ => if rs1 w = 0#5 then none else some (X c (rs1 w)).toNat

/-- A vtype in use: the bits above the fields are 0, and the fields are not reserved. -/
def LegalType (t : Nat) : Prop := t < 256 ∧ VecState.Spec.Legal t

/-- The length for application vector length `a` with `m` elements to a register group: all that is asked for if
it fits; between half of it (rounded up) and `m` if it is below twice `m`; else `m`. -/
def LengthFor (a : Option Nat) (m vl : Nat) : Prop :=
  match a with
  | none => vl = m
  | some a => (a ≤ m → vl = a) ∧ (m < a → a < 2 * m → (a + 1) / 2 ≤ vl ∧ vl ≤ m) ∧ (2 * m ≤ a → vl = m)

/-- The vector unit has been configured: the new type is in force, the length is right for it, and nothing else
has changed.  (That vstart becomes 0 is stated apart.) -/
structure Configured (v v' : VecState.VState) (t : Nat) (a : Option Nat) : Prop where
  type : v'.vtype.toNat = t
  max : v'.vmax = VecState.Spec.maxOf v.vlenb t
  length : LengthFor a (VecState.Spec.maxOf v.vlenb t) v'.vl
  sew : v'.sew = 2 ^ VecState.Spec.vsew t
  tail : v'.ta = VecState.Spec.vta t
  mask : v'.ma = VecState.Spec.vma t
  rest : v'.vlenb = v.vlenb ∧ v'.vxsat = v.vxsat ∧ v'.vxrm = v.vxrm ∧ v'.exception = v.exception

end Verif.Exec.Spec
