import Verif.Exec.VaSpec
import Verif.VecMem.Spec

/-!
# Unit-stride and strided vector loads and stores, by the word

The V extension, "Vector Loads and Stores": encoding, unit-stride and strided instructions.
-/

namespace Verif.Exec.Spec

open Decode Decode.Isa Core VecLoop

/-- An access: load or store, the number of bytes of an element, and whether the stride is in register rs2 (otherwise it
is the size of an element). -/
structure VmKind where
  store : Bool
  bytes : Nat
  strided : Bool
  deriving DecidableEq, Repr

/-- The instructions.  The fault-only-first loads are included; they differ only if there is a fault. -/
def vmKind : Op → Option VmKind
  | .vle8 => some ⟨false, 1, false⟩
  | .vle16 => some ⟨false, 2, false⟩
  | .vle32 => some ⟨false, 4, false⟩
  | .vle64 => some ⟨false, 8, false⟩
  | .vle8ff => some ⟨false, 1, false⟩
  | .vle16ff => some ⟨false, 2, false⟩
  | .vle32ff => some ⟨false, 4, false⟩
  | .vle64ff => some ⟨false, 8, false⟩
  | .vlse8 => some ⟨false, 1, true⟩
  | .vlse16 => some ⟨false, 2, true⟩
  | .vlse32 => some ⟨false, 4, true⟩
  | .vlse64 => some ⟨false, 8, true⟩
  | .vse8 => some ⟨true, 1, false⟩
  | .vse16 => some ⟨true, 2, false⟩
  | .vse32 => some ⟨true, 4, false⟩
  | .vse64 => some ⟨true, 8, false⟩
  | .vsse8 => some ⟨true, 1, true⟩
  | .vsse16 => some ⟨true, 2, true⟩
  | .vsse32 => some ⟨true, 4, true⟩
  | .vsse64 => some ⟨true, 8, true⟩
  | _ => none

/-- The fault-only-first loads. -/
def isFf : Op → Bool
  | .vle8ff | .vle16ff | .vle32ff | .vle64ff => true
  | _ => false

variable {n : Nat}

/-- The distance of two elements. -/
def strideOf (c : Core n) (w : Nat) (k : VmKind) : Int :=
  if k.strided then (X c (rs2 w)).toInt else k.bytes

/-- Before any reduction modulo a power of two. -/
def rawAddr (c : Core n) (w : Nat) (k : VmKind) (i : Nat) : Int := (X c (rs1 w)).toNat + i * strideOf c w k

/-- The address of element `i`: address arithmetic is modulo 2^xlen. -/
def elemAddr (c : Core n) (w : Nat) (k : VmKind) (i : Nat) : BitVec 64 :=
  BitVec.ofInt 64 (rawAddr c w k i % 2 ^ n)

/-- The instruction is legal with the present type and its register group is aligned; the products are numbers of 64
bits. -/
structure PermittedM (c : Core n) (v : VCore) (w : Nat) (k : VmKind) : Prop where
  ready : VecLoop.Spec.Ready v.vs [k.bytes] k.bytes (vdOf w)
  fits : ∀ i : Nat, v.vs.vstart ≤ i → i < v.vs.vl → -2 ^ 63 ≤ i * strideOf c w k ∧ i * strideOf c w k < 2 ^ 63

/-- No address of an element of the body passes an end of the address space of 32 bits. -/
def NoWrap (c : Core n) (v : VCore) (w : Nat) (k : VmKind) : Prop :=
  n = 64 ∨ ∀ i : Nat, v.vs.vstart ≤ i → i < v.vs.vl → 0 ≤ rawAddr c w k i ∧ rawAddr c w k i < 2 ^ n

end Verif.Exec.Spec
