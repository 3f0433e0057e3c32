import Verif.XStatus.Model
/-
Layout of mstatus from the RISC-V privileged manual (with the N extension's U bits),
written independently of the masks of the code: each field by its bit positions.
-/
namespace Verif.XStatus.Spec
open Verif.Csr (Op)

/-- Position and length of each writable field. -/
def pos : Field → Nat × Nat
  | .uie => (0, 1) | .sie => (1, 1) | .mie => (3, 1) | .upie => (4, 1) | .spie => (5, 1)
  | .mpie => (7, 1) | .spp => (8, 1) | .mpp => (11, 2) | .fs => (13, 2) | .xs => (15, 2)
  | .mprv => (17, 1) | .sum => (18, 1) | .mxr => (19, 1) | .tvm => (20, 1) | .tw => (21, 1)
  | .tsr => (22, 1)

/-- All fields. -/
def fields : List Field :=
  [.tsr, .tw, .tvm, .mxr, .sum, .mprv, .xs, .fs, .mpp, .spp, .mpie, .spie, .upie, .mie, .sie, .uie]

/-- The supervisor-level fields. -/
def sFields : List Field := [.mxr, .sum, .xs, .fs, .spp, .spie, .upie, .sie, .uie]

/-- The value of a field in a register value of width 32 or 64 (the fields above are at the same
position in both). -/
def field {n : Nat} (v : BitVec n) (f : Field) : BitVec (pos f).2 :=
  v.extractLsb' (pos f).1 (pos f).2

/-- Bit `i` belongs to field `f`. -/
def inField (i : Nat) (f : Field) : Bool := (pos f).1 ≤ i && i < (pos f).1 + (pos f).2

/-- Bit `i` belongs to one of the fields of the list. -/
def inFields (i : Nat) (fs : List Field) : Bool := fs.any (inField i)

/-- The last value given to `f` in a batch; values for unsupported modes are ignored. -/
def lastValue (hasS : Bool) (us : List (Field × BitVec 32)) (f : Field) : Option (BitVec 32) :=
  match us with
  | [] => none
  | (g, v) :: us =>
    match lastValue hasS us f with
    | some w => some w
    | none => if g = f ∧ ¬ (g = .mpp ∧ v = 1 ∧ hasS = false) then some v else none

end Verif.XStatus.Spec
