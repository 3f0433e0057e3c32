import Verif.FpMem.Model
import Verif.Mem.Spec

/-!
# What floating-point loads and stores do
-/

namespace Verif.FpMem.Spec

open Core Mem.Spec

variable {w : Nat}

/-- Loads and stores of `n` bytes. -/
inductive Kind where
  | load (n : Nat)
  | store (n : Nat)

def kind : Ins → Kind
  | .flh => .load 2
  | .flw | .cflw => .load 4
  | .fld | .cfld => .load 8
  | .fsh => .store 2
  | .fsw | .cfsw => .store 4
  | .fsd | .cfsd | .cfsdsp => .store 8

/-- The bits of mstatus that say if the floating-point unit is off. -/
def Off (s : State w) : Prop :=
  s.core.hart.mstatus.value.getLsbD 13 = false ∧ s.core.hart.mstatus.value.getLsbD 14 = false

/-- `r` holds the `n`-byte number `v`, with ones above it. -/
def Boxed (n v : Nat) (r : BitVec 64) : Prop := r.toNat = (2 ^ 64 - 2 ^ (8 * n)) + v

/-- An exception and nothing else. -/
def Raised (s s' : State w) (tval code epc : BitVec 64) (handled : Bool) : Prop :=
  Raises s.core s'.core tval code epc handled ∧ s'.fregs = s.fregs

/-- `s'` comes of a load of `n` bytes from `a` into `fr`. -/
def Loaded (n : Nat) (a : BitVec 64) (fr : BitVec 5) (s s' : State w) : Prop :=
  s'.core = s.core ∧ (∀ q, q ≠ fr → s'.fregs q = s.fregs q) ∧
  ∃ v, Holds s.core.mem a n v ∧ v < 256 ^ n ∧ Boxed n v (s'.fregs fr)

/-- `s'` comes of a store of the low `n` bytes of `fr` to `a`. -/
def Stored (n : Nat) (a : BitVec 64) (fr : BitVec 5) (s s' : State w) : Prop :=
  s'.fregs = s.fregs ∧ ∃ m, s'.core = { s.core with mem := m } ∧
  Holds m a n (s.fregs fr).toNat ∧ ∀ b, ¬ InRange a n b → m b = s.core.mem b

/-- What an instruction does, when the unit is on, for the address rs1 + off
modulo the register width. -/
def Does (i : Ins) (s s' : State w) (fr rs1 : BitVec 5) (off : BitVec w) (epc : BitVec 64)
    (handled : Bool) : Prop :=
  ∀ a, IsAddress s.core rs1 off a →
    match kind i with
    | .load n => (a.toNat ≤ s.core.limit.toNat → Loaded n a fr s s') ∧
        (s.core.limit.toNat < a.toNat → Raised s s' a 5#64 epc handled)
    | .store n => (a.toNat ≤ s.core.limit.toNat → Stored n a fr s s') ∧
        (s.core.limit.toNat < a.toNat → Raised s s' a 7#64 epc handled)

end Verif.FpMem.Spec
