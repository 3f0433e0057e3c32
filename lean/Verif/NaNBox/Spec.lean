import Verif.Fp.Fmt
/-
NaN boxing as the ISA manual words it (unprivileged manual, "NaN Boxing of Narrower Values").
-/
namespace Verif.NaNBox.Spec
open Verif.Fp

/-- A register holds a boxed value: every bit above the value is one. -/
def Boxed (f : Fmt) {W : Nat} (r : BitVec W) : Prop := ∀ i, f.bits ≤ i → i < W → r.getLsbD i = true

/-- The narrow value in a register: its low bits. -/
def Low (f : Fmt) {W : Nat} (r : BitVec W) (v : BitVec f.bits) : Prop :=
  ∀ i, i < f.bits → v.getLsbD i = r.getLsbD i

/-- What a narrow operation must see when it reads `r`. -/
def Reads (f : Fmt) {W : Nat} (r : BitVec W) (v : BitVec f.bits) : Prop :=
  (Boxed f r → Low f r v) ∧ (¬ Boxed f r → v = canonicalNaN f)

/-- What a narrow result `v` must leave in the register. -/
def Writes (f : Fmt) {W : Nat} (r : BitVec W) (v : BitVec f.bits) : Prop :=
  Boxed f r ∧ Low f r v

end Verif.NaNBox.Spec
