import Verif.Alu.Model
/-
What the ISA manual says the integer instructions compute, in terms of integers and bits.
-/
namespace Verif.Alu.Spec

/-- `r` is the result of `o` on `a` and `b` in registers of `w` bits. -/
def result (w : Nat) (o : Op) (a b r : BitVec w) : Prop :=
  match o with
  | .add => r.toNat = (a.toNat + b.toNat) % 2 ^ w
  | .sub => (r.toNat : Int) = ((a.toNat : Int) - b.toNat) % 2 ^ w
  | .slt => (a.toInt < b.toInt → r.toNat = 1) ∧ (¬ a.toInt < b.toInt → r.toNat = 0)
  | .sltu => (a.toNat < b.toNat → r.toNat = 1) ∧ (¬ a.toNat < b.toNat → r.toNat = 0)
  | .and => ∀ i, r.getLsbD i = (a.getLsbD i && b.getLsbD i)
  | .or => ∀ i, r.getLsbD i = (a.getLsbD i || b.getLsbD i)
  | .xor => ∀ i, r.getLsbD i = (a.getLsbD i != b.getLsbD i)
  | .sll => r.toNat = a.toNat * 2 ^ (b.toNat % w) % 2 ^ w
  | .srl => r.toNat = a.toNat / 2 ^ (b.toNat % w)
  | .sra => r.toInt = a.toInt / 2 ^ (b.toNat % w)
  | .czeroEqz => r.toNat = if b.toNat = 0 then 0 else a.toNat
  | .czeroNez => r.toNat = if b.toNat = 0 then a.toNat else 0

/-- The signed value of the low word of a register. -/
def word (a : BitVec 64) : Int := ((a.toNat : Int) % 2 ^ 32).bmod (2 ^ 32)

/-- The W forms: a 32-bit result, sign-extended. -/
def resultW (o : OpW) (a b r : BitVec 64) : Prop :=
  match o with
  | .addw => r.toInt = (word a + word b).bmod (2 ^ 32)
  | .subw => r.toInt = (word a - word b).bmod (2 ^ 32)
  | .sllw => r.toInt = (word a * 2 ^ (b.toNat % 32)).bmod (2 ^ 32)
  | .srlw => r.toInt = (((a.toNat % 2 ^ 32 / 2 ^ (b.toNat % 32) : Nat)) : Int).bmod (2 ^ 32)
  | .sraw => r.toInt = word a / 2 ^ (b.toNat % 32)

/-- Signed value of a 20-bit immediate. -/
def imm20 (i : BitVec 20) : Int := i.toInt

end Verif.Alu.Spec
