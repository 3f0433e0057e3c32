import Verif.MulDiv.Model
import Verif.Alu.Spec
/-
What the ISA manual says the M extension computes, over the integers.
-/
namespace Verif.MulDiv.Spec

/-- The signed quotient, with the ISA's values for division by zero; signed overflow wraps. -/
def quot (a b : Int) : Int := if b = 0 then -1 else a.tdiv b
/-- The signed remainder: the dividend for division by zero. -/
def remd (a b : Int) : Int := if b = 0 then a else a.tmod b

/-- The signed value of the low `w` bits of `x`. -/
def signed (w : Nat) (x : Int) : Int := x.bmod (2 ^ w)

/-- `r` is the result of `o` on `a` and `b` in registers of `w` bits. -/
def result (w : Nat) (o : Op) (a b r : BitVec w) : Prop :=
  match o with
  | .mul => r.toInt = signed w (a.toInt * b.toInt)
  | .mulh => r.toInt = a.toInt * b.toInt / 2 ^ w
  | .mulhu => r.toNat = a.toNat * b.toNat / 2 ^ w
  | .mulhsu => r.toInt = a.toInt * b.toNat / 2 ^ w
  | .div => r.toInt = signed w (quot a.toInt b.toInt)
  | .divu => r.toNat = if b.toNat = 0 then 2 ^ w - 1 else a.toNat / b.toNat
  | .rem => r.toInt = remd a.toInt b.toInt
  | .remu => r.toNat = if b.toNat = 0 then a.toNat else a.toNat % b.toNat

/-- W forms on the low words, result sign-extended to 64 bits. -/
def resultW (o : OpW) (a b r : BitVec 64) : Prop :=
  match o with
  | .mulw => r.toInt = signed 32 (Alu.Spec.word a * Alu.Spec.word b)
  | .divw => r.toInt = signed 32 (quot (Alu.Spec.word a) (Alu.Spec.word b))
  | .divuw => r.toInt = signed 32
      (if b.toNat % 2 ^ 32 = 0 then 2 ^ 32 - 1 else (a.toNat % 2 ^ 32 : Nat) / (b.toNat % 2 ^ 32 : Nat))
  | .remw => r.toInt = remd (Alu.Spec.word a) (Alu.Spec.word b)
  | .remuw => r.toInt = signed 32
      (if b.toNat % 2 ^ 32 = 0 then (a.toNat % 2 ^ 32 : Nat) else (a.toNat % 2 ^ 32 : Nat) % (b.toNat % 2 ^ 32 : Nat))

end Verif.MulDiv.Spec
