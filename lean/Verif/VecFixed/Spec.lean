/-
Fixed-point rounding and saturation after the RISC-V vector specification, on integers.
-/
namespace Verif.VecFixed.Spec

/-- `q` is `v / 2^d` rounded as vxrm = `rm` demands: 0 to nearest, ties up; 1 to nearest, ties to even; 2 down;
3 to odd (inexact results are odd). -/
def Rounds (rm : BitVec 2) (v : Int) (d : Nat) (q : Int) : Prop :=
  if rm = 0#2 then 2 * (q * 2 ^ d - v) ≤ 2 ^ d ∧ 2 * (v - q * 2 ^ d) < 2 ^ d
  else if rm = 1#2 then 2 * (q * 2 ^ d - v) ≤ 2 ^ d ∧ 2 * (v - q * 2 ^ d) ≤ 2 ^ d
    ∧ ((2 * (q * 2 ^ d - v) = 2 ^ d ∨ 2 * (v - q * 2 ^ d) = 2 ^ d) → q % 2 = 0)
  else if rm = 2#2 then q * 2 ^ d ≤ v ∧ v < q * 2 ^ d + 2 ^ d
  else q * 2 ^ d = v ∨ (q % 2 = 1 ∧ q * 2 ^ d - v < 2 ^ d ∧ v - q * 2 ^ d < 2 ^ d)

/-- Clamping to an interval. -/
def clamp (lo hi v : Int) : Int := if v < lo then lo else if v > hi then hi else v

/-- The range of the signed and unsigned `n`-bit types. -/
def lo (sgn : Bool) (n : Nat) : Int := if sgn then -2 ^ (n - 1) else 0
def hi (sgn : Bool) (n : Nat) : Int := if sgn then 2 ^ (n - 1) - 1 else 2 ^ n - 1

/-- The number an element denotes. -/
def num {n : Nat} (sgn : Bool) (b : BitVec n) : Int := if sgn then b.toInt else b.toNat

end Verif.VecFixed.Spec
