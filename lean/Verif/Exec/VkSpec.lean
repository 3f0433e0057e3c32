import Verif.Exec.VmSpec

/-!
# A vector program: the sum of two arrays

    vle32.v  v8, (x11)
    vle32.v  v16, (x12)
    vadd.vv  v24, v8, v16
    vse32.v  v24, (x10)
-/

namespace Verif.Exec.Spec

open Core VecLoop

variable {n : Nat}

/-- The words of the program. -/
def sumWords : List Nat := [0x0205e407, 0x02066807, 0x02880c57, 0x02056c27]

/-- The words `ws` are in memory from the program counter on. -/
def CodeAt (c : Core n) (ws : List Nat) : Prop :=
  ∀ j w, ws[j]? = some w → readLE c.mem ((c.hart.pc + BitVec.ofNat n (4 * j)).setWidth 64) 4 = w

/-- Item `i` of the array of words at the address in register `r`. -/
def item (c : Core n) (r : BitVec 5) (i : Nat) : BitVec 64 := BitVec.ofNat 64 ((X c r).toNat + i * 4)

/-- The array of `num` words at the address in register `r` is inside of the address space and begins no item above the
limit. -/
def ArrayIn (c : Core n) (r : BitVec 5) (num : Nat) : Prop :=
  ∀ i, i < num → (X c r).toNat + i * 4 < 2 ^ n ∧ (X c r).toNat + i * 4 ≤ c.limit.toNat

/-- Groups of up to eight registers hold `vl` elements of 32 bits, and the next vector instruction begins at element 0. -/
structure Words32 (v : VCore) : Prop where
  ok : v.vs.exception = false
  sew : v.vs.sew = 4
  lmul : 1 ≤ v.vs.lmul8 ∧ v.vs.lmul8 ≤ 64
  len : 4 ∣ v.vs.vlenb ∧ 0 < v.vs.vlenb
  room : v.vs.vl * 4 ≤ 8 * v.vs.vlenb
  small : v.vs.vl < 2 ^ 32
  start : v.vs.vstart = 0

end Verif.Exec.Spec
