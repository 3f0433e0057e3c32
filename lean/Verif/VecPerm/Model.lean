import Verif.VecLoop.Model
/-
Vector permutations (riscv/riscv_vector_permute_instructions.cc): gather, slides, compress.

`VrgatherHelper`, `VSlideHelper` and `VSlide1Helper` have the loops of the element-wise helpers (`VecLoop.outer`)
without the checks of the multipliers, and one difference: the mask bit is looked up with the index `i` within the
register, not with the element's index.  `i` is the element's index modulo the number of elements of a register:
it starts as `vstart % elements_per_vector` and returns to 0 with every register.
-/
namespace Verif.VecPerm
open Verif.VecState Verif.VecLoop

def refuse (c : VCore) : VCore := { c with vs := { c.vs with exception := true } }

/-- The loops of the three helpers (riscv_vector_permute_instructions.cc:37-106, 153-205, 259-312), from the check
of the destination on.  `g` yields the value of an element, if it is written. -/
def loops (c : VCore) (n vd : Nat) (g : VRegs → Nat → Option (BitVec (8 * n))) : Option VCore :=
  (elementwise c [] n vd (fun R i (_ : Unit) => (g R i, ())) ()).map (·.1)

/-- The indices of a gather: a group of elements of `n` bytes, or a scalar. -/
inductive Index (n : Nat) where
  | vec (vs : Nat)
  | scalar (x : BitVec 64)

/-- The index of an element, in the type `RV32Register::ValueType`, 32 bits unsigned (:88-94). -/
def Index.get {n : Nat} (vlenb : Nat) (R : VRegs) (i : Nat) : Index n → BitVec 32
  | .vec vs => (source vlenb n R vs i).setWidth 32
  | .scalar x => x.setWidth 32

/-- `VrgatherHelper<Vd, Vd, Vs1>` (riscv_vector_permute_instructions.cc:34-107).  The bound on the index comes of
the size of the source operand, which depends on the register's number only (riscv_getters_vector.h:47). -/
def gather (c : VCore) (n n1 vd vs2 : Nat) (ix : Index n1) (mask : Buf) : Option VCore :=
  if c.vs.exception then some c
  else if c.vs.lmul8 * n1 / n > 64 then some (refuse c)
  else
    let epv := c.vs.vlenb / n
    loops c n vd fun R i =>
      if maskBit mask (i % epv) then
        some (if (ix.get c.vs.vlenb R i).toNat < groupSize vs2 * epv
          then source c.vs.vlenb n R vs2 (ix.get c.vs.vlenb R i).toNat else 0)
      else none

/-- `Vrgather` (:110-127): indices as wide as the elements. -/
def vrgather (c : VCore) (vd vs2 : Nat) (ix : Index c.vs.sew) (mask : Buf) : Option VCore :=
  if c.vs.sew = 1 ∨ c.vs.sew = 2 ∨ c.vs.sew = 4 ∨ c.vs.sew = 8 then gather c c.vs.sew c.vs.sew vd vs2 ix mask
  else some (refuse c)

/-- `Vrgatherei16` (:130-147): indices of 16 bits. -/
def vrgatherei16 (c : VCore) (vd vs2 : Nat) (ix : Index 2) (mask : Buf) : Option VCore :=
  if c.vs.sew = 1 ∨ c.vs.sew = 2 ∨ c.vs.sew = 4 ∨ c.vs.sew = 8 then gather c c.vs.sew 2 vd vs2 ix mask
  else some (refuse c)

/-- `vector_index - offset` leaves the range of `int` for some element of the body. -/
def overflows (c : VCore) (off : Int) : Bool :=
  !c.vs.exception && decide (c.vs.vstart < c.vs.vl) &&
    !(decide (-2 ^ 31 ≤ (c.vs.vstart : Int) - off) && decide ((c.vs.vl : Int) - 1 - off < 2 ^ 31))

/-- `VSlideHelper` (riscv_vector_permute_instructions.cc:150-206).  `none` is undefined behaviour: the overflow of
`vector_index - offset`, here also where the destination is refused before. -/
def slide (c : VCore) (n vd vs2 : Nat) (off : Int) (mask : Buf) : Option VCore :=
  if overflows c off then none
  else loops c n vd fun R i =>
    if 0 ≤ (i : Int) - off ∧ maskBit mask (i % (c.vs.vlenb / n)) = true then
      some (if (i : Int) - off < c.vs.vmax then source c.vs.vlenb n R vs2 ((i : Int) - off).toNat else 0)
    else none

/-- `Vslideup` (:208-230).  `x` is the scalar, read as 32 bits. -/
def vslideup (c : VCore) (vd vs2 : Nat) (x : BitVec 64) (mask : Buf) : Option VCore :=
  if c.vs.vmax < (x.setWidth 32 : BitVec 32).toNat then some c
  else if c.vs.sew = 1 ∨ c.vs.sew = 2 ∨ c.vs.sew = 4 ∨ c.vs.sew = 8 then
    slide c c.vs.sew vd vs2 (x.setWidth 32 : BitVec 32).toInt mask
  else some (refuse c)

/-- `Vslidedown` (:232-253).  Negating the least `int` is undefined. -/
def vslidedown (c : VCore) (vd vs2 : Nat) (x : BitVec 64) (mask : Buf) : Option VCore :=
  if (x.setWidth 32 : BitVec 32) = 0x80000000#32 then none
  else if c.vs.sew = 1 ∨ c.vs.sew = 2 ∨ c.vs.sew = 4 ∨ c.vs.sew = 8 then
    slide c c.vs.sew vd vs2 (-(x.setWidth 32 : BitVec 32).toInt) mask
  else some (refuse c)

/-- `VSlide1Helper` (riscv_vector_permute_instructions.cc:256-313) with the offset 1 or -1; `x` is the scalar in the
element's type. -/
def slide1 (c : VCore) (n vd vs2 : Nat) (x : BitVec (8 * n)) (off : Int) (mask : Buf) : Option VCore :=
  loops c n vd fun R i =>
    if maskBit mask (i % (c.vs.vlenb / n)) then
      some (if 0 < (i : Int) - off ∧ (i : Int) - off < c.vs.vmax then source c.vs.vlenb n R vs2 ((i : Int) - off).toNat
        else x)
    else none

/-- `Vslide1up` (:315-332) and, for `fp`, `Vfslide1up` (:353-366). -/
def vslide1up (fp : Bool) (c : VCore) (vd vs2 : Nat) (x : BitVec (8 * c.vs.sew)) (mask : Buf) : Option VCore :=
  if (fp = false ∧ (c.vs.sew = 1 ∨ c.vs.sew = 2)) ∨ c.vs.sew = 4 ∨ c.vs.sew = 8 then slide1 c c.vs.sew vd vs2 x 1 mask
  else some (refuse c)

/-- `Vslide1down` (:334-351) and, for `fp`, `Vfslide1down` (:368-381). -/
def vslide1down (fp : Bool) (c : VCore) (vd vs2 : Nat) (x : BitVec (8 * c.vs.sew)) (mask : Buf) : Option VCore :=
  if (fp = false ∧ (c.vs.sew = 1 ∨ c.vs.sew = 2)) ∨ c.vs.sew = 4 ∨ c.vs.sew = 8 then
    slide1 c c.vs.sew vd vs2 x (-1) mask
  else some (refuse c)

/-- The registers and the buffer being filled (`dest_db`, for the register `prev_reg`) of a compression. -/
structure CState where
  regs : VRegs
  cur : Option (Nat × Buf) := none
  next : Nat := 0

/-- `dest_db->Submit()`, if there is a buffer. -/
def CState.submit (vd : Nat) (s : CState) : VRegs :=
  match s.cur with
  | none => s.regs
  | some (reg, b) => fun q => if q = vd + reg then b else s.regs q

/-- The body of the loop for a selected element (riscv_vector_permute_instructions.cc:418-432). -/
def CState.put (vlenb n vd vs2 : Nat) (s : CState) (i : Nat) : CState :=
  let reg := s.next / (vlenb / n)
  let (R, b) := match s.cur with
    | some (r, b) => if r = reg then (s.regs, b) else (s.submit vd, s.submit vd (vd + reg))
    | none => (s.regs, s.regs (vd + reg))
  { regs := R, cur := some (reg, setElem n b (s.next % (vlenb / n)) (source vlenb n R vs2 i)), next := s.next + 1 }

/-- The loop over the elements from `i` on. -/
def compressLoop (vlenb n vd vs2 : Nat) (m : Buf) : Nat → Nat → CState → CState
  | 0, _, s => s
  | k + 1, i, s => compressLoop vlenb n vd vs2 m k (i + 1) (if maskBit m i then s.put vlenb n vd vs2 i else s)

/-- `VCompressHelper` (riscv_vector_permute_instructions.cc:383-436).  The span of the mask stays valid as long as
that register is not replaced; the ISA reserves the overlap. -/
def compress (c : VCore) (n vd vs2 vs1 : Nat) : Option VCore :=
  if c.vs.exception then some c
  else
    let epv := c.vs.vlenb / n
    if epv = 0 then none
    else if groupSize vd < max 1 ((c.vs.vl + epv - 1) / epv) then some (refuse c)
    else
      let s := compressLoop c.vs.vlenb n vd vs2 (c.regs vs1) (c.vs.vl - c.vs.vstart) c.vs.vstart { regs := c.regs }
      some { vs := { c.vs with vstart := 0 }, regs := s.submit vd }

/-- `Vcompress` (:438-455). -/
def vcompress (c : VCore) (vd vs2 vs1 : Nat) : Option VCore :=
  if c.vs.sew = 1 ∨ c.vs.sew = 2 ∨ c.vs.sew = 4 ∨ c.vs.sew = 8 then compress c c.vs.sew vd vs2 vs1
  else some (refuse c)

end Verif.VecPerm
