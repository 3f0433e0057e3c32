import Verif.VecLoop.Model
/-
Moves between scalar and vector registers, and of whole registers: `VmvToScalar`, `VmvFromScalar`
(riscv/riscv_vector_unary_instructions.cc:39-98), `Vfmvvf`, `Vfmvsf`, `Vfmvfs`
(riscv/riscv_vector_fp_unary_instructions.cc:64-157) and `Vmvr` (riscv/riscv_vector_opi_instructions.cc:1133-1163).
-/
namespace Verif.VecMove
open Verif.VecState Verif.VecLoop

def refuse (c : VCore) : VCore := { c with vs := { c.vs with exception := true } }

/-- A buffer of `w` bits holding `old`, after `Set<int32_t>(0, v)`. -/
def setLow {w : Nat} (old : BitVec w) (v : BitVec 32) : BitVec w := ((old >>> 32) <<< 32) ||| v.setWidth w

/-- `VmvToScalar` (riscv_vector_unary_instructions.cc:39-70), for `vmv.x.s`: the new state, and the value rd receives
if it is written.  `SignedXregType` is `int32_t` on both bases (:34-36).  `old` is what the newly allocated buffer
contains, which nothing initialises. -/
def vmvToScalar {w : Nat} (c : VCore) (vs2 : Nat) (old : BitVec w) : VCore × Option (BitVec w) :=
  if c.vs.vstart ≠ 0 then (c, none)
  else if c.vs.vl = 0 then (c, none)
  else if c.vs.sew = 1 ∨ c.vs.sew = 2 ∨ c.vs.sew = 4 ∨ c.vs.sew = 8 then
    (c, some (setLow old ((source c.vs.vlenb c.vs.sew c.regs vs2 0).signExtend 32)))
  else (refuse c, none)

/-- `CopyDataBuffer`, `Set<T>(0, x)`, `Submit`. -/
def setFirst (c : VCore) (n vd : Nat) (x : BitVec (8 * n)) : VRegs :=
  fun q => if q = vd then setElem n (c.regs vd) 0 x else c.regs q

/-- `VmvFromScalar` (riscv_vector_unary_instructions.cc:72-98), for `vmv.s.x`.  `x` is the scalar in the element's
type. -/
def vmvFromScalar (c : VCore) (vd : Nat) (x : BitVec (8 * c.vs.sew)) : VCore :=
  if c.vs.vstart ≠ 0 then c
  else if c.vs.vl = 0 then c
  else if c.vs.sew = 1 ∨ c.vs.sew = 2 ∨ c.vs.sew = 4 ∨ c.vs.sew = 8 then { c with regs := setFirst c c.vs.sew vd x }
  else refuse c

/-- `Vfmvvf` (riscv_vector_fp_unary_instructions.cc:64-95), for `vfmv.v.f`.  `x` is the floating-point register; a
`uint32_t` read of it gives its low half.  `none` is undefined behaviour: the elements are written to the buffer of
one register, without a test of its size. -/
def vfmvvf (c : VCore) (vd : Nat) (x : BitVec 64) : Option VCore :=
  if c.vs.vstart ≠ 0 then some c
  else if c.vs.vl = 0 then some c
  else if c.vs.sew = 4 ∨ c.vs.sew = 8 then
    if c.vs.vlenb < c.vs.vl * c.vs.sew then none
    else some
      { c with regs := fun q => if q = vd then
          (List.range c.vs.vl).foldl (fun b i => setElem c.vs.sew b i (x.setWidth _)) (c.regs vd) else c.regs q }
  else some (refuse c)

/-- `Vfmvsf` (riscv_vector_fp_unary_instructions.cc:98-124), for `vfmv.s.f`. -/
def vfmvsf (c : VCore) (vd : Nat) (x : BitVec 64) : VCore :=
  if c.vs.vstart ≠ 0 then c
  else if c.vs.vl = 0 then c
  else if c.vs.sew = 4 ∨ c.vs.sew = 8 then { c with regs := setFirst c c.vs.sew vd (x.setWidth _) }
  else refuse c

/-- `Vfmvfs` (riscv_vector_fp_unary_instructions.cc:126-157), for `vfmv.f.s`; the registers have 8 bytes. -/
def vfmvfs (c : VCore) (vs2 : Nat) : VCore × Option (BitVec 64) :=
  if c.vs.sew = 4 then
    ({ c with vs := { c.vs with vstart := 0 } },
      some (0xffffffff00000000#64 ||| (source c.vs.vlenb 4 c.regs vs2 0).setWidth 64))
  else if c.vs.sew = 8 then
    ({ c with vs := { c.vs with vstart := 0 } }, some (source c.vs.vlenb 8 c.regs vs2 0))
  else (refuse c, none)

/-- The loop of `Vmvr` (riscv_vector_opi_instructions.cc:1155-1161). -/
def copyRegs (vd vs2 : Nat) : Nat → Nat → VRegs → VRegs
  | 0, _, R => R
  | k + 1, i, R => copyRegs vd vs2 k (i + 1) (fun q => if q = vd + i then R (vs2 + i) else R q)

/-- `Vmvr` (riscv_vector_opi_instructions.cc:1133-1163); `none`: division by zero. -/
def vmvr (num : Nat) (c : VCore) (vd vs2 : Nat) : Option VCore :=
  if c.vs.exception then some c
  else if groupSize vs2 < num then some (refuse c)
  else if groupSize vd < num then some (refuse c)
  else if c.vs.sew = 0 ∨ c.vs.vlenb / c.vs.sew = 0 then none
  else
    let start := c.vs.vstart / (c.vs.vlenb / c.vs.sew)
    some { vs := { c.vs with vstart := 0 }, regs := copyRegs vd vs2 (num - start) start c.regs }

end Verif.VecMove
