import Verif.VecState.Model
/-
The vector register file, its operands (riscv/riscv_register.{h,cc}, riscv/riscv_getters_vector.h) and the loops
over elements shared by the vector instructions (riscv/riscv_vector_instruction_helpers.h).

A data buffer is a function from byte index to byte, so a register file is a function from register number to
buffer.  All destination operands have latency 0 (riscv_vector.isa:35, 1416), so submitting a buffer writes
its register at once.  C++ `int` indices are natural numbers.
-/
namespace Verif.VecLoop
open Verif.VecState

abbrev Buf := Nat → BitVec 8
abbrev VRegs := Nat → Buf

/-- Little-endian value of the first `n` bytes. -/
def leNat (f : Nat → BitVec 8) : Nat → Nat
  | 0 => 0
  | n + 1 => (f 0).toNat + 256 * leNat (fun k => f (k + 1)) n

/-- `data_buffer()->Get<T>(i)` for an `n`-byte type on a little-endian host. -/
def getElem (n : Nat) (b : Buf) (i : Nat) : BitVec (8 * n) := BitVec.ofNat (8 * n) (leNat (fun k => b (i * n + k)) n)

/-- `span[i] = v` for a span of `n`-byte elements over the buffer. -/
def setElem (n : Nat) (b : Buf) (i : Nat) (v : BitVec (8 * n)) : Buf :=
  fun x => if x / n = i then v.extractLsb' (8 * (x % n)) 8 else b x

/-- `RV32VectorSourceOperand::As...(i)` (riscv_register.cc:75-132): element `i` of the group starting at
register `base`.  The vector registers are arrays of bytes, `vlenb` of them. -/
def source (vlenb n : Nat) (R : VRegs) (base i : Nat) : BitVec (8 * n) :=
  getElem n (R (base + i / (vlenb / n))) (i % (vlenb / n))

/-- `kNumRegTable` (riscv_getters_vector.h:47): the number of registers of the operand that starts at a
register. -/
def groupSize (reg : Nat) : Nat := [8, 1, 2, 1, 4, 1, 2, 1].getD (reg % 8) 1

/-- A mask bit: `((mask_span[i >> 3] >> (i & 0b111)) & 0b1) != 0`. -/
def maskBit (m : Buf) (i : Nat) : Bool := ((m (i >>> 3) >>> (i &&& 0b111)) &&& 1#8) ≠ 0#8

/-- The `vmask` operand (riscv_getters_vector.h:125-133, riscv_register.cc:134-144): v0, or the register of all
ones if the instruction is not masked.  The loops take the span once, before the first element; it stays valid
as long as v0 is not replaced before the last element has been processed, which the ISA guarantees by reserving
masked instructions whose destination overlaps v0. -/
def maskOf (R : VRegs) (vm : Bool) : Buf := if vm then fun _ => 0xff#8 else R 0

/-- The processor state these instructions use. -/
structure VCore where
  vs : VState
  regs : VRegs

/-- The inner loop: `for (i = item_index; i < element_count && vector_index < num_elements; i++)`.  `f` is the
element's computation: the value to store, if any, and the state it updates. -/
def inner {σ : Type} (nd num : Nat) (f : Nat → σ → Option (BitVec (8 * nd)) × σ) : Nat → Nat → Nat → Buf → σ → Buf × Nat × σ
  | 0, _, vi, b, s => (b, vi, s)
  | k + 1, i, vi, b, s =>
    if vi < num then
      let r := f vi s
      inner nd num f k (i + 1) (vi + 1) (match r.1 with | some v => setElem nd b i v | none => b) r.2
    else (b, vi, s)

/-- The outer loop: `for (reg = start_reg; reg < max_regs && vector_index < num_elements; reg++)`: copy the
register, run the inner loop on the copy, submit it. -/
def outer {σ : Type} (nd epv num vd : Nat) (f : VRegs → Nat → σ → Option (BitVec (8 * nd)) × σ) :
    Nat → Nat → Nat → Nat → VRegs → σ → VRegs × σ
  | 0, _, _, _, R, s => (R, s)
  | k + 1, reg, item, vi, R, s =>
    if vi < num then
      let r := inner nd num (f R) (min epv num - item) item vi (R (vd + reg)) s
      outer nd epv num vd f k (reg + 1) 0 r.2.1 (fun q => if q = vd + reg then r.1 else R q) r.2.2
    else (R, s)

/-- The body common to the element-wise helpers (riscv_vector_instruction_helpers.h:160-219 nullary, 225-285
unary, 290-375 unary with flags, 380-462 mask binary, 482-566 binary with flags, 571-646 ternary): the checks, the
loops, and clearing vstart.  `ns` are the sizes whose multiplier is checked.  The break on an exception raised by
the operation itself (:446-454, 546-550) is not modelled: the operations modelled raise none.  `none`: division
by zero. -/
def elementwise {σ : Type} (c : VCore) (ns : List Nat) (nd vd : Nat)
    (f : VRegs → Nat → σ → Option (BitVec (8 * nd)) × σ) (s : σ) : Option (VCore × σ) :=
  if c.vs.exception then some (c, s)
  else if c.vs.sew = 0 ∧ ns ≠ [] then none
  else
    let lmuls := ns.map fun n => c.vs.lmul8 * n / c.vs.sew
    if lmuls.any fun l => l > 64 || l == 0 then some ({ c with vs := { c.vs with exception := true } }, s)
    else
      let epv := c.vs.vlenb / nd
      if epv = 0 then none
      else
        let num := c.vs.vl
        let maxRegs := (num + epv - 1) / epv
        if groupSize vd < maxRegs then some ({ c with vs := { c.vs with exception := true } }, s)
        else
          let r := outer nd epv num vd f (maxRegs - c.vs.vstart / epv) (c.vs.vstart / epv) (c.vs.vstart % epv) c.vs.vstart c.regs s
          some ({ vs := { c.vs with vstart := 0 }, regs := r.1 }, r.2)

/-- Source 1 of a binary instruction: a vector register group, or a scalar (`shape()[0] == 1`) already converted
to the element type. -/
inductive Src (n : Nat) where
  | vec (vs : Nat)
  | scalar (v : BitVec (8 * n))

/-- `GetInstructionSource<Vs1>(inst, 1, vector_scalar ? 0 : vector_index)`. -/
def Src.get {n : Nat} (vlenb : Nat) (R : VRegs) (i : Nat) : Src n → BitVec (8 * n)
  | .vec vs => source vlenb n R vs i
  | .scalar v => v

/-- `RiscVMaskBinaryVectorOp` (riscv_vector_instruction_helpers.h:377-463) for an operation with a state. -/
def maskBinary {σ : Type} (c : VCore) (nd n2 n1 vd vs2 : Nat) (src1 : Src n1) (mask : Buf)
    (op : BitVec (8 * n2) → BitVec (8 * n1) → Bool → σ → Option (BitVec (8 * nd)) × σ) (s : σ) : Option (VCore × σ) :=
  elementwise c [nd, n2, n1] nd vd
    (fun R i s => op (source c.vs.vlenb n2 R vs2 i) (src1.get c.vs.vlenb R i) (maskBit mask i) s) s

/-- `RiscVBinaryVectorOp` (riscv_vector_instruction_helpers.h:465-479); `RiscVBinaryVectorOpWithFflags`
(:481-567) does the same, collecting the flags in the state. -/
def binary {σ : Type} (c : VCore) (nd n2 n1 vd vs2 : Nat) (src1 : Src n1) (mask : Buf)
    (op : BitVec (8 * n2) → BitVec (8 * n1) → σ → BitVec (8 * nd) × σ) (s : σ) : Option (VCore × σ) :=
  maskBinary c nd n2 n1 vd vs2 src1 mask
    (fun a b m s => if m then (some (op a b s).1, (op a b s).2) else (none, s)) s

/-- `RiscVUnaryVectorOp` (riscv_vector_instruction_helpers.h:221-286), and with flags (:288-375). -/
def unary {σ : Type} (c : VCore) (nd n2 vd vs2 : Nat) (mask : Buf)
    (op : BitVec (8 * n2) → σ → BitVec (8 * nd) × σ) (s : σ) : Option (VCore × σ) :=
  elementwise c [nd, n2] nd vd
    (fun R i s => if maskBit mask i then
      (some (op (source c.vs.vlenb n2 R vs2 i) s).1, (op (source c.vs.vlenb n2 R vs2 i) s).2) else (none, s)) s

/-- `RiscVTernaryVectorOp` (riscv_vector_instruction_helpers.h:569-647). -/
def ternary (c : VCore) (nd n2 n1 vd vs2 : Nat) (src1 : Src n1) (mask : Buf)
    (op : BitVec (8 * n2) → BitVec (8 * n1) → BitVec (8 * nd) → BitVec (8 * nd)) : Option VCore :=
  (elementwise c [nd, n2, n1] nd vd
    (fun R i (_ : Unit) => (if maskBit mask i then
      some (op (source c.vs.vlenb n2 R vs2 i) (src1.get c.vs.vlenb R i) (source c.vs.vlenb nd R vd i)) else none, ())) ()).map (·.1)

/-- `RiscVMaskNullaryVectorOp` (riscv_vector_instruction_helpers.h:153-219).  `vs2` is the mask register of
viota; vid has none.  The operation is called for every element, with the value of its mask (and source) bit.
`rs2_span` is read anew for every element. -/
def nullary {σ : Type} (c : VCore) (nd vd : Nat) (vs2 : Option Nat) (mask : Buf)
    (op : Bool → σ → BitVec (8 * nd) × σ) (s : σ) : Option (VCore × σ) :=
  elementwise c [] nd vd
    (fun R i s =>
      let m := maskBit mask i
      let o := match vs2 with | none => m | some v => m && maskBit (R v) i
      (if m then some (op o s).1 else none, (op o s).2)) s

/-- `RiscVBinaryReductionVectorOp` (riscv_vector_instruction_helpers.h:649-692).  With vstart not zero the
function calls the getter `vector_exception()`, not the setter, and returns.  `conv` is the conversion of
`vs1[0]` to the accumulator's type. -/
def reduction (c : VCore) (nd n2 n1 vd vs2 vs1 : Nat) (mask : Buf) (conv : BitVec (8 * n1) → BitVec (8 * nd))
    (op : BitVec (8 * nd) → BitVec (8 * n2) → BitVec (8 * nd)) : Option VCore :=
  if c.vs.exception then some c
  else if c.vs.vstart ≠ 0 then some c
  else if c.vs.sew = 0 then none
  else
    let lmuls := [nd, n2, n1].map fun n => c.vs.lmul8 * n / c.vs.sew
    if lmuls.any fun l => l > 64 || l == 0 then some { c with vs := { c.vs with exception := true } }
    else
      let acc := (List.range c.vs.vl).foldl
        (fun a i => if maskBit mask i then op a (source c.vs.vlenb n2 c.regs vs2 i) else a)
        (conv (source c.vs.vlenb n1 c.regs vs1 0))
      some { vs := { c.vs with vstart := 0 }, regs := fun q => if q = vd then setElem nd (c.regs vd) 0 acc else c.regs q }

end Verif.VecLoop
