import Verif.VecLoop.Model
import Verif.Mem.Model
/-
Vector loads and stores (riscv/riscv_vector_memory_instructions.cc).

Loads are two instructions: the first computes addresses and masks and starts the memory access; its child writes the
data back.  With zero latency the child runs inside the access, so one function models both.  Data buffers that
`Allocate` returns hold arbitrary contents (`junk`).  `none` is undefined behaviour: division by zero, overflow of a
signed multiplication, a buffer of negative size.
-/
namespace Verif.VecMem
open Verif.Core Verif.Mem Verif.VecState Verif.VecLoop

variable {w : Nat}

/-- The state vector memory instructions work on. -/
structure MCore (w : Nat) where
  core : Core w
  v : VCore

def clearVstart (v : VCore) : VCore := { v with vs := { v.vs with vstart := 0 } }
def setException (v : VCore) : VCore := { v with vs := { v.vs with exception := true } }

/-- An element is written if there is a value for it. -/
def put (n : Nat) (o : Option (BitVec (8 * n))) (b : Buf) (i : Nat) : Buf :=
  match o with
  | some v => setElem n b i v
  | none => b

/-- Inner loop of `WriteBackLoadData` (riscv_vector_memory_instructions.cc:77-81): `for (i = item_index; i < count; i++)`;
`k` is the number of iterations.  `vals j` is `values[j]` when `masks[j]` is set. -/
def wbInner (n : Nat) (vals : Nat → Option (BitVec (8 * n))) (idx : Nat) : Nat → Nat → Buf → Buf
  | 0, _, b => b
  | k + 1, i, b => wbInner n vals idx k (i + 1) (put n (vals (idx + i)) b i)

/-- Outer loop (riscv_vector_memory_instructions.cc:70-86). -/
def wbOuter (n epv vd : Nat) (vals : Nat → Option (BitVec (8 * n))) : Nat → Nat → Nat → Nat → Nat → VRegs → VRegs
  | 0, _, _, _, _, R => R
  | k + 1, reg, item, cnt, idx, R =>
    if cnt > 0 then
      let count := min (epv - item) cnt
      let b := wbInner n vals idx (count - item) item (R (vd + reg))
      wbOuter n epv vd vals k (reg + 1) 0 (cnt - count) (idx + count) (fun q => if q = vd + reg then b else R q)
    else R

/-- `WriteBackLoadData` under `VlChild` (riscv_vector_memory_instructions.cc:37-88, 676-701): `start` and `num` from the
context, `maskSize` the size of the mask buffer.  Failures set the vector exception. -/
def writeBack (v : VCore) (n vd start num maskSize : Nat) (vals : Nat → Option (BitVec (8 * n))) : Option VCore :=
  let epv := v.vs.vlenb / n
  if epv = 0 then none
  else
    let maxRegs := (num + epv - 1) / epv
    if groupSize vd < maxRegs then some (setException v)
    else if (num : Int) - start ≠ maskSize then some (setException v)
    else some { v with regs := wbOuter n epv vd vals (maxRegs - start / epv) (start / epv) (start % epv) maskSize 0 v.regs }

/-- The elements of an access, for element indices `start` to `num - 1`. -/
def elems (start num : Nat) (addr : Nat → BitVec 64) (active : Nat → Bool) (data : Nat → Nat) : List Elem :=
  (List.range (num - start)).map fun j => { addr := addr (start + j), active := active (start + j), data := data (start + j) }

/-- The common part of the non-segment loads: access, write back, clear vstart. -/
def loadGroup (c : MCore w) (n vd start num maskSize : Nat) (addr : Nat → BitVec 64) (active : Nat → Bool)
    (epc : BitVec 64) (handled : Bool) : Option (MCore w) :=
  if num < start then none
  else
    match loadV c.core (elems start num addr active fun _ => 0) n epc handled with
    | .trapped core' => some { core := core', v := clearVstart c.v }
    | .value vs =>
      (writeBack c.v n vd start num maskSize fun j => (vs.getD j none).map (BitVec.ofNat (8 * n))).map
        fun v => { c with v := clearVstart v }

/-- `base + i * stride`, the product in `int64_t`; overflow is undefined. -/
def strideAddr (base stride : BitVec 64) (i : Nat) : BitVec 64 := base + BitVec.ofInt 64 (i * stride.toInt)
def strideOverflows (stride : BitVec 64) (start num : Nat) : Bool :=
  (List.range num).any fun i => decide (start ≤ i) && !(decide (-2 ^ 63 ≤ i * stride.toInt) && decide (i * stride.toInt < 2 ^ 63))

/-- `VlStrided` (riscv_vector_memory_instructions.cc:216-273), unit-stride (stride = element size) and strided loads.  A bad EMUL
only logs. -/
def vlStrided (c : MCore w) (n vd : Nat) (base stride : BitVec 64) (mask : Buf) (epc : BitVec 64) (handled : Bool) : Option (MCore w) :=
  if c.v.vs.sew = 0 then none
  else
    let emul := n * c.v.vs.lmul8 / c.v.vs.sew
    if emul > 64 ∨ emul = 0 then some c
    else if strideOverflows stride c.v.vs.vstart c.v.vs.vl then none
    else loadGroup c n vd c.v.vs.vstart c.v.vs.vl (c.v.vs.vl - c.v.vs.vstart) (strideAddr base stride) (maskBit mask) epc handled

/-- `VlIndexed` (riscv_vector_memory_instructions.cc:335-411).  The mask buffer has `vl` entries whatever vstart is. -/
def vlIndexed (c : MCore w) (ni vd vidx : Nat) (base : BitVec 64) (mask : Buf) (epc : BitVec 64) (handled : Bool) : Option (MCore w) :=
  if c.v.vs.sew = 0 then none
  else
    let emul := ni * c.v.vs.lmul8 / c.v.vs.sew
    if emul > 64 ∨ emul = 0 then some { c with v := setException c.v }
    else loadGroup c c.v.vs.sew vd c.v.vs.vstart c.v.vs.vl c.v.vs.vl
      (fun i => base + (source c.v.vs.vlenb ni c.v.regs vidx i).setWidth 64) (maskBit mask) epc handled

/-- `VlRegister` (riscv_vector_memory_instructions.cc:421-460): whole registers, `n` bytes at a time. -/
def vlRegister (c : MCore w) (numRegs n vd : Nat) (base : BitVec 64) (epc : BitVec 64) (handled : Bool) : Option (MCore w) :=
  if n = 0 then none
  else
    let num := c.v.vs.vlenb * numRegs / n
    loadGroup c n vd 0 num num (fun i => base + BitVec.ofNat 64 (i * n)) (fun _ => true) epc handled

/-- `Vlm` (riscv_vector_memory_instructions.cc:278-321). -/
def vlm (c : MCore w) (vd : Nat) (base : BitVec 64) (epc : BitVec 64) (handled : Bool) : Option (MCore w) :=
  let num := (c.v.vs.vl + 7) / 8
  if c.v.vs.vlenb ≤ c.v.vs.vstart ∨ num ≤ c.v.vs.vstart then some { c with v := clearVstart c.v }
  else loadGroup c 1 vd c.v.vs.vstart num (num - c.v.vs.vstart) (fun i => base + BitVec.ofNat 64 i) (fun _ => true) epc handled

/-- The store itself and clearing vstart. -/
def storeElems (c : MCore w) (n : Nat) (es : List Elem) (epc : BitVec 64) (handled : Bool) : MCore w :=
  { core := storeV c.core es n epc handled, v := clearVstart c.v }

/-- `VsStrided` with `StoreVectorStrided` (riscv_vector_memory_instructions.cc:734-806).  The buffers have `vl` entries; the
loop fills the first `vl - vstart`. -/
def vsStrided (c : MCore w) (n vs3 : Nat) (base stride : BitVec 64) (mask : Buf) (junk : Nat → Elem) (epc : BitVec 64)
    (handled : Bool) : Option (MCore w) :=
  if c.v.vs.sew = 0 then none
  else
    let emul := n * c.v.vs.lmul8 / c.v.vs.sew
    if emul > 64 ∨ emul = 0 then some { c with v := setException c.v }
    else if strideOverflows stride c.v.vs.vstart c.v.vs.vl then none
    else
      let start := c.v.vs.vstart
      let es := (List.range c.v.vs.vl).map fun j =>
        if start + j < c.v.vs.vl then
          { addr := strideAddr base stride (start + j), active := maskBit mask (start + j), data := (source c.v.vs.vlenb n c.v.regs vs3 (start + j)).toNat }
        else junk j
      some (storeElems c n es epc handled)

/-- `VsIndexed` (riscv_vector_memory_instructions.cc:863-949).  `num_elements` is `vl - vstart`, but the loop runs from vstart to
it, and the data is stored at index `i`, not `i - start`. -/
def vsIndexed (c : MCore w) (ni vs3 vidx : Nat) (base : BitVec 64) (mask : Buf) (junk : Nat → Elem) (epc : BitVec 64)
    (handled : Bool) : Option (MCore w) :=
  if c.v.vs.sew = 0 then none
  else
    let emul := ni * c.v.vs.lmul8 / c.v.vs.sew
    if emul > 64 ∨ emul = 0 then some { c with v := setException c.v }
    else if c.v.vs.vl < c.v.vs.vstart then none
    else
      let start := c.v.vs.vstart
      let num := c.v.vs.vl - start
      let n := c.v.vs.sew
      let es := (List.range num).map fun j =>
        { addr := if start + j < num then base + (source c.v.vs.vlenb ni c.v.regs vidx (start + j)).setWidth 64 else (junk j).addr
          active := if start + j < num then maskBit mask (start + j) else (junk j).active
          data := if start ≤ j then (source c.v.vs.vlenb n c.v.regs vs3 j).toNat else (junk j).data }
      some (storeElems c n es epc handled)

/-- `VsRegister` (riscv_vector_memory_instructions.cc:951-976): whole registers, 8 bytes at a time. -/
def vsRegister (c : MCore w) (numRegs vs3 : Nat) (base : BitVec 64) (epc : BitVec 64) (handled : Bool) : MCore w :=
  storeElems c 8 (elems 0 (c.v.vs.vlenb * numRegs / 8) (fun i => base + BitVec.ofNat 64 (i * 8)) (fun _ => true)
    (fun i => (source c.v.vs.vlenb 8 c.v.regs vs3 i).toNat)) epc handled

/-- `Vsm` (riscv_vector_memory_instructions.cc:811-850). -/
def vsm (c : MCore w) (vs3 : Nat) (base : BitVec 64) (epc : BitVec 64) (handled : Bool) : MCore w :=
  let num := (c.v.vs.vl + 7) / 8
  if c.v.vs.vlenb ≤ c.v.vs.vstart ∨ num ≤ c.v.vs.vstart then { c with v := clearVstart c.v }
  else storeElems c 1 (elems c.v.vs.vstart num (fun i => base + BitVec.ofNat 64 i) (fun _ => true)
    (fun i => (source c.v.vs.vlenb 1 c.v.regs vs3 i).toNat)) epc handled

/-! ### Segment loads -/

/-- Inner loop of `WriteBackSegmentLoadData` (riscv_vector_memory_instructions.cc:137-143): `k` iterations from `i`, consuming
`vals` from `idx`. -/
def segInner (n : Nat) (vals : Nat → Option (BitVec (8 * n))) : Nat → Nat → Nat → Buf → Buf
  | 0, _, _, b => b
  | k + 1, i, idx, b => segInner n vals k (i + 1) (idx + 1) (put n (vals idx) b i)

/-- The registers of one field (riscv_vector_memory_instructions.cc:132-146): registers left, register, offset, remaining data and
load index; returns the registers and the load index. -/
def segField (n epv vd : Nat) (vals : Nat → Option (BitVec (8 * n))) : Nat → Nat → Nat → Nat → Nat → VRegs → VRegs × Nat
  | 0, _, _, _, idx, R => (R, idx)
  | k + 1, reg, off, rem, idx, R =>
    let cnt := min (rem + off) epv - off
    let b := segInner n vals cnt off idx (R (vd + reg))
    segField n epv vd vals k (reg + 1) 0 (rem - cnt) (idx + cnt) (fun q => if q = vd + reg then b else R q)

/-- The loop over fields (riscv_vector_memory_instructions.cc:127-147). -/
def segFields (n epv vd numRegs start segs : Nat) (vals : Nat → Option (BitVec (8 * n))) : Nat → Nat → Nat → VRegs → VRegs
  | 0, _, _, R => R
  | k + 1, field, idx, R =>
    let r := segField n epv vd vals numRegs (field * numRegs + start / epv) (start % epv) segs idx R
    segFields n epv vd numRegs start segs vals k (field + 1) r.2 r.1

/-- `WriteBackSegmentLoadData` under `VlSegmentChild` (riscv_vector_memory_instructions.cc:92-150, 706-732); `start`, `num` from the
context, `segs` = size of the mask buffer divided by the number of fields. -/
def segWriteBack (v : VCore) (n vd nf start num segs : Nat) (vals : Nat → Option (BitVec (8 * n))) : Option VCore :=
  if v.vs.vlenb = 0 then none
  else
    let epv := min (v.vs.vlenb / n) segs
    let numRegs := max 1 (segs * n / v.vs.vlenb)
    if groupSize vd < nf * numRegs then some (setException v)
    else if (num : Int) - start ≠ segs then some (setException v)
    else if epv = 0 then none
    else some { v with regs := segFields n epv vd numRegs start segs vals nf 0 0 v.regs }

/-- The segment loads `VlSegment`, `VlSegmentStrided` and `VlSegmentIndexed` (riscv_vector_memory_instructions.cc:471-670) for vstart = 0:
`addr i f` is the address of field `f` of segment `i`; the buffers are organised by field.  With vstart = 0 every entry is filled. -/
def segLoad (c : MCore w) (n vd nf : Nat) (addr : Nat → Nat → BitVec 64) (active : Nat → Bool) (epc : BitVec 64) (handled : Bool) :
    Option (MCore w) :=
  let vl := c.v.vs.vl
  let es : List Elem := (List.range (nf * vl)).map fun j => { addr := addr (j % vl) (j / vl), active := active (j % vl), data := 0 }
  match loadV c.core es n epc handled with
  | .trapped core' => some { core := core', v := clearVstart c.v }
  | .value vs =>
    (segWriteBack c.v n vd nf 0 vl vl fun j => (vs.getD j none).map (BitVec.ofNat (8 * n))).map fun v => { c with v := clearVstart v }

/-- `VlSegment` (riscv_vector_memory_instructions.cc:471-519) with vstart = 0. -/
def vlSegment (c : MCore w) (n vd nf : Nat) (base : BitVec 64) (mask : Buf) (epc : BitVec 64) (handled : Bool) : Option (MCore w) :=
  if c.v.vs.sew = 0 then none
  else if n * c.v.vs.lmul8 / c.v.vs.sew * nf > 64 then some { c with v := setException c.v }
  else segLoad c n vd nf (fun i f => base + BitVec.ofNat 64 (i * (nf * n) + f * n)) (maskBit mask) epc handled

/-- `VlSegmentStrided` (riscv_vector_memory_instructions.cc:529-579) with vstart = 0. -/
def vlSegmentStrided (c : MCore w) (n vd nf : Nat) (base stride : BitVec 64) (mask : Buf) (epc : BitVec 64) (handled : Bool) : Option (MCore w) :=
  if c.v.vs.sew = 0 then none
  else if n * c.v.vs.lmul8 / c.v.vs.sew * nf > 64 then some { c with v := setException c.v }
  else if strideOverflows stride 0 c.v.vs.vl then none
  else segLoad c n vd nf (fun i f => strideAddr base stride i + BitVec.ofNat 64 (f * n)) (maskBit mask) epc handled

/-- `VlSegmentIndexed` (riscv_vector_memory_instructions.cc:588-670) with vstart = 0. -/
def vlSegmentIndexed (c : MCore w) (ni vd nf vidx : Nat) (base : BitVec 64) (mask : Buf) (epc : BitVec 64) (handled : Bool) : Option (MCore w) :=
  if c.v.vs.sew = 0 then none
  else
    let emul := ni * c.v.vs.lmul8 / c.v.vs.sew
    if c.v.vs.lmul8 * nf > 64 ∨ emul > 64 ∨ emul = 0 then some { c with v := setException c.v }
    else segLoad c c.v.vs.sew vd nf
      (fun i f => base + (source c.v.vs.vlenb ni c.v.regs vidx i).setWidth 64 + BitVec.ofNat 64 (f * c.v.vs.sew)) (maskBit mask) epc handled

/-! ### Segment stores -/

/-- The segment stores with vstart = 0 (riscv_vector_memory_instructions.cc:1006-1064, 1098-1160, 1205-1281): element `count` is
field `count % nf` of segment `count / nf`.  `data_op->GetRegister` past the end of the operand is undefined; it is called for active
segments only. -/
def segStore (c : MCore w) (n vs3 nf regMul : Nat) (addr : Nat → Nat → BitVec 64) (active : Nat → Bool) (epc : BitVec 64) (handled : Bool) :
    Option (MCore w) :=
  let vl := c.v.vs.vl
  let epr := c.v.vs.vlenb / n
  if vl > 0 ∧ epr = 0 then none
  else if (List.range (vl * nf)).any fun j => active (j / nf) && decide (groupSize vs3 ≤ j % nf * regMul + j / nf / epr) then none
  else
    some (storeElems c n ((List.range (vl * nf)).map fun j =>
      { addr := addr (j / nf) (j % nf), active := active (j / nf)
        data := (getElem n (c.v.regs (vs3 + (j % nf * regMul + j / nf / epr))) (j / nf % epr)).toNat }) epc handled)

/-- `VsSegment` (riscv_vector_memory_instructions.cc:980-1067) with vstart = 0. -/
def vsSegment (c : MCore w) (n vs3 nf : Nat) (base : BitVec 64) (mask : Buf) (epc : BitVec 64) (handled : Bool) : Option (MCore w) :=
  if c.v.vs.sew = 0 then none
  else
    let emul := n * c.v.vs.lmul8 / c.v.vs.sew
    if emul * nf > 64 then some { c with v := setException c.v }
    else segStore c n vs3 nf (max 1 (emul / 8)) (fun i f => base + BitVec.ofNat 64 ((i * nf + f) * n)) (maskBit mask) epc handled

/-- `VsSegmentStrided` (riscv_vector_memory_instructions.cc:1071-1161) with vstart = 0.  The stride is added once per segment, in 64 bits. -/
def vsSegmentStrided (c : MCore w) (n vs3 nf : Nat) (base stride : BitVec 64) (mask : Buf) (epc : BitVec 64) (handled : Bool) : Option (MCore w) :=
  if c.v.vs.sew = 0 then none
  else
    let emul := n * c.v.vs.lmul8 / c.v.vs.sew
    if emul * nf > 64 then some { c with v := setException c.v }
    else segStore c n vs3 nf (max 1 (emul / 8)) (fun i f => base + BitVec.ofNat 64 i * stride + BitVec.ofNat 64 (f * n)) (maskBit mask) epc handled

/-- `VsSegmentIndexed` (riscv_vector_memory_instructions.cc:1166-1284) with vstart = 0.  The index is sign-extended. -/
def vsSegmentIndexed (c : MCore w) (ni vs3 nf vidx : Nat) (base : BitVec 64) (mask : Buf) (epc : BitVec 64) (handled : Bool) : Option (MCore w) :=
  if c.v.vs.sew = 0 then none
  else
    let emul := ni * c.v.vs.lmul8 / c.v.vs.sew
    if c.v.vs.lmul8 * nf > 64 ∨ emul > 64 ∨ emul = 0 then some { c with v := setException c.v }
    else segStore c c.v.vs.sew vs3 nf (max 1 (c.v.vs.lmul8 / 8))
      (fun i f => base + (source c.v.vs.vlenb ni c.v.regs vidx i).signExtend 64 + BitVec.ofNat 64 (f * c.v.vs.sew)) (maskBit mask) epc handled

end Verif.VecMem
