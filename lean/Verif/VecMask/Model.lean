import Verif.VecLoop.Model
import Verif.VecFixed.Model
/-
Instructions whose destination is a mask register: the bitwise mask operations
(riscv/riscv_vector_opm_instructions.cc:185-274), and the loops of the compares and of the carry-out instructions
(riscv/riscv_vector_instruction_helpers.h:38-148).
-/
namespace Verif.VecMask
open Verif.VecState Verif.VecLoop

/-- The destination buffer after `BitwiseMaskBinaryOp` (riscv_vector_opm_instructions.cc:188-225).  `vstart` and `vl`
are `int`s; `(vl - 1) / 8` and `(vl - 1) % 8` truncate towards zero, so vl = 0 gives end byte 0 and end offset -1,
and the shift count 7 - (-1) = 8. -/
def bitwise (op : BitVec 8 → BitVec 8 → BitVec 8) (vstart vl : Nat) (a b d : Buf) : Buf :=
  let startByte := vstart / 8
  let startMask := 0xff#8 <<< (vstart % 8)
  let endByte := (vl - 1) / 8
  let endMask := if vl = 0 then 0#8 else 0xff#8 >>> (7 - (vl - 1) % 8)
  let d1 : Buf := fun x => if x = startByte then (op (a x) (b x) &&& startMask) ||| (d x &&& ~~~startMask) else d x
  let d2 : Buf := fun x => if startByte + 1 ≤ x ∧ x < endByte then op (a x) (b x) else d1 x
  fun x => if x = endByte then (op (a x) (b x) &&& endMask) ||| (d2 x &&& ~~~endMask) else d2 x

/-- The instruction. -/
def execBitwise (op : BitVec 8 → BitVec 8 → BitVec 8) (c : VCore) (vd vs2 vs1 : Nat) : VCore :=
  if c.vs.exception then c
  else
    { vs := { c.vs with vstart := 0 }
      regs := fun q => if q = vd then bitwise op c.vs.vstart c.vs.vl (c.regs vs2) (c.regs vs1) (c.regs vd) else c.regs q }

/-- The eight operations (riscv_vector_opm_instructions.cc:227-274). -/
inductive Op where
  | andnot | and | or | xor | ornot | nand | nor | xnor
  deriving DecidableEq

def Op.fn : Op → BitVec 8 → BitVec 8 → BitVec 8
  | .andnot, a, b => a &&& ~~~b
  | .and, a, b => a &&& b
  | .or, a, b => a ||| b
  | .xor, a, b => a ^^^ b
  | .ornot, a, b => a ||| ~~~b
  | .nand, a, b => ~~~(a &&& b)
  | .nor, a, b => ~~~(a ||| b)
  | .xnor, a, b => ~~~(a ^^^ b)

/-- `dest &= ~(1 << offset); dest |= value << offset` (riscv_vector_instruction_helpers.h:75-79). -/
def putBit (d : BitVec 8) (off : Nat) (v : Bool) : BitVec 8 :=
  (d &&& ~~~(1#8 <<< off)) ||| ((if v then 1#8 else 0#8) <<< off)

/-- The write of one element's bit, if any. -/
def putElem (d : Buf) (i : Nat) : Option Bool → Buf
  | some v => fun x => if x = i >>> 3 then putBit (d x) (i &&& 0b111) v else d x
  | none => d

/-- The loop `for (i = vstart; i < vl; i++)` of both helpers; `f i` is the bit to write, if any. -/
def bitLoop (f : Nat → Option Bool) : Nat → Nat → Buf → Buf
  | 0, _, d => d
  | k + 1, i, d => bitLoop f k (i + 1) (putElem d i (f i))

/-- `RiscVSetMaskBinaryVectorMaskOp` (riscv_vector_instruction_helpers.h:45-84): every body bit is written; the mask bit is the
carry unless the instruction is unmasked (`vmBit`, source 3). -/
def setMask {n2 n1 : Nat} (c : VCore) (vd vs2 : Nat) (src1 : Src n1) (mask : Buf) (vmBit : Bool)
    (op : BitVec (8 * n2) → BitVec (8 * n1) → Bool → Bool) : VCore :=
  if c.vs.exception then c
  else
    { vs := { c.vs with vstart := 0 }
      regs := fun q => if q = vd then
          bitLoop (fun i => some (op (source c.vs.vlenb n2 c.regs vs2 i) (src1.get c.vs.vlenb c.regs i) (!vmBit && maskBit mask i)))
            (c.vs.vl - c.vs.vstart) c.vs.vstart (c.regs vd)
        else c.regs q }

/-- `RiscVBinaryVectorMaskOp` on `RiscVMaskBinaryVectorMaskOp` (riscv_vector_instruction_helpers.h:89-148).  The compares have three
sources (riscv_vector.isa), so the mask is always used; masked-off bits are skipped. -/
def compare {n2 n1 : Nat} (c : VCore) (vd vs2 : Nat) (src1 : Src n1) (mask : Buf)
    (op : BitVec (8 * n2) → BitVec (8 * n1) → Bool) : VCore :=
  if c.vs.exception then c
  else
    { vs := { c.vs with vstart := 0 }
      regs := fun q => if q = vd then
          bitLoop (fun i =>
              let m := maskBit mask i
              if !m then none
              else some (if m then op (source c.vs.vlenb n2 c.regs vs2 i) (src1.get c.vs.vlenb c.regs i) else false))
            (c.vs.vl - c.vs.vstart) c.vs.vstart (c.regs vd)
        else c.regs q }

/-- The carry-out operation of `Vmadc` and `Vmsbc` for an element of `n` bytes. -/
def carryOut (n : Nat) (a b : BitVec (8 * n)) (m : Bool) : Bool :=
  if h : n = 8 then VecFixed.vmadc64 (a.cast (by omega)) (b.cast (by omega)) m else VecFixed.vmadc a b m
def borrowOut (n : Nat) (a b : BitVec (8 * n)) (m : Bool) : Bool :=
  if h : n = 8 then VecFixed.vmsbc64 (a.cast (by omega)) (b.cast (by omega)) m else VecFixed.vmsbc a b m

end Verif.VecMask
