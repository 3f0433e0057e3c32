import Verif.VecLoop.Model
/-
The element-wise integer instructions: riscv/riscv_vector_opi_instructions.cc:46-511, 1097-1130 (add, subtract, logic,
shifts, minimum, maximum, merge), riscv/riscv_vector_opm_instructions.cc:278-1297 (division, multiplication,
multiply-add, widening) and riscv/riscv_vector_unary_instructions.cc:179-291 (extension).  The loops are those of
`VecLoop`.
-/
namespace Verif.VecInt
open Verif.VecState Verif.VecLoop

def refuse (c : VCore) : VCore := { c with vs := { c.vs with exception := true } }

/-- Operand 1: a vector register, an `x` register of XLEN = `xlen` bits, or one of the two immediates, which are
`ImmediateOperand<int32_t>` (riscv_getters_vector.h:155-165). -/
inductive Src1 (xlen : Nat) where
  | vec (vs : Nat)
  | x (v : BitVec xlen)
  | simm (i : BitVec 5)
  | uimm (i : BitVec 5)

/-- The operand in an element type of `n` bytes: `GetInstructionSource<T>(inst, 1, 0)` extends the register without a sign
if `T` is unsigned. -/
def Src1.to {xlen : Nat} (signed : Bool) (n : Nat) : Src1 xlen → Src n
  | .vec v => .vec v
  | .x v => .scalar (if signed then v.signExtend _ else v.setWidth _)
  | .simm i => .scalar ((i.signExtend 32).signExtend _)
  | .uimm i => .scalar ((i.setWidth 32).signExtend _)

/-- The literals `0b111`, `0b1111`, `0b1'1111`, `0b11'1111` for operands of 1, 2, 4, 8 bytes. -/
def shiftMask : Nat → Nat
  | 1 => 0b111
  | 2 => 0b1111
  | 4 => 0b11111
  | _ => 0b111111

/-! ### Operands and result of the same width -/

inductive Same where
  | add | sub | rsub | and | or | xor | sll | srl | sra | minu | min | maxu | max
  | divu | div | remu | rem | mulhu | mul | mulhsu | mulh
  deriving DecidableEq

/-- The operation: `Vadd` (riscv_vector_opi_instructions.cc:46-71), `Vsub` (74-99), `Vrsub` (102-127), `Vand` (132-157), `Vor`
(160-185), `Vxor` (188-213), `Vsll` (218-247), `Vsrl` (250-279), `Vsra` (282-311), `Vminu` (387-416), `Vmin` (419-447),
`Vmaxu` (450-479), `Vmax` (482-510), `Vdivu` (riscv_vector_opm_instructions.cc:280-313), `Vdiv` (317-362), `Vremu` (365-398), `Vrem`
(401-433), `VmulHighHelper` (437-446), `Vmul` (482-518), `VmulHighSUHelper` (520-532).  `a` is vs2, `b` vs1. -/
def Same.fn (n : Nat) (o : Same) (a b : BitVec (8 * n)) : BitVec (8 * n) :=
  match o with
  | .add => a + b
  | .sub => a - b
  | .rsub => b - a
  | .and => a &&& b
  | .or => a ||| b
  | .xor => a ^^^ b
  | .sll => a <<< (b &&& BitVec.ofNat _ (shiftMask n)).toNat
  | .srl => a >>> (b &&& BitVec.ofNat _ (shiftMask n)).toNat
  | .sra => a.sshiftRight (b &&& BitVec.ofNat _ (shiftMask n)).toNat
  | .minu => if b < a then b else a
  | .min => if b.slt a then b else a
  | .maxu => if a < b then b else a
  | .max => if a.slt b then b else a
  | .divu => if b = 0#_ then ~~~b else a / b
  | .div => if b = 0#_ then BitVec.allOnes _ else if b = BitVec.allOnes _ ∧ a = BitVec.intMin _ then BitVec.intMin _ else a.sdiv b
  | .remu => if b = 0#_ then a else a % b
  | .rem => if b = 0#_ then a else a.srem b
  | .mulhu => ((a.setWidth (2 * (8 * n)) * b.setWidth (2 * (8 * n))) >>> (8 * n)).setWidth _
  | .mul => a * b
  | .mulhsu => ((a.signExtend (2 * (8 * n)) * b.setWidth (2 * (8 * n))).sshiftRight (8 * n)).setWidth _
  | .mulh => ((a.signExtend (2 * (8 * n)) * b.signExtend (2 * (8 * n))).sshiftRight (8 * n)).setWidth _

/-- The operation is undefined: `vs2 % vs1` in `int` or a longer type overflows (riscv_vector_opm_instructions.cc:420,426); 8- and
16-bit operands are promoted to `int`. -/
def Same.undef (n : Nat) (o : Same) (a b : BitVec (8 * n)) : Bool :=
  o = .rem && (4 ≤ n && (a = BitVec.intMin _ && b = BitVec.allOnes _))

/-- The element type of vs1 is signed. -/
def Same.signed1 (n : Nat) : Same → Bool
  | .sra | .min | .max | .div | .rem | .mulh => true
  | .mul => n = 8
  | _ => false

def same {xlen : Nat} (o : Same) (c : VCore) (vd vs2 : Nat) (s1 : Src1 xlen) (vm : Bool) : Option VCore :=
  if c.vs.sew = 1 ∨ c.vs.sew = 2 ∨ c.vs.sew = 4 ∨ c.vs.sew = 8 then
    match binary c c.vs.sew c.vs.sew c.vs.sew vd vs2 (s1.to (o.signed1 c.vs.sew) c.vs.sew) (maskOf c.regs vm)
        (fun a b (u : Bool) => (o.fn c.vs.sew a b, u || o.undef c.vs.sew a b)) false with
    | some (c', false) => some c'
    | _ => none
  else some (refuse c)

/-! ### Narrowing shifts -/

inductive Narrow where
  | nsrl | nsra
  deriving DecidableEq

/-- `Vnsrl`, `Vnsra` (riscv_vector_opi_instructions.cc:317-384). -/
def Narrow.fn (n : Nat) (o : Narrow) (a : BitVec (8 * (2 * n))) (b : BitVec (8 * n)) : BitVec (8 * n) :=
  match o with
  | .nsrl => (a >>> (b &&& BitVec.ofNat _ (shiftMask (2 * n))).toNat).setWidth _
  | .nsra => (a.sshiftRight (b &&& BitVec.ofNat _ (shiftMask (2 * n))).toNat).setWidth _

def narrow {xlen : Nat} (o : Narrow) (c : VCore) (vd vs2 : Nat) (s1 : Src1 xlen) (vm : Bool) : Option VCore :=
  if 32 < c.vs.lmul8 then some (refuse c)
  else if c.vs.sew = 1 ∨ c.vs.sew = 2 ∨ c.vs.sew = 4 then
    (binary c c.vs.sew (2 * c.vs.sew) c.vs.sew vd vs2 (s1.to (o = .nsra) c.vs.sew) (maskOf c.regs vm)
      (fun a b (_ : Unit) => (o.fn c.vs.sew a b, ())) ()).map (·.1)
  else some (refuse c)

/-! ### Widening -/

inductive Wide where
  | waddu | wsubu | wadd | wsub | wmulu | wmulsu | wmul
  deriving DecidableEq

/-- `Vwaddu` (riscv_vector_opm_instructions.cc:752-776), `Vwsubu` (779-803), `Vwadd` (806-843), `Vwsub` (846-882), `VwmulHelper`
(1021-1028), `VwmulSuHelper` (1064-1075). -/
def Wide.fn (n : Nat) (o : Wide) (a b : BitVec (8 * n)) : BitVec (8 * (2 * n)) :=
  match o with
  | .waddu => a.setWidth _ + b.setWidth _
  | .wsubu => a.setWidth _ - b.setWidth _
  | .wadd => a.signExtend _ + b.signExtend _
  | .wsub => a.signExtend _ - b.signExtend _
  | .wmulu => a.setWidth _ * b.setWidth _
  | .wmulsu => a.signExtend _ * b.setWidth _
  | .wmul => a.signExtend _ * b.signExtend _

/-- The test of the multiplier, missing in `Vwaddu` and `Vwsubu`. -/
def Wide.tested : Wide → Bool
  | .waddu | .wsubu => false
  | _ => true

def Wide.signed1 : Wide → Bool
  | .wadd | .wsub | .wmul => true
  | _ => false

def wide {xlen : Nat} (o : Wide) (c : VCore) (vd vs2 : Nat) (s1 : Src1 xlen) (vm : Bool) : Option VCore :=
  if o.tested && 32 < c.vs.lmul8 then some (refuse c)
  else if c.vs.sew = 1 ∨ c.vs.sew = 2 ∨ c.vs.sew = 4 then
    (binary c (2 * c.vs.sew) c.vs.sew c.vs.sew vd vs2 (s1.to o.signed1 c.vs.sew) (maskOf c.regs vm)
      (fun a b (_ : Unit) => (o.fn c.vs.sew a b, ())) ()).map (·.1)
  else some (refuse c)

inductive WideW where
  | wadduw | wsubuw | waddw | wsubw
  deriving DecidableEq

/-- `Vwadduw`, `Vwsubuw`, `Vwaddw`, `Vwsubw` (riscv_vector_opm_instructions.cc:885-1018). -/
def WideW.fn (n : Nat) (o : WideW) (a : BitVec (8 * (2 * n))) (b : BitVec (8 * n)) : BitVec (8 * (2 * n)) :=
  match o with
  | .wadduw => a + b.setWidth _
  | .wsubuw => a - b.setWidth _
  | .waddw => a + b.signExtend _
  | .wsubw => a - b.signExtend _

def wideW {xlen : Nat} (o : WideW) (c : VCore) (vd vs2 : Nat) (s1 : Src1 xlen) (vm : Bool) : Option VCore :=
  if 32 < c.vs.lmul8 then some (refuse c)
  else if c.vs.sew = 1 ∨ c.vs.sew = 2 ∨ c.vs.sew = 4 then
    (binary c (2 * c.vs.sew) (2 * c.vs.sew) c.vs.sew vd vs2 (s1.to (o = .waddw || o = .wsubw) c.vs.sew) (maskOf c.regs vm)
      (fun a b (_ : Unit) => (o.fn c.vs.sew a b, ())) ()).map (·.1)
  else some (refuse c)

/-! ### Multiply-add -/

inductive Mac where
  | madd | nmsub | macc | nmsac
  deriving DecidableEq

/-- `Vmadd`, `Vnmsub`, `Vmacc`, `Vnmsac` (riscv_vector_opm_instructions.cc:599-749). -/
def Mac.fn {w : Nat} (o : Mac) (a b d : BitVec w) : BitVec w :=
  match o with
  | .madd => b * d + a
  | .nmsub => -(b * d) + a
  | .macc => b * a + d
  | .nmsac => -(b * a) + d

def mac {xlen : Nat} (o : Mac) (c : VCore) (vd vs2 : Nat) (s1 : Src1 xlen) (vm : Bool) : Option VCore :=
  if c.vs.sew = 1 ∨ c.vs.sew = 2 ∨ c.vs.sew = 4 ∨ c.vs.sew = 8 then
    ternary c c.vs.sew c.vs.sew c.vs.sew vd vs2 (s1.to false c.vs.sew) (maskOf c.regs vm) o.fn
  else some (refuse c)

inductive WMac where
  | wmaccu | wmacc | wmaccus | wmaccsu
  deriving DecidableEq

/-- `VwmaccHelper` with the types of `Vwmaccu`, `Vwmacc`, `Vwmaccus`, `Vwmaccsu` (riscv_vector_opm_instructions.cc:1144-1297). -/
def WMac.fn (n : Nat) (o : WMac) (a b : BitVec (8 * n)) (d : BitVec (8 * (2 * n))) : BitVec (8 * (2 * n)) :=
  match o with
  | .wmaccu => a.setWidth _ * b.setWidth _ + d
  | .wmacc => a.signExtend _ * b.signExtend _ + d
  | .wmaccus => a.signExtend _ * b.setWidth _ + d
  | .wmaccsu => a.setWidth _ * b.signExtend _ + d

def wmac {xlen : Nat} (o : WMac) (c : VCore) (vd vs2 : Nat) (s1 : Src1 xlen) (vm : Bool) : Option VCore :=
  if 32 < c.vs.lmul8 then some (refuse c)
  else if c.vs.sew = 1 ∨ c.vs.sew = 2 ∨ c.vs.sew = 4 then
    ternary c (2 * c.vs.sew) c.vs.sew c.vs.sew vd vs2 (s1.to (o = .wmacc || o = .wmaccsu) c.vs.sew) (maskOf c.regs vm)
      (o.fn c.vs.sew)
  else some (refuse c)

/-! ### Extension and merge -/

/-- `Vzext2` … `Vsext8` (riscv_vector_unary_instructions.cc:179-291): the source elements have a `k`-th of the width. -/
def ext (signed : Bool) (k : Nat) (c : VCore) (vd vs2 : Nat) (vm : Bool) : Option VCore :=
  if (c.vs.sew = 2 ∨ c.vs.sew = 4 ∨ c.vs.sew = 8) ∧ k ≤ c.vs.sew then
    (unary c c.vs.sew (c.vs.sew / k) vd vs2 (maskOf c.regs vm)
      (fun a (_ : Unit) => (if signed then a.signExtend _ else a.setWidth _, ())) ()).map (·.1)
  else some (refuse c)

/-- `Vmerge` (riscv_vector_opi_instructions.cc:1098-1130), for vmerge and, with every mask bit set, vmv.v. -/
def merge {xlen : Nat} (c : VCore) (vd vs2 : Nat) (s1 : Src1 xlen) (vm : Bool) : Option VCore :=
  if c.vs.sew = 1 ∨ c.vs.sew = 2 ∨ c.vs.sew = 4 ∨ c.vs.sew = 8 then
    (maskBinary c c.vs.sew c.vs.sew c.vs.sew vd vs2 (s1.to false c.vs.sew) (maskOf c.regs vm)
      (fun a b m (_ : Unit) => (some (if m then b else a), ())) ()).map (·.1)
  else some (refuse c)

end Verif.VecInt
