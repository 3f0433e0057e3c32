import Verif.VecInt.Model
import Verif.Bitmanip.Model
/-
The Zvkb and Zvbb instructions: riscv/riscv_vector_basic_bit_manipulation_instructions.cc.  The loops are those of
`VecLoop`, the library functions those of `Bitmanip`.
-/
namespace Verif.VecBits
open Verif.VecState Verif.VecLoop Verif.VecInt Verif.Bitmanip

/-- `BitReverse` (41-50); the state is (input, result). -/
def revLoop {w : Nat} (a : BitVec w) (n : Nat) : BitVec w × BitVec w :=
  loop (fun _ s => (s.1 >>> 1, (s.2 <<< 1) ||| (s.1 &&& 1#w))) 0 n (a, 0#w)
def bitReverse {w : Nat} (a : BitVec w) : BitVec w := (revLoop a w).2

/-- `ByteSwap` (52-60). -/
def swapLoop {w : Nat} (a : BitVec w) (size n : Nat) : BitVec w :=
  loop (fun i r => r ||| (((a >>> (i * 8)) &&& 0xff#w) <<< ((size - 1 - i) * 8))) 0 n 0#w
def byteSwap (n : Nat) (a : BitVec (8 * n)) : BitVec (8 * n) := swapLoop a n n

/-- The loop over the bytes of the element in `Vbrev8` (100-107): byte `i` is replaced by its reversal. -/
def brev8Loop {w : Nat} (a : BitVec w) (n : Nat) : BitVec w :=
  loop (fun i r => (r &&& ~~~(0xff#w <<< (8 * i))) ||| ((bitReverse (r.extractLsb' (8 * i) 8)).setWidth w <<< (8 * i))) 0 n a

inductive Un where
  | brev8 | rev8 | brev | clz | ctz | cpop
  deriving DecidableEq

/-- `Vbrev8` (89-131), `Vrev8` (133-158), `Vbrev` (230-255), `Vclz` (257-282), `Vctz` (284-309), `VectorVcpop` (311-336). -/
def Un.fn (n : Nat) (o : Un) (a : BitVec (8 * n)) : BitVec (8 * n) :=
  match o with
  | .brev8 => if n = 1 then bitReverse a else brev8Loop a n
  | .rev8 => if n = 1 then a else byteSwap n a
  | .brev => bitReverse a
  | .clz => BitVec.ofNat _ (countlZero a)
  | .ctz => BitVec.ofNat _ (countrZero a)
  | .cpop => BitVec.ofNat _ (popcount a)

def un (o : Un) (c : VCore) (vd vs2 : Nat) (vm : Bool) : Option VCore :=
  if c.vs.sew = 1 ∨ c.vs.sew = 2 ∨ c.vs.sew = 4 ∨ c.vs.sew = 8 then
    (unary c c.vs.sew c.vs.sew vd vs2 (maskOf c.regs vm) (fun a (_ : Unit) => (o.fn c.vs.sew a, ())) ()).map (·.1)
  else some (refuse c)

/-- Operand 1: as in `VecInt`, or the 6-bit immediate of vror.vi, an `ImmediateOperand<int32_t>`
(riscv_getters_zvbb.h:81-84). -/
inductive Src (xlen : Nat) where
  | of (s : Src1 xlen)
  | uimm6 (i : BitVec 6)

def Src.to {xlen : Nat} (n : Nat) : Src xlen → VecLoop.Src n
  | .of s => s.to false n
  | .uimm6 i => .scalar ((i.setWidth 32).signExtend _)

inductive Bin where
  | andn | rol | ror
  deriving DecidableEq

/-- `Vandn` (63-87), `Vrol` (160-192), `Vror` (194-226): the amount, a `uint8_t`, is masked before the library call. -/
def Bin.fn (n : Nat) (o : Bin) (a b : BitVec (8 * n)) : BitVec (8 * n) :=
  match o with
  | .andn => a &&& ~~~b
  | .rol => rotl a ((b &&& BitVec.ofNat _ (shiftMask n)).setWidth 8).toNat
  | .ror => rotr a ((b &&& BitVec.ofNat _ (shiftMask n)).setWidth 8).toNat

def bin {xlen : Nat} (o : Bin) (c : VCore) (vd vs2 : Nat) (s1 : Src xlen) (vm : Bool) : Option VCore :=
  if c.vs.sew = 1 ∨ c.vs.sew = 2 ∨ c.vs.sew = 4 ∨ c.vs.sew = 8 then
    (binary c c.vs.sew c.vs.sew c.vs.sew vd vs2 (s1.to c.vs.sew) (maskOf c.regs vm)
      (fun a b (_ : Unit) => (o.fn c.vs.sew a b, ())) ()).map (·.1)
  else some (refuse c)

/-- `Vwsll` (338-364): the literals `0x0F`, `0x1F`, `0x3F` are the masks for the double width. -/
def wsll {xlen : Nat} (c : VCore) (vd vs2 : Nat) (s1 : Src1 xlen) (vm : Bool) : Option VCore :=
  if c.vs.sew = 1 ∨ c.vs.sew = 2 ∨ c.vs.sew = 4 then
    (binary c (2 * c.vs.sew) c.vs.sew c.vs.sew vd vs2 (s1.to false c.vs.sew) (maskOf c.regs vm)
      (fun a b (_ : Unit) => (a.setWidth _ <<< (b &&& BitVec.ofNat _ (shiftMask (2 * c.vs.sew))).toNat, ())) ()).map (·.1)
  else some (refuse c)

end Verif.VecBits
