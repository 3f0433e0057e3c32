import Verif.VecInt.Model
import Verif.VecLoop.Spec
/-
The value each element-wise integer instruction computes, as an integer whose low bits are the element (RISC-V vector
specification, chapter 11).  `a` is the element of vs2, `b` that of vs1 or the scalar, `d` the old element of vd.
-/
namespace Verif.VecInt.Spec
open Verif.VecState Verif.VecLoop.Spec

def same {w : Nat} (a b : BitVec w) : Same → Int
  | .add => a.toInt + b.toInt
  | .sub => a.toInt - b.toInt
  | .rsub => b.toInt - a.toInt
  | .and => (a.toNat &&& b.toNat : Nat)
  | .or => (a.toNat ||| b.toNat : Nat)
  | .xor => (a.toNat ^^^ b.toNat : Nat)
  | .sll => (a.toNat * 2 ^ (b.toNat % w) : Nat)
  | .srl => (a.toNat / 2 ^ (b.toNat % w) : Nat)
  | .sra => a.toInt / 2 ^ (b.toNat % w)
  | .minu => (min a.toNat b.toNat : Nat)
  | .min => min a.toInt b.toInt
  | .maxu => (max a.toNat b.toNat : Nat)
  | .max => max a.toInt b.toInt
  | .divu => if b.toNat = 0 then -1 else (a.toNat / b.toNat : Nat)
  | .div => if b.toInt = 0 then -1 else a.toInt.tdiv b.toInt
  | .remu => if b.toNat = 0 then a.toNat else (a.toNat % b.toNat : Nat)
  | .rem => if b.toInt = 0 then a.toInt else a.toInt.tmod b.toInt
  | .mulhu => (a.toNat * b.toNat / 2 ^ w : Nat)
  | .mul => a.toInt * b.toInt
  | .mulhsu => a.toInt * b.toNat / 2 ^ w
  | .mulh => a.toInt * b.toInt / 2 ^ w

/-- The shift amount of the narrowing shifts is taken modulo the width of vs2. -/
def narrow {v w : Nat} (a : BitVec v) (b : BitVec w) : Narrow → Int
  | .nsrl => (a.toNat / 2 ^ (b.toNat % v) : Nat)
  | .nsra => a.toInt / 2 ^ (b.toNat % v)

def wide {w : Nat} (a b : BitVec w) : Wide → Int
  | .waddu => a.toNat + b.toNat
  | .wsubu => a.toNat - b.toNat
  | .wadd => a.toInt + b.toInt
  | .wsub => a.toInt - b.toInt
  | .wmulu => a.toNat * b.toNat
  | .wmulsu => a.toInt * b.toNat
  | .wmul => a.toInt * b.toInt

def wideW {v w : Nat} (a : BitVec v) (b : BitVec w) : WideW → Int
  | .wadduw => a.toInt + b.toNat
  | .wsubuw => a.toInt - b.toNat
  | .waddw => a.toInt + b.toInt
  | .wsubw => a.toInt - b.toInt

def mac {w : Nat} (a b d : BitVec w) : Mac → Int
  | .madd => b.toInt * d.toInt + a.toInt
  | .nmsub => a.toInt - b.toInt * d.toInt
  | .macc => b.toInt * a.toInt + d.toInt
  | .nmsac => d.toInt - b.toInt * a.toInt

def wmac {v w : Nat} (a b : BitVec w) (d : BitVec v) : WMac → Int
  | .wmaccu => b.toNat * a.toNat + d.toInt
  | .wmacc => b.toInt * a.toInt + d.toInt
  | .wmaccus => b.toNat * a.toInt + d.toInt
  | .wmaccsu => b.toInt * a.toNat + d.toInt

/-- Operand 1 of element `i`: the element of vs1, the register sign-extended or cut to the element's width, or the immediate
with or without a sign. -/
def Operand {xlen n : Nat} (s : VState) (R : Regs) (i : Nat) (b : BitVec (8 * n)) : Src1 xlen → Prop
  | .vec vs => IsElem s.vlenb n R vs i b
  | .x v => (xlen ≤ 8 * n → b.toInt = v.toInt) ∧ (8 * n < xlen → b.toNat = v.toNat % 2 ^ (8 * n))
  | .simm k => b.toInt = k.toInt
  | .uimm k => b.toNat = k.toNat

/-- Operand 1 obeys the overlap rules. -/
def OperandOk {xlen : Nat} (s : VState) (nd vd n : Nat) : Src1 xlen → Prop
  | .vec vs => SourceOk s.vlenb s.vl nd vd n vs
  | _ => True

/-- Every active element of the body becomes the value wanted of it (the integer's low bits), nothing else changes, and
vstart is cleared. -/
structure Did (s : VState) (R : Regs) (vm : Bool) (nd vd : Nat) (s' : VState) (R' : Regs) (want : Nat → Int → Prop) : Prop where
  state : s' = { s with vstart := 0 }
  body : ∀ i v, s.vstart ≤ i → i < s.vl → Active R vm i → want i v → IsElem s.vlenb nd R' vd i (BitVec.ofInt (8 * nd) v)
  rest : Undisturbed s.vlenb nd vd (fun i => s.vstart ≤ i ∧ i < s.vl ∧ Active R vm i) R R'

end Verif.VecInt.Spec
