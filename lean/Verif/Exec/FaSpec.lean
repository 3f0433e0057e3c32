import Verif.Exec.FpSpec
import Verif.Exec.FaModel
import Verif.FpFlags.Spec

/-!
# Floating-point arithmetic, by the manual

`ASem` serves as a list of the instructions.
-/

namespace Verif.Exec.Spec

open Decode Decode.Isa Core
open FpFma.Spec (NaN Inf IsZero Signalling val unit neg?)
open FpArith.Spec (InfZero)

def akind : Op → Option ASem
  | .fadd_s => some (.bin .s .add)
  | .fsub_s => some (.bin .s .sub)
  | .fmul_s => some (.bin .s .mul)
  | .fdiv_s => some (.bin .s .div)
  | .fsqrt_s => some (.sqrt .s)
  | .fmadd_s => some (.fma .s .madd)
  | .fmsub_s => some (.fma .s .msub)
  | .fnmadd_s => some (.fma .s .nmadd)
  | .fnmsub_s => some (.fma .s .nmsub)
  | .fadd_d => some (.bin .d .add)
  | .fsub_d => some (.bin .d .sub)
  | .fmul_d => some (.bin .d .mul)
  | .fdiv_d => some (.bin .d .div)
  | .fsqrt_d => some (.sqrt .d)
  | .fmadd_d => some (.fma .d .madd)
  | .fmsub_d => some (.fma .d .msub)
  | .fnmadd_d => some (.fma .d .nmadd)
  | .fnmsub_d => some (.fma .d .nmsub)
  | _ => none

/-- The word `w` is such an instruction. -/
def IsA (x : Xlen) (w : Nat) (k : ASem) : Prop := ∃ o, akind o = some k ∧ Listed x o w

/-- The third source register, bits 31 to 27. -/
def rs3 (w : Nat) : BitVec 5 := BitVec.ofNat 5 (Getters.Spec.unsigned w (Getters.Spec.positions [(31, 27)]))

/-- The rounding mode field, bits 14 to 12. -/
def rmField (w : Nat) : BitVec 3 := BitVec.ofNat 3 (Getters.Spec.unsigned w (Getters.Spec.positions [(14, 12)]))

variable {n : Nat} {ρ : Type} {H : FpState.Host}

/-- The rounding mode of the instruction: the field, or frm if that is 7. -/
def modeOf (w : Nat) (st : FSt n ρ H) : BitVec 3 :=
  if rmField w = 7#3 then (FpState.frmRead st.fp).setWidth 3 else rmField w

/-- The instruction `w` rounds in direction `d`. -/
def InMode (w : Nat) (st : FSt n ρ H) (d : Way) : Prop := FpHost.Spec.rvDir (modeOf w st) = some d

/-- The rounding mode stays; the flags `fl` are added to the accrued flags. -/
def AccruesAll (st st' : FSt n ρ H) (fl : BitVec 5) : Prop :=
  FpState.frmRead st'.fp = FpState.frmRead st.fp ∧
  FpState.fflagsRead st'.fp = FpState.fflagsRead st.fp ||| fl.setWidth 32

/-- The number expected, and the canonical NaN for every NaN. -/
def Right {f : Fp.Fmt} (d : Way) (x : FpFma.Spec.Expect) (v : BitVec f.bits) : Prop :=
  FpFma.Spec.Meets d x v ∧ (NaN v → v = Fp.canonicalNaN f)

/-- The effect with operands `a` and `b` of a sum, difference, product or quotient. -/
def DoesBin (after : Bool) (d : Way) (p : Prec) (o : FpFlags.Spec.BinOp) (a b : BitVec p.fmt.bits) (w : Nat)
    (st st' : FSt n ρ H) : Prop :=
  ∃ fl, FpFlags.Spec.Flags p.fmt after d (FpFlags.Spec.expect o d a b) (FpFlags.Spec.invalid o a b)
      (FpFlags.Spec.byZero o a b) fl ∧ AccruesAll st st' fl ∧
    GivesF p st st' (rd w) (Right d (FpFlags.Spec.expect o d a b))

/-- The effect with operand `a` of a square root. -/
def DoesSqrt (d : Way) (p : Prec) (a : BitVec p.fmt.bits) (w : Nat) (st st' : FSt n ρ H) : Prop :=
  ∃ fl, FpFlags.Spec.SqrtFlags a fl ∧ AccruesAll st st' fl ∧
    GivesF p st st' (rd w) fun v => FpArith.Spec.Sqrt d a v ∧ (NaN v → v = Fp.canonicalNaN p.fmt)

/-- The effect with operands `a`, `b` and `c` of a fused multiply-add. -/
def DoesFma (after : Bool) (d : Way) (p : Prec) (o : FpFma.Spec.Op) (a b c : BitVec p.fmt.bits) (w : Nat)
    (st st' : FSt n ρ H) : Prop :=
  ∃ fl, FpFlags.Spec.Flags p.fmt after d (FpFma.Spec.fma d o.negProduct o.negAddend a b c)
      (FpArith.Spec.FmaInvalid o a b c) False fl ∧ AccruesAll st st' fl ∧
    GivesF p st st' (rd w) (Right d (FpFma.Spec.fma d o.negProduct o.negAddend a b c))

/-- The effect of an instruction that rounds in direction `d`.  `after`: tininess is detected after
rounding, as RISC-V prescribes. -/
def DoesA (after : Bool) (d : Way) (k : ASem) (w : Nat) (st st' : FSt n ρ H) : Prop :=
  match k with
  | .bin p o => ∃ a b, ValueF p st (rs1 w) a ∧ ValueF p st (rs2 w) b ∧ DoesBin after d p o a b w st st'
  | .sqrt p => ∃ a, ValueF p st (rs1 w) a ∧ DoesSqrt d p a w st st'
  | .fma p o => ∃ a b c, ValueF p st (rs1 w) a ∧ ValueF p st (rs2 w) b ∧ ValueF p st (rs3 w) c ∧
      DoesFma after d p o a b c w st st'

/-! ## The cases in which the simulator does something else -/

/-- The direction commutes with negation. -/
def Even (d : Way) : Prop := d ≠ .down ∧ d ≠ .up

/-- Product (±0, not infinity times zero) and addend are both zero. -/
def BothZero {f : Fp.Fmt} (a b c : BitVec f.bits) : Prop :=
  ((IsZero a ∧ ¬ Inf b) ∨ (IsZero b ∧ ¬ Inf a)) ∧ IsZero c

/-- A fused multiply-add of double precision: a signalling NaN; zeros of opposite signs when rounding down;
the two negated instructions when rounding down or up, when product and addend cancel exactly, and `fnmsub`
also when both are zero and the addend is -0. -/
def WrongD (d : Way) (o : FpFma.Spec.Op) (a b c : BitVec Fp.double.bits) : Prop :=
  Signalling a ∨ Signalling b ∨ Signalling c ∨
  (d = .down ∧ BothZero a b c ∧ (o.negProduct ^^ (a.msb ^^ b.msb)) ≠ (o.negAddend ^^ c.msb)) ∨
  (o.negProduct = true ∧
    (¬ Even d ∨
     (¬ Inf a ∧ ¬ Inf b ∧ ¬ Inf c ∧ ¬ IsZero c ∧ val a * val b + neg? (!o.negAddend) (val c) * unit Fp.double = 0))) ∨
  (o = .nmsub ∧ BothZero a b c ∧ c.msb = true)

/-- A fused multiply-add: infinity times zero plus a NaN, operands of single precision that are not boxed,
and for double precision the cases above. -/
def WrongFma (d : Way) (p : Prec) (o : FpFma.Spec.Op) (w : Nat) (st : FSt n ρ H) : Prop :=
  match p with
  | .s => ¬ BoxedS st (rs1 w) ∨ ¬ BoxedS st (rs2 w) ∨ ¬ BoxedS st (rs3 w) ∨
      ∃ a b c : BitVec Fp.single.bits, ValueF .s st (rs1 w) a ∧ ValueF .s st (rs2 w) b ∧ ValueF .s st (rs3 w) c ∧
        InfZero a b ∧ NaN c
  | .d => ∃ a b c : BitVec Fp.double.bits, ValueF .d st (rs1 w) a ∧ ValueF .d st (rs2 w) b ∧ ValueF .d st (rs3 w) c ∧
        ((InfZero a b ∧ NaN c) ∨ WrongD d o a b c)

/-- Those cases, for every instruction. -/
def WrongK (d : Way) (k : ASem) (w : Nat) (st : FSt n ρ H) : Prop :=
  match k with
  | .fma p o => WrongFma d p o w st
  | _ => False

/-- The cases left out: rounding to nearest, ties away from zero; the dynamic rounding mode while the
simulator takes it to be invalid; and those of fused multiply-adds. -/
def WrongA (d : Way) (k : ASem) (w : Nat) (st : FSt n ρ H) : Prop :=
  d = .nearestAway ∨ (rmField w = 7#3 ∧ st.fp.valid = false) ∨ WrongK d k w st

end Verif.Exec.Spec
