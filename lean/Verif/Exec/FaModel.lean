import Verif.Exec.FpModel
import Verif.FpFlags.Model

/-!
# Floating-point arithmetic, from the word in memory

The composition of `Exec.FpModel` for sums, differences, products, quotients, square roots and fused
multiply-adds of F and D.
-/

namespace Verif.Exec

open Decode Decode.Isa Core Operands

/-- The directions of rounding. -/
abbrev Way := FpHost.Spec.Dir

/-- What a semantic function computes. -/
inductive ASem where
  /-- `RiscVFAdd`, … `RiscVDDiv` -/
  | bin (p : Prec) (o : FpFlags.Spec.BinOp)
  /-- `RiscVFSqrt`, `RiscVDSqrt` -/
  | sqrt (p : Prec)
  /-- `RiscVFMadd`, … `RiscVDNmsub` -/
  | fma (p : Prec) (o : FpFma.Spec.Op)
  deriving DecidableEq, Repr

/-- The functions (riscv_f_instructions.cc:160-219, 277-328; riscv_d_instructions.cc:63-122, 176-292). -/
def arFns : List (String × ASem) :=
  [("RiscVFAdd", .bin .s .add), ("RiscVFSub", .bin .s .sub), ("RiscVFMul", .bin .s .mul),
   ("RiscVFDiv", .bin .s .div), ("RiscVFSqrt", .sqrt .s), ("RiscVFMadd", .fma .s .madd),
   ("RiscVFMsub", .fma .s .msub), ("RiscVFNmadd", .fma .s .nmadd), ("RiscVFNmsub", .fma .s .nmsub),
   ("RiscVDAdd", .bin .d .add), ("RiscVDSub", .bin .d .sub), ("RiscVDMul", .bin .d .mul),
   ("RiscVDDiv", .bin .d .div), ("RiscVDSqrt", .sqrt .d), ("RiscVDMadd", .fma .d .madd),
   ("RiscVDMsub", .fma .d .msub), ("RiscVDNmadd", .fma .d .nmadd), ("RiscVDNmsub", .fma .d .nmsub)]

/-- The one part of an instruction. -/
structure AAct where
  sem : ASem
  ops : Act
  deriving DecidableEq

def arPart : List Phase → Option AAct
  | [p] => (p.fn.bind fun c => byName arFns c.name).map fun m => ⟨m, opsOf p⟩
  | _ => none

/-- The description of an instruction, by its name. -/
def arActs (s : Sim) (o : Op) : Option AAct :=
  (s.isa.instrs.find? fun i => i.name == opName o).bind fun i => arPart i.phases

/-- The host's arithmetic: the direction in which it rounds in a scope with a rounding mode
(`ScopedFPStatus`), and what it computes and raises. -/
structure Arith (H : FpState.Host) where
  dir : H.σ → BitVec 3 → Way
  s : FpFlags.Host Fp.single
  d : FpFlags.Host Fp.double

/-- The direction on x86: what is in MXCSR in the scope. -/
def x86Arith (s : FpFlags.Host Fp.single) (d : FpFlags.Host Fp.double) : Arith FpState.x86 :=
  ⟨fun h r => FpHost.Spec.x86Dir (FpHost.X86.load h (some r)), s, d⟩

/-- The direction on ARM: what is in FPCR in the scope. -/
def armArith (s : FpFlags.Host Fp.single) (d : FpFlags.Host Fp.double) : Arith FpState.arm :=
  ⟨fun h r => FpHost.Spec.armDir (FpHost.Arm.load h (some r)).fpcr, s, d⟩

variable {n : Nat} {ρ : Type} {H : FpState.Host}

def Arith.on (A : Arith H) : (p : Prec) → FpFlags.Host p.fmt
  | .s => A.s
  | .d => A.d

/-- The rounding mode an instruction uses, `none` for the return before the operation: source `k`, or the
dynamic one (riscv_instruction_helpers.h:609-620, 660-671; riscv_f_instructions.cc:200-212;
riscv_d_instructions.cc:103-115).  The source is three bits of the word, so that nothing is lost when it is
taken to be three bits wide. -/
def modeAt (s : Sim) (w : Nat) (a : Act) (k : Nat) (st : FSt s.xlen.bits ρ H) : Option (Option (BitVec 3)) :=
  (srcAt s w st.core a k).map fun v => (FpState.resolve st.fp (v.setWidth 3)).map fun r => r.setWidth 3

/-- The state with other flags and rounding mode. -/
def FSt.withFp (st : FSt n ρ H) (fp : FpState.Fp H) : FSt n ρ H := { st with fp := fp }

/-- `RiscVBinaryFloatNaNBoxOp` (riscv_instruction_helpers.h:602-650) once the operands and the rounding mode
are known. -/
def binA (A : Arith H) (p : Prec) (o : FpFlags.Spec.BinOp) (r₁ r₂ rd : BitVec 5) (st : FSt n ρ H) :
    Option (BitVec 3) → FSt n ρ H
  | none => st
  | some r =>
    (st.withFp (FpState.step st.fp (.arith (some r) (FpFlags.binaryFlags (A.on p) o (A.dir st.fp.host r)
      (operandF p (st.fregs r₁)) (operandF p (st.fregs r₂)))))).setF rd
      (resultF p (FpFlags.binary (A.on p) o (A.dir st.fp.host r)
        (operandF p (st.fregs r₁)) (operandF p (st.fregs r₂))))

/-- The library's square root (riscv_f_instructions.cc:200-217, riscv_d_instructions.cc:103-120). -/
def rootA (A : Arith H) (p : Prec) (a : BitVec p.fmt.bits) (rd : BitVec 5) (st : FSt n ρ H) :
    Option (BitVec 3) → FSt n ρ H
  | none => st.setF rd (resultF p (Fp.canonicalNaN p.fmt))
  | some r =>
    (st.withFp (FpState.step st.fp (.arith (some r) ((A.on p).sqrt (A.dir st.fp.host r) a)))).setF rd
      (resultF p ((A.on p).num.sqrt (A.dir st.fp.host r) a))

/-- `RiscVFSqrt`, `RiscVDSqrt` (riscv_f_instructions.cc:182-219, riscv_d_instructions.cc:85-122). -/
def sqrtA (A : Arith H) (s : Sim) (w : Nat) (ops : Act) (p : Prec) (a : BitVec p.fmt.bits) (rd : BitVec 5)
    (st : FSt s.xlen.bits ρ H) : Option (FSt s.xlen.bits ρ H) :=
  if Fp.isNaN a || FpArith.negative a then
    submit s ops 1 (if Fp.isQNaN a then 0 else 16) (st.setF rd (resultF p (Fp.canonicalNaN p.fmt)))
  else if Fp.isZero a then some (st.setF rd (resultF p a))
  else (modeAt s w ops 1 st).map (rootA A p a rd st)

/-- The operand of a fused multiply-add, taken from the register whether it is boxed or not
(riscv_instruction_helpers.h:656-658). -/
def plainF (p : Prec) (r : BitVec 64) : BitVec p.fmt.bits := NaNBox.plainSource p.fmt r

def fmaA (A : Arith H) (p : Prec) (o : FpFma.Spec.Op) (d : Way) (a b c : BitVec p.fmt.bits) : BitVec p.fmt.bits :=
  match p with
  | .s => FpFlags.fmaS A.s o d a b c
  | .d => FpFlags.fmaD A.d o d a b c

def fmaFlagsA (A : Arith H) (p : Prec) (o : FpFma.Spec.Op) (d : Way) (a b c : BitVec p.fmt.bits) : BitVec 5 :=
  match p with
  | .s => FpFlags.fmaSFlags A.s o d a b c
  | .d => FpFlags.fmaDFlags A.d o d a b c

/-- Whether the invalid flag is submitted in the scope (riscv_f_instructions.cc:283-287, …;
riscv_d_instructions.cc:180-186, …). -/
def submitsA (p : Prec) (a b : BitVec p.fmt.bits) : Bool :=
  match p with
  | .s => FpFma.invalidProduct a b
  | .d => !Fp.isNaN a && !Fp.isNaN b && FpFma.invalidProduct a b

/-- What happens to the floating-point state in the scope. -/
def innerA (on : Bool) (fp : FpState.Fp H) : FpState.Fp H :=
  if on then FpState.step fp (.fflagsSet 16#32) else fp

/-- `RiscVTernaryFloatNaNBoxOp` (riscv_instruction_helpers.h:652-691). -/
def ternA (A : Arith H) (p : Prec) (o : FpFma.Spec.Op) (r₁ r₂ r₃ rd : BitVec 5) (st : FSt n ρ H) :
    Option (BitVec 3) → FSt n ρ H
  | none => st
  | some r =>
    (st.withFp (FpState.scopedFp st.fp (some r) (innerA (submitsA p (plainF p (st.fregs r₁)) (plainF p (st.fregs r₂))))
      (fmaFlagsA A p o (A.dir st.fp.host r) (plainF p (st.fregs r₁)) (plainF p (st.fregs r₂))
        (plainF p (st.fregs r₃))))).setF rd
      (resultF p (fmaA A p o (A.dir st.fp.host r) (plainF p (st.fregs r₁)) (plainF p (st.fregs r₂))
        (plainF p (st.fregs r₃))))

/-- Destination 1 is where flags are submitted. -/
def hasFlags (s : Sim) (a : Act) : Bool := decide ((firstOpd a.dsts[1]?).bind s.dest = some .flags)

/-- One instruction of arithmetic. -/
def carryA (A : Arith H) (s : Sim) (w : Nat) (st : FSt s.xlen.bits ρ H) (q : AAct) :
    Option (FSt s.xlen.bits ρ H) :=
  match q.sem with
  | .bin p o => (fsrcAt s w q.ops 0).bind fun r₁ => (fsrcAt s w q.ops 1).bind fun r₂ =>
      (modeAt s w q.ops 2 st).bind fun m => (fdstAt s w q.ops 0).map fun d => binA A p o r₁ r₂ d st m
  | .sqrt p => (fsrcAt s w q.ops 0).bind fun r => (fdstAt s w q.ops 0).bind fun d =>
      sqrtA A s w q.ops p (operandF p (st.fregs r)) d st
  | .fma p o => (fsrcAt s w q.ops 0).bind fun r₁ => (fsrcAt s w q.ops 1).bind fun r₂ =>
      (fsrcAt s w q.ops 2).bind fun r₃ => (modeAt s w q.ops 3 st).bind fun m =>
      if hasFlags s q.ops then (fdstAt s w q.ops 0).map fun d => ternA A p o r₁ r₂ r₃ d st m else none

/-- A turn with such an instruction. -/
def arTurn (A : Arith H) (s : Sim) (q : AAct) (w : Nat) (size : Nat) (st : FSt s.xlen.bits ρ H) :
    Option (FSt s.xlen.bits ρ H) :=
  (carryA A s w st q).map fun st' => closeF st' (st.core.hart.pc.setWidth 64) size

/-- A turn with any instruction of the model. -/
def turnA (A : Arith H) (s : Sim) (i : Inst) (w : Nat) (size : Nat) (dev : Option (Atomic.Device ρ))
    (st : FSt s.xlen.bits ρ H) : Option (FSt s.xlen.bits ρ H) :=
  match arActs s i.op with
  | some q => arTurn A s q w size st
  | none => turnF s i w size dev st

/-- A turn, with some entry of the decoder that the word matches, or with the default if there is
none. -/
def TurnA (A : Arith H) (s : Sim) (dev : Option (Atomic.Device ρ)) (st st' : FSt s.xlen.bits ρ H) : Prop :=
  (∃ i size, Finds s (wordAt st.core) i size ∧ turnA A s i (wordAt st.core) size dev st = some st') ∨
  ((∀ i size, ¬ Finds s (wordAt st.core) i size) ∧ st' = refusedF s st)

end Verif.Exec
