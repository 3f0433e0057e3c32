import Verif.Exec.FaModel
import Verif.FpConvert.Model
import Verif.FpCvt.Model

/-!
# Conversions, from the word in memory

The composition of `Exec.FaModel` for the conversions of F and D.
-/

namespace Verif.Exec

open Decode Decode.Isa Core Operands

/-- What a semantic function computes. -/
inductive VSem where
  /-- `RiscVFCvtWs`, … `RiscVDCvtLud` -/
  | toInt (p : Prec) (t : FpConvert.To)
  /-- `RiscVFCvtSw`, … `RiscVDCvtDlu` -/
  | ofInt (p : Prec) (t : FpConvert.To)
  /-- `RiscVDCvtSd` -/
  | narrow
  /-- `RiscVDCvtDs` -/
  | widen
  deriving DecidableEq, Repr

/-- The functions outside the two name spaces (riscv_f_instructions.cc:355-376,
riscv_d_instructions.cc:297-331). -/
def cvFnsAny : List (String × VSem) :=
  [("RiscVFCvtSw", .ofInt .s FpConvert.int32), ("RiscVFCvtSwu", .ofInt .s FpConvert.uint32),
   ("RiscVFCvtSl", .ofInt .s FpConvert.int64), ("RiscVFCvtSlu", .ofInt .s FpConvert.uint64),
   ("RiscVDCvtDw", .ofInt .d FpConvert.int32), ("RiscVDCvtDwu", .ofInt .d FpConvert.uint32),
   ("RiscVDCvtSd", .narrow), ("RiscVDCvtDs", .widen)]

/-- Those of the name spaces `RV32` and `RV64` (riscv_f_instructions.cc:58-82, 407-416, 470-486;
riscv_d_instructions.cc:377-384, 455-462, 511-531). -/
def cvFns : Xlen → List (String × VSem)
  | .rv32 => cvFnsAny ++
    [("RV32::RiscVFCvtWs", .toInt .s FpConvert.int32), ("RV32::RiscVFCvtWus", .toInt .s FpConvert.uint32),
     ("RV32::RiscVDCvtWd", .toInt .d FpConvert.int32), ("RV32::RiscVDCvtWud", .toInt .d FpConvert.uint32)]
  | .rv64 => cvFnsAny ++
    [("RV64::RiscVFCvtWs", .toInt .s FpConvert.int32), ("RV64::RiscVFCvtWus", .toInt .s FpConvert.uint32),
     ("RV64::RiscVFCvtLs", .toInt .s FpConvert.int64), ("RV64::RiscVFCvtLus", .toInt .s FpConvert.uint64),
     ("RV64::RiscVDCvtWd", .toInt .d FpConvert.int32), ("RV64::RiscVDCvtWud", .toInt .d FpConvert.uint32),
     ("RV64::RiscVDCvtLd", .toInt .d FpConvert.int64), ("RV64::RiscVDCvtLud", .toInt .d FpConvert.uint64),
     ("RV64::RiscVDCvtDl", .ofInt .d FpConvert.int64), ("RV64::RiscVDCvtDlu", .ofInt .d FpConvert.uint64)]

/-- The one part of an instruction. -/
structure VAct where
  sem : VSem
  ops : Act
  deriving DecidableEq

def cvPart (x : Xlen) : List Phase → Option VAct
  | [p] => (p.fn.bind fun c => byName (cvFns x) c.name).map fun m => ⟨m, opsOf p⟩
  | _ => none

/-- The description of an instruction, by its name. -/
def cvActs (s : Sim) (o : Op) : Option VAct :=
  (s.isa.instrs.find? fun i => i.name == opName o).bind fun i => cvPart s.xlen i.phases

/-- The host's conversions and the flags they raise. -/
structure Cvt where
  num : FpCvt.Host
  narrow : Way → FpCvt.F64 → BitVec 5
  widen : FpCvt.F32 → BitVec 5
  toSingle : Way → Int → BitVec 5
  toDouble : Way → Int → BitVec 5

variable {n : Nat} {ρ : Type} {H : FpState.Host}

/-- The operand of type `To`: the lower bits of the register
(riscv_instruction_helpers.h:284-300, 542; the types have the same size). -/
def intOf (t : FpConvert.To) (v : BitVec n) : Int :=
  if t.signed then (v.setWidth t.bits).toInt else (v.setWidth t.bits).toNat

def ofIntV (C : Cvt) (p : Prec) (d : Way) (z : Int) : BitVec p.fmt.bits :=
  match p with
  | .s => FpCvt.fcvtSInt C.num d z
  | .d => FpCvt.fcvtDInt C.num d z

def ofIntFlags (C : Cvt) (p : Prec) (d : Way) (z : Int) : BitVec 5 :=
  match p with
  | .s => C.toSingle d z
  | .d => C.toDouble d z

/-- The flags the host raises in `RiscVDCvtSd`: a NaN is dealt with without it
(riscv_d_instructions.cc:309-319). -/
def narrowFlags (C : Cvt) (d : Way) (a : FpCvt.F64) : BitVec 5 := if Fp.isNaN a then 0#5 else C.narrow d a

/-- The same for `RiscVDCvtDs` (riscv_d_instructions.cc:322-331). -/
def widenFlags (C : Cvt) (a : FpCvt.F32) : BitVec 5 := if Fp.isNaN a then 0#5 else C.widen a

/-- `RiscVUnaryFloatNaNBoxOp`, `RiscVUnaryFloatOp` (riscv_instruction_helpers.h:484-566) once the result and
the host's flags are known. -/
def unaryV (p : Prec) (value : Way → BitVec p.fmt.bits) (flags : Way → BitVec 5) (A : Arith H) (rd : BitVec 5)
    (st : FSt n ρ H) : Option (BitVec 3) → FSt n ρ H
  | none => st
  | some r =>
    (st.withFp (FpState.step st.fp (.arith (some r) (flags (A.dir st.fp.host r))))).setF rd
      (resultF p (value (A.dir st.fp.host r)))

/-- The end of `RiscVConvertFloatWithFflagsOp` (riscv_instruction_helpers.h:267-281): `none` is undefined
behaviour, an overflow of a signed negation. -/
def finishV (s : Sim) (w : Nat) (ops : Act) (t : FpConvert.To) (st : FSt s.xlen.bits ρ H) :
    FpConvert.Outcome → Option (FSt s.xlen.bits ρ H)
  | .done v fl => (putX s w ops (FpConvert.writeBack s.xlen.bits t v) st).bind (submit s ops 1 fl)
  | .ignored => some st
  | .ub => none

/-- `RiscVConvertFloatWithFflagsOp` (riscv_instruction_helpers.h:76-282) with the rounding mode. -/
def toIntV (s : Sim) (w : Nat) (ops : Act) (p : Prec) (t : FpConvert.To) (a : BitVec p.fmt.bits)
    (st : FSt s.xlen.bits ρ H) : Option (BitVec 3) → Option (FSt s.xlen.bits ρ H)
  | none => some st
  | some r => finishV s w ops t st (FpConvert.convert p.fmt t r.toNat a)

/-- One conversion. -/
def carryV (A : Arith H) (C : Cvt) (s : Sim) (w : Nat) (st : FSt s.xlen.bits ρ H) (q : VAct) :
    Option (FSt s.xlen.bits ρ H) :=
  match q.sem with
  | .toInt p t => (fsrcAt s w q.ops 0).bind fun r => (modeAt s w q.ops 1 st).bind fun m =>
      toIntV s w q.ops p t (plainF p (st.fregs r)) st m
  | .ofInt p t => (srcAt s w st.core q.ops 0).bind fun v => (modeAt s w q.ops 1 st).bind fun m =>
      (fdstAt s w q.ops 0).map fun d =>
        unaryV p (fun k => ofIntV C p k (intOf t v)) (fun k => ofIntFlags C p k (intOf t v)) A d st m
  | .narrow => (fsrcAt s w q.ops 0).bind fun r => (modeAt s w q.ops 1 st).bind fun m =>
      (fdstAt s w q.ops 0).map fun d =>
        unaryV .s (fun k => FpCvt.fcvtSD C.num k (operandF .d (st.fregs r)))
          (fun k => narrowFlags C k (operandF .d (st.fregs r))) A d st m
  | .widen => (fsrcAt s w q.ops 0).bind fun r => (modeAt s w q.ops 1 st).bind fun m =>
      (fdstAt s w q.ops 0).map fun d =>
        unaryV .d (fun _ => FpCvt.fcvtDS C.num (plainF .s (st.fregs r)))
          (fun _ => widenFlags C (plainF .s (st.fregs r))) A d st m

/-- A turn with a conversion. -/
def cvTurn (A : Arith H) (C : Cvt) (s : Sim) (q : VAct) (w : Nat) (size : Nat) (st : FSt s.xlen.bits ρ H) :
    Option (FSt s.xlen.bits ρ H) :=
  (carryV A C s w st q).map fun st' => closeF st' (st.core.hart.pc.setWidth 64) size

/-- A turn with any instruction of the model. -/
def turnV (A : Arith H) (C : Cvt) (s : Sim) (i : Inst) (w : Nat) (size : Nat) (dev : Option (Atomic.Device ρ))
    (st : FSt s.xlen.bits ρ H) : Option (FSt s.xlen.bits ρ H) :=
  match cvActs s i.op with
  | some q => cvTurn A C s q w size st
  | none => turnA A s i w size dev st

/-- A turn, with some entry of the decoder that the word matches, or with the default if there is
none. -/
def TurnV (A : Arith H) (C : Cvt) (s : Sim) (dev : Option (Atomic.Device ρ)) (st st' : FSt s.xlen.bits ρ H) : Prop :=
  (∃ i size, Finds s (wordAt st.core) i size ∧ turnV A C s i (wordAt st.core) size dev st = some st') ∨
  ((∀ i size, ¬ Finds s (wordAt st.core) i size) ∧ st' = refusedF s st)

end Verif.Exec
