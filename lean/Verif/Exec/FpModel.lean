import Verif.Exec.Illegal
import Verif.FpMem.Model
import Verif.FpClass.Model
import Verif.FpState.Model
import Verif.NaNBox.Model

/-!
# Floating-point instructions that do not round, from the word in memory

The composition of `Exec.Illegal` for loads, stores, sign injection, minimum and maximum, comparisons,
classification and moves of F and D.  The registers are those of `FpMem`, the accrued flags those of
`FpState`.
-/

namespace Verif.Exec

open Decode Decode.Isa Core Operands

/-- The two formats (`float` and `double` in the semantic functions). -/
inductive Prec where
  | s | d
  deriving DecidableEq, Repr

def Prec.fmt : Prec → Fp.Fmt
  | .s => Fp.single
  | .d => Fp.double

inductive SignOp where
  | copy | negate | xor
  deriving DecidableEq, Repr

inductive CmpOp where
  | eq | lt | le
  deriving DecidableEq, Repr

/-- What a semantic function does. -/
inductive FSem where
  /-- `RiscVILw`, `RiscVILd` -/
  | load (bytes : Nat)
  /-- `RiscVFSw`, `RiscVDSd` -/
  | store (bytes : Nat)
  /-- `RiscVFSgnj`, `RiscVDSgnj`, … -/
  | sign (p : Prec) (o : SignOp)
  /-- `RiscVFMin`, `RiscVDMax`, … -/
  | minMax (p : Prec) (max : Bool)
  /-- `RiscVFCmpeq`, `RiscVDCmple`, … -/
  | cmp (p : Prec) (o : CmpOp)
  /-- `RiscVFClass`, `RiscVDClass` -/
  | classify (p : Prec)
  /-- `RiscVFMvxw`, `RiscVDMvxd` -/
  | toX (p : Prec)
  /-- `RiscVFMvwx`, `RiscVDMvdx` -/
  | fromX (p : Prec)
  deriving DecidableEq, Repr

/-- The functions outside the name spaces (riscv_f_instructions.cc:222-271, 331-352, 379-382;
riscv_d_instructions.cc:125-168, 334-355). -/
def fpFnsAny : List (String × FSem) :=
  [("RiscVFSgnj", .sign .s .copy), ("RiscVFSgnjn", .sign .s .negate), ("RiscVFSgnjx", .sign .s .xor),
   ("RiscVDSgnj", .sign .d .copy), ("RiscVDSgnjn", .sign .d .negate), ("RiscVDSgnjx", .sign .d .xor),
   ("RiscVFMin", .minMax .s false), ("RiscVFMax", .minMax .s true),
   ("RiscVDMin", .minMax .d false), ("RiscVDMax", .minMax .d true),
   ("RiscVFMvwx", .fromX .s)]

/-- Those of the name spaces `RV32` and `RV64` (riscv_f_instructions.cc:384-443, 445-520;
riscv_d_instructions.cc:357-431, 433-509, 532-541). -/
def fpFns : Xlen → List (String × FSem)
  | .rv32 => fpFnsAny ++
    [("RV32::RiscVFSw", .store 4), ("RV32::RiscVDSd", .store 8),
     ("RV32::RiscVFCmpeq", .cmp .s .eq), ("RV32::RiscVFCmplt", .cmp .s .lt), ("RV32::RiscVFCmple", .cmp .s .le),
     ("RV32::RiscVDCmpeq", .cmp .d .eq), ("RV32::RiscVDCmplt", .cmp .d .lt), ("RV32::RiscVDCmple", .cmp .d .le),
     ("RV32::RiscVFClass", .classify .s), ("RV32::RiscVDClass", .classify .d),
     ("RV32::RiscVFMvxw", .toX .s)]
  | .rv64 => fpFnsAny ++
    [("RV64::RiscVFSw", .store 4), ("RV64::RiscVDSd", .store 8),
     ("RV64::RiscVFCmpeq", .cmp .s .eq), ("RV64::RiscVFCmplt", .cmp .s .lt), ("RV64::RiscVFCmple", .cmp .s .le),
     ("RV64::RiscVDCmpeq", .cmp .d .eq), ("RV64::RiscVDCmplt", .cmp .d .lt), ("RV64::RiscVDCmple", .cmp .d .le),
     ("RV64::RiscVFClass", .classify .s), ("RV64::RiscVDClass", .classify .d),
     ("RV64::RiscVFMvxw", .toX .s), ("RV64::RiscVDMvxd", .toX .d), ("RV64::RiscVDMvdx", .fromX .d)]

/-- The first part of a load (riscv_i_instructions.cc:433-439, 483-485, 491-493). -/
def fpLoads : Xlen → List (String × Nat)
  | .rv32 => [("RV32::RiscVILw", 4), ("RV32::RiscVILd", 8)]
  | .rv64 => [("RV64::RiscVILw", 4), ("RV64::RiscVILd", 8)]

/-- Its second part (riscv_f_instructions.cc:141-157, riscv_i_instructions.cc:487-489). -/
def fpBacks : List (String × FpMem.Back) :=
  [("RiscVIFlwChild", .box 4), ("RV64::RiscVILdChild", .whole)]

def byName {α : Type} (l : List (String × α)) (name : String) : Option α :=
  (l.find? fun p => p.1 == name).map fun p => p.2

/-- The parts of an instruction: what the first does, its operands, and the second part of a load. -/
structure FAct where
  sem : FSem
  ops : Act
  back : Option (FpMem.Back × Act)
  deriving DecidableEq

/-- The operands of a part of a description. -/
def opsOf (p : Phase) : Act := ⟨.nop, p.srcs, p.dsts⟩

/-- Destination 0 is a floating-point register. -/
def isFreg : Option Getters.What → Bool
  | some (.freg _ _) => true
  | _ => false

def firstOpd : Option Arg → Option Getters.Opd
  | some (.one o) => some o
  | _ => none

def backs (s : Sim) (q : Phase) : Bool :=
  isFreg ((firstOpd q.dsts[0]?).bind s.dest)

def fpOne (s : Sim) (p : Phase) : Option FAct :=
  (p.fn.bind fun c => byName (fpFns s.xlen) c.name).map fun m => ⟨m, opsOf p, none⟩

def fpTwo (s : Sim) (p q : Phase) : Option FAct :=
  if backs s q then
    (p.fn.bind fun c => byName (fpLoads s.xlen) c.name).bind fun n =>
      (q.fn.bind fun c => byName fpBacks c.name).map fun b => ⟨.load n, opsOf p, some (b, opsOf q)⟩
  else none

def fpParts (s : Sim) : List Phase → Option FAct
  | [p] => fpOne s p
  | [p, q] => fpTwo s p q
  | _ => none

/-- The description of an instruction, by its name. -/
def fpActs (s : Sim) (o : Op) : Option FAct :=
  (s.isa.instrs.find? fun i => i.name == opName o).bind fun i => fpParts s i.phases

/-! ## State and operands -/

/-- The state with floating-point registers and flags. -/
structure FSt (n : Nat) (ρ : Type) (H : FpState.Host) where
  x : XSt n ρ
  fregs : BitVec 5 → BitVec 64
  fp : FpState.Fp H

variable {n : Nat} {ρ : Type} {H : FpState.Host}

/-- The integer side of the state. -/
def FSt.core (st : FSt n ρ H) : Core n := st.x.base.core

/-- The same state with another integer side. -/
def FSt.withCore (st : FSt n ρ H) (c : Core n) : FSt n ρ H :=
  { st with x := { st.x with base := { st.x.base with core := c } } }

/-- A floating-point register replaced. -/
def FSt.setF (st : FSt n ρ H) (r : BitVec 5) (v : BitVec 64) : FSt n ρ H :=
  { st with fregs := fun q => if q = r then v else st.fregs q }

def fregNo : Getters.Val → Option (BitVec 5)
  | .f r => some (BitVec.ofNat 5 r)
  | _ => none

/-- Source `k` is a floating-point register. -/
def fsrcAt (s : Sim) (w : Nat) (a : Act) (k : Nat) : Option (BitVec 5) :=
  ((firstOpd a.srcs[k]?).bind s.source).bind fun g => fregNo (g.source w)

/-- Destination `k` is a floating-point register. -/
def fdstAt (s : Sim) (w : Nat) (a : Act) (k : Nat) : Option (BitVec 5) :=
  ((firstOpd a.dsts[k]?).bind s.dest).bind fun g => fregNo (g.dest w)

/-- Flags submitted to destination `k`: the bits are set in fflags (riscv_csr.h:389-396 with the
destination made in riscv_getters.h:375-378). -/
def submit (s : Sim) (a : Act) (k : Nat) (flags : Nat) (st : FSt n ρ H) : Option (FSt n ρ H) :=
  if flags = 0 then some st
  else if (firstOpd a.dsts[k]?).bind s.dest = some .flags then
    some { st with fp := FpState.step st.fp (.fflagsSet (BitVec.ofNat 32 flags)) }
  else none

/-- The operand of an operation in floating-point registers: `GetNaNBoxedSource<uint64_t, …>` for `float`
(riscv_instruction_helpers.h:284-300, 433-434), `GetInstructionSource<double>` for `double`
(riscv_instruction_helpers.h:307-308). -/
def operandF (p : Prec) (r : BitVec 64) : BitVec p.fmt.bits :=
  match p with
  | .s => NaNBox.boxedSource 64 Fp.single r
  | .d => NaNBox.plainSource Fp.double r

/-- The operand of a comparison: `GetNaNBoxedSource<XRegister::ValueType, float>` for `float`
(riscv_f_instructions.cc:86, 102, 118). -/
def operandC (n : Nat) (p : Prec) (r : BitVec 64) : BitVec p.fmt.bits :=
  match p with
  | .s => NaNBox.boxedSource n Fp.single r
  | .d => NaNBox.plainSource Fp.double r

/-- The register written for a result (riscv_instruction_helpers.h:442-454, 313). -/
def resultF (p : Prec) (v : BitVec p.fmt.bits) : BitVec 64 :=
  match p with
  | .s => NaNBox.writeGeneric 64 Fp.single v
  | .d => v.setWidth 64

def signF (o : SignOp) {f : Fp.Fmt} (a b : BitVec f.bits) : BitVec f.bits :=
  match o with
  | .copy => FpClass.sgnj a b
  | .negate => FpClass.sgnjn a b
  | .xor => FpClass.sgnjx a b

/-- Minimum and maximum and the flags submitted. -/
def minMaxF (p : Prec) (max : Bool) (a b : BitVec p.fmt.bits) : BitVec p.fmt.bits × Nat :=
  match max, p with
  | false, _ => FpClass.fmin a b
  | true, .s => FpClass.fmax a b
  | true, .d => FpClass.dmax a b

def cmpF (o : CmpOp) {f : Fp.Fmt} (a b : BitVec f.bits) : Bool × Nat :=
  match o with
  | .eq => FpClass.feq a b
  | .lt => FpClass.flt a b
  | .le => FpClass.fle a b

/-- The register written by `RiscVFClass`, `RiscVDClass` (`FpClass.fclassS64`, `FpClass.fclassFull`):
`old` is what it held. -/
def classF (x : Xlen) (p : Prec) (old : BitVec x.bits) (r : BitVec 64) : BitVec x.bits :=
  match x, p with
  | .rv64, .s => FpClass.fclassS64 old (NaNBox.plainSource Fp.single r)
  | .rv32, .s => FpClass.fclassFull old (NaNBox.plainSource Fp.single r)
  | _, .d => FpClass.fclassFull old (NaNBox.plainSource Fp.double r)

/-- The value written by `RiscVFMvxw` (riscv_f_instructions.cc:418-421, 488-491), `RiscVDMvxd`
(riscv_d_instructions.cc:533-536). -/
def toXF (n : Nat) (p : Prec) (r : BitVec 64) : BitVec n :=
  match p with
  | .s => (r.setWidth 32).signExtend n
  | .d => r.setWidth n

/-- The register written by `RiscVFMvwx`, whose operand is an integer register
(riscv_f_instructions.cc:379-382, riscv_instruction_helpers.h:468-480), and `RiscVDMvdx`
(riscv_d_instructions.cc:538-541). -/
def fromXF (p : Prec) (v : BitVec n) : BitVec 64 :=
  match p with
  | .s => NaNBox.writeGeneric 64 Fp.single (v.setWidth 32)
  | .d => v.setWidth 64

/-! ## Semantic functions -/

/-- `state->mstatus()->fs() == 0` (riscv_f_instructions.cc:393, 456; riscv_d_instructions.cc:366, 444). -/
def unitOff (st : FSt n ρ H) : Bool := decide (st.core.hart.mstatus.getter .fs = 0#64)

/-- The address of a load or a store. -/
def addressF (s : Sim) (w : Nat) (a : Act) (st : FSt n ρ H) : Option (BitVec 64) :=
  (srcAt s w st.core a 0).bind fun b => (srcAt s w st.core a 1).map fun o => (b + o).setWidth 64

/-- What a load does with the outcome of the access. -/
def loadedF (s : Sim) (w : Nat) (b : FpMem.Back) (q : Act) (st : FSt n ρ H) :
    Mem.Loaded n Nat → Option (FSt n ρ H)
  | .trapped c => some (st.withCore c)
  | .value v => (fdstAt s w q 0).map fun r => st.setF r (FpMem.back b (st.fregs r) v)

/-- `RVLoad` and its second part, at once (riscv_instruction_helpers.h:374-409). -/
def loadF (s : Sim) (w : Nat) (addr : BitVec 64) (bytes : Nat) (a : Act) (b : FpMem.Back × Act)
    (st : FSt n ρ H) : Option (FSt n ρ H) :=
  (addressF s w a st).bind fun u => loadedF s w b.1 b.2 st (Mem.load st.core u bytes addr false)

/-- `RiscVFSw`, `RiscVDSd`. -/
def storeF (s : Sim) (w : Nat) (addr : BitVec 64) (bytes : Nat) (a : Act) (st : FSt n ρ H) :
    Option (FSt n ρ H) :=
  if unitOff st then some st
  else (addressF s w a st).bind fun u => (fsrcAt s w a 2).map fun r =>
    st.withCore (Mem.store st.core u bytes ((st.fregs r).toNat % 2 ^ (8 * bytes)) addr false)

/-- An integer register gets `v`. -/
def putX (s : Sim) (w : Nat) (a : Act) (v : BitVec n) (st : FSt n ρ H) : Option (FSt n ρ H) :=
  (dstAt s w a 0).bind fun d => (put st.core d v).map st.withCore

/-- An instruction that is no load. -/
def oneF (s : Sim) (w : Nat) (addr : BitVec 64) (a : Act) (st : FSt s.xlen.bits ρ H) :
    FSem → Option (FSt s.xlen.bits ρ H)
  | .store bytes => storeF s w addr bytes a st
  | .sign p o => (fsrcAt s w a 0).bind fun r₁ => (fsrcAt s w a 1).bind fun r₂ => (fdstAt s w a 0).map fun d =>
      st.setF d (resultF p (signF o (operandF p (st.fregs r₁)) (operandF p (st.fregs r₂))))
  | .minMax p m => (fsrcAt s w a 0).bind fun r₁ => (fsrcAt s w a 1).bind fun r₂ => (fdstAt s w a 0).bind fun d =>
      submit s a 1 (minMaxF p m (operandF p (st.fregs r₁)) (operandF p (st.fregs r₂))).2
        (st.setF d (resultF p (minMaxF p m (operandF p (st.fregs r₁)) (operandF p (st.fregs r₂))).1))
  | .cmp p o => (fsrcAt s w a 0).bind fun r₁ => (fsrcAt s w a 1).bind fun r₂ =>
      (submit s a 1 (cmpF o (operandC s.xlen.bits p (st.fregs r₁)) (operandC s.xlen.bits p (st.fregs r₂))).2
        st).bind fun st' =>
      putX s w a (if (cmpF o (operandC s.xlen.bits p (st.fregs r₁)) (operandC s.xlen.bits p (st.fregs r₂))).1
        then 1#_ else 0#_) st'
  | .classify p => (fsrcAt s w a 0).bind fun r => (dstAt s w a 0).bind fun d =>
      (put st.core d (classF s.xlen p (before st.core d) (st.fregs r))).map st.withCore
  | .toX p => (fsrcAt s w a 0).bind fun r => putX s w a (toXF s.xlen.bits p (st.fregs r)) st
  | .fromX p => (srcAt s w st.core a 0).bind fun v => (fdstAt s w a 0).map fun d => st.setF d (fromXF p v)
  | .load _ => none

/-- One floating-point instruction at `addr`. -/
def carryF (s : Sim) (w : Nat) (addr : BitVec 64) (st : FSt s.xlen.bits ρ H) (p : FAct) :
    Option (FSt s.xlen.bits ρ H) :=
  match p.sem, p.back with
  | .load bytes, some b => loadF s w addr bytes p.ops b st
  | m, none => oneF s w addr p.ops st m
  | _, _ => none

/-- The end of the turn (riscv_top.cc:259, 282-288). -/
def closeF (st : FSt n ρ H) (pc : BitVec 64) (size : Nat) : FSt n ρ H := st.withCore (next st.core pc size)

/-- A turn with a floating-point instruction. -/
def fpTurn (s : Sim) (p : FAct) (w : Nat) (size : Nat) (st : FSt s.xlen.bits ρ H) :
    Option (FSt s.xlen.bits ρ H) :=
  (carryF s w (st.core.hart.pc.setWidth 64) st p).map fun st' => closeF st' (st.core.hart.pc.setWidth 64) size

/-- A turn with any instruction of the model. -/
def turnF (s : Sim) (i : Inst) (w : Nat) (size : Nat) (dev : Option (Atomic.Device ρ))
    (st : FSt s.xlen.bits ρ H) : Option (FSt s.xlen.bits ρ H) :=
  match fpActs s i.op with
  | some p => fpTurn s p w size st
  | none => (turnI s i w size dev st.x).map fun x => { st with x := x }

/-- A turn with a word that no entry matches, without the floating-point state. -/
def refusedI (s : Sim) (x : XSt s.xlen.bits ρ) : XSt s.xlen.bits ρ :=
  close (doIllegal x (x.base.core.hart.pc.setWidth 64)) (x.base.core.hart.pc.setWidth 64) (defaultSize s)

/-- The same with it. -/
def refusedF (s : Sim) (st : FSt s.xlen.bits ρ H) : FSt s.xlen.bits ρ H :=
  { st with x := refusedI s st.x }

/-- A turn, with some entry of the decoder that the word matches, or with the default if there is
none. -/
def TurnF (s : Sim) (dev : Option (Atomic.Device ρ)) (st st' : FSt s.xlen.bits ρ H) : Prop :=
  (∃ i size, Finds s (wordAt st.core) i size ∧ turnF s i (wordAt st.core) size dev st = some st') ∨
  ((∀ i size, ¬ Finds s (wordAt st.core) i size) ∧
    st' = refusedF s st)

end Verif.Exec
