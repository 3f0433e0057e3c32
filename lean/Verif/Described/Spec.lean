import Verif.Operands.Model

/-!
# What each mnemonic stands for

For every instruction of the RISC-V manuals that the repository describes: its
operands, in the order in which the manual's assembly syntax and pseudo-code
name them, and the function that carries it out.  Functions are named; what they
do is the subject of the other properties.  `x` is the namespace of the base
(`"RV32::"` or `"RV64::"`) for functions that have one copy for each base.
-/

namespace Verif.Described.Spec

open Getters (Opd)
open Operands (Arg Phase Instr)

/-- What is to be done: by the function `fn`, with `args` bound in front, on
`srcs`, giving `dsts`. -/
structure Part where
  srcs : List Opd
  dsts : List Opd
  fn : String
  args : List Nat := []

inductive Row where
  /-- one part, or the access and the write-back of a load -/
  | does (name : String) (parts : List Part)
  /-- nothing is to be done -/
  | hint (name : String)

def Row.name : Row → String
  | .does n _ => n
  | .hint n => n

/-- A described part is the wanted one.  The `fflags` destination is left out of
the comparison: it holds flags the function finds itself, and functions that use
the host's flags do not have it. -/
def IsPart (q : Part) (p : Phase) : Prop :=
  p.srcs = q.srcs.map .one ∧ p.dsts.filter (· ≠ .one .Fflags) = q.dsts.map .one ∧
  p.args = q.args ∧ ∃ c, p.fn = some c ∧ c.name = q.fn

/-- The described parts are the wanted ones, in order. -/
def AreParts : List Part → List Phase → Prop
  | [], [] => True
  | q :: qs, p :: ps => IsPart q p ∧ AreParts qs ps
  | _, _ => False

/-- The instruction is described as the row says. -/
def Described (r : Row) (i : Instr) : Prop :=
  r.name = i.name ∧
  match r with
  | .does _ qs => AreParts qs i.phases
  | .hint _ => ∀ p ∈ i.phases, ∃ c, p.fn = some c ∧ c.name = "RiscVINop"

/-! ## Scalar instructions -/

def one (n : String) (s d : List Opd) (f : String) : Row := .does n [⟨s, d, f, []⟩]
def rrr (n f : String) : Row := one n [.Rs1, .Rs2] [.Rd] f
def rri (n f : String) (i : Opd) : Row := one n [.Rs1, i] [.Rd] f
def rr (n f : String) : Row := one n [.Rs1] [.Rd] f
def none' (n f : String) : Row := one n [] [] f
def branch (n f : String) : Row := one n [.Rs1, .Rs2, .BImm12] [.NextPc] f
def ld (n f g : String) (b o d : Opd) : Row := .does n [⟨[b, o], [], f, []⟩, ⟨[], [d], g, []⟩]
def st (n f : String) (b o s : Opd) : Row := one n [b, o, s] [] f
def amo (n f g : String) : Row :=
  .does n [⟨[.Rs1, .Rs2, .AAq, .ARl], [], f, []⟩, ⟨[], [.Rd], g, []⟩]
def lr (n f g : String) : Row := .does n [⟨[.Rs1, .AAq, .ARl], [], f, []⟩, ⟨[], [.Rd], g, []⟩]

/-- RV32I -/
def i32 : List Row :=
  [ rri "addi" "RV32::RiscVIAdd" .IImm12, none' "nop" "RiscVINop",
    rri "slti" "RV32::RiscVISlt" .IImm12, rri "sltiu" "RV32::RiscVISltu" .IImm12,
    rri "andi" "RV32::RiscVIAnd" .IImm12, rri "ori" "RV32::RiscVIOr" .IImm12,
    rri "xori" "RV32::RiscVIXor" .IImm12, rri "slli" "RV32::RiscVISll" .IUimm5,
    rri "srli" "RV32::RiscVISrl" .IUimm5, rri "srai" "RV32::RiscVISra" .IUimm5,
    one "lui" [.UImm20] [.Rd] "RV32::RiscVILui", one "auipc" [.UImm20] [.Rd] "RV32::RiscVIAuipc",
    rrr "add" "RV32::RiscVIAdd", rrr "slt" "RV32::RiscVISlt", rrr "sltu" "RV32::RiscVISltu",
    rrr "and" "RV32::RiscVIAnd", rrr "or" "RV32::RiscVIOr", rrr "xor" "RV32::RiscVIXor",
    rrr "sll" "RV32::RiscVISll", rrr "srl" "RV32::RiscVISrl", rrr "sub" "RV32::RiscVISub",
    rrr "sra" "RV32::RiscVISra", .hint "hint",
    one "jal" [.JImm20] [.NextPc, .Rd] "RV32::RiscVIJal",
    one "jalr" [.Rs1, .JImm12] [.NextPc, .Rd] "RV32::RiscVIJalr",
    one "j" [.JImm20] [.NextPc, .Rd] "RV32::RiscVIJal",
    one "jr" [.Rs1, .JImm12] [.NextPc, .Rd] "RV32::RiscVIJalr",
    branch "beq" "RV32::RiscVIBeq", branch "bne" "RV32::RiscVIBne",
    branch "blt" "RV32::RiscVIBlt", branch "bltu" "RV32::RiscVIBltu",
    branch "bge" "RV32::RiscVIBge", branch "bgeu" "RV32::RiscVIBgeu",
    ld "lw" "RV32::RiscVILw" "RV32::RiscVILwChild" .Rs1 .IImm12 .Rd,
    ld "lh" "RV32::RiscVILh" "RV32::RiscVILhChild" .Rs1 .IImm12 .Rd,
    ld "lhu" "RV32::RiscVILhu" "RV32::RiscVILhuChild" .Rs1 .IImm12 .Rd,
    ld "lb" "RV32::RiscVILb" "RV32::RiscVILbChild" .Rs1 .IImm12 .Rd,
    ld "lbu" "RV32::RiscVILbu" "RV32::RiscVILbuChild" .Rs1 .IImm12 .Rd,
    st "sw" "RV32::RiscVISw" .Rs1 .SImm12 .Rs2, st "sh" "RV32::RiscVISh" .Rs1 .SImm12 .Rs2,
    st "sb" "RV32::RiscVISb" .Rs1 .SImm12 .Rs2,
    one "fence" [.Pred, .Succ] [] "RiscVIFence", none' "fence_tso" "RiscVIFenceTso",
    none' "ecall" "RiscVIEcall", none' "ebreak" "RiscVIEbreak" ]

/-- RV64I -/
def i64 : List Row :=
  [ rri "addi" "RV64::RiscVIAdd" .IImm12, none' "nop" "RiscVINop",
    rri "addiw" "RV64::RiscVIAddw" .IImm12,
    rri "slti" "RV64::RiscVISlt" .IImm12, rri "sltiu" "RV64::RiscVISltu" .IImm12,
    rri "andi" "RV64::RiscVIAnd" .IImm12, rri "ori" "RV64::RiscVIOr" .IImm12,
    rri "xori" "RV64::RiscVIXor" .IImm12, rri "slli" "RV64::RiscVISll" .IUimm6,
    rri "srli" "RV64::RiscVISrl" .IUimm6, rri "srai" "RV64::RiscVISra" .IUimm6,
    rri "slliw" "RV64::RiscVISllw" .IUimm5, rri "srliw" "RV64::RiscVISrlw" .IUimm5,
    rri "sraiw" "RV64::RiscVISraw" .IUimm5,
    one "lui" [.UImm20] [.Rd] "RV64::RiscVILui", one "auipc" [.UImm20] [.Rd] "RV64::RiscVIAuipc",
    rrr "add" "RV64::RiscVIAdd", rrr "addw" "RV64::RiscVIAddw", rrr "slt" "RV64::RiscVISlt",
    rrr "sltu" "RV64::RiscVISltu",
    rrr "and" "RV64::RiscVIAnd", rrr "or" "RV64::RiscVIOr", rrr "xor" "RV64::RiscVIXor",
    rrr "sll" "RV64::RiscVISll", rrr "srl" "RV64::RiscVISrl", rrr "sub" "RV64::RiscVISub",
    rrr "sra" "RV64::RiscVISra", rrr "sllw" "RV64::RiscVISllw", rrr "srlw" "RV64::RiscVISrlw",
    rrr "subw" "RV64::RiscVISubw", rrr "sraw" "RV64::RiscVISraw", .hint "hint",
    one "jal" [.JImm20] [.NextPc, .Rd] "RV64::RiscVIJal",
    one "jalr" [.Rs1, .JImm12] [.NextPc, .Rd] "RV64::RiscVIJalr",
    one "j" [.JImm20] [.NextPc, .Rd] "RV64::RiscVIJal",
    one "jr" [.Rs1, .JImm12] [.NextPc, .Rd] "RV64::RiscVIJalr",
    branch "beq" "RV64::RiscVIBeq", branch "bne" "RV64::RiscVIBne",
    branch "blt" "RV64::RiscVIBlt", branch "bltu" "RV64::RiscVIBltu",
    branch "bge" "RV64::RiscVIBge", branch "bgeu" "RV64::RiscVIBgeu",
    ld "ld" "RV64::RiscVILd" "RV64::RiscVILdChild" .Rs1 .IImm12 .Rd,
    ld "lw" "RV64::RiscVILw" "RV64::RiscVILwChild" .Rs1 .IImm12 .Rd,
    ld "lwu" "RV64::RiscVILw" "RV64::RiscVILwuChild" .Rs1 .IImm12 .Rd,
    ld "lh" "RV64::RiscVILh" "RV64::RiscVILhChild" .Rs1 .IImm12 .Rd,
    ld "lhu" "RV64::RiscVILhu" "RV64::RiscVILhuChild" .Rs1 .IImm12 .Rd,
    ld "lb" "RV64::RiscVILb" "RV64::RiscVILbChild" .Rs1 .IImm12 .Rd,
    ld "lbu" "RV64::RiscVILbu" "RV64::RiscVILbuChild" .Rs1 .IImm12 .Rd,
    st "sd" "RV64::RiscVISd" .Rs1 .SImm12 .Rs2,
    st "sw" "RV64::RiscVISw" .Rs1 .SImm12 .Rs2, st "sh" "RV64::RiscVISh" .Rs1 .SImm12 .Rs2,
    st "sb" "RV64::RiscVISb" .Rs1 .SImm12 .Rs2,
    one "fence" [.Pred, .Succ] [] "RiscVIFence", none' "fence_tso" "RiscVIFenceTso",
    none' "ecall" "RiscVIEcall", none' "ebreak" "RiscVIEbreak", none' "unimp" "RiscVIUnimplemented" ]

/-- M -/
def m32 : List Row :=
  [ rrr "mul" "RV32::MMul", rrr "mulh" "RV32::MMulh", rrr "mulhu" "RV32::MMulhu",
    rrr "mulhsu" "RV32::MMulhsu", rrr "div" "RV32::MDiv", rrr "divu" "RV32::MDivu",
    rrr "rem" "RV32::MRem", rrr "remu" "RV32::MRemu" ]

def m64 : List Row :=
  [ rrr "mul" "RV64::MMul", rrr "mulw" "RV64::MMulw", rrr "mulh" "RV64::MMulh",
    rrr "mulhu" "RV64::MMulhu",
    rrr "mulhsu" "RV64::MMulhsu", rrr "div" "RV64::MDiv", rrr "divu" "RV64::MDivu",
    rrr "rem" "RV64::MRem", rrr "remu" "RV64::MRemu",
    rrr "divw" "RV64::MDivw", rrr "divuw" "RV64::MDivuw", rrr "remw" "RV64::MRemw",
    rrr "remuw" "RV64::MRemuw" ]

/-- A -/
def a32 : List Row :=
  let g := "RV32::RiscVILwChild"
  [ lr "lrw" "ALrw" g, amo "scw" "AScw" g, amo "amoswapw" "AAmoswapw" g,
    amo "amoandw" "AAmoandw" g, amo "amoorw" "AAmoorw" g, amo "amoxorw" "AAmoxorw" g,
    amo "amoaddw" "AAmoaddw" g, amo "amomaxw" "AAmomaxw" g, amo "amomaxuw" "AAmomaxuw" g,
    amo "amominw" "AAmominw" g, amo "amominuw" "AAmominuw" g ]

def a64 : List Row :=
  let g := "RV64::RiscVILwChild"
  let h := "RV64::RiscVILdChild"
  [ lr "lrw" "ALrw" g, lr "lrd" "ALrd" h, amo "scw" "AScw" g, amo "scd" "AScd" h,
    amo "amoswapw" "AAmoswapw" g, amo "amoswapd" "AAmoswapd" h,
    amo "amoandw" "AAmoandw" g, amo "amoandd" "AAmoandd" h,
    amo "amoorw" "AAmoorw" g, amo "amoord" "AAmoord" h,
    amo "amoxorw" "AAmoxorw" g, amo "amoxord" "AAmoxord" h,
    amo "amoaddw" "AAmoaddw" g, amo "amoaddd" "AAmoaddd" h,
    amo "amomaxw" "AAmomaxw" g, amo "amomaxd" "AAmomaxd" h,
    amo "amomaxuw" "AAmomaxuw" g, amo "amomaxud" "AAmomaxud" h,
    amo "amominw" "AAmominw" g, amo "amomind" "AAmomind" h,
    amo "amominuw" "AAmominuw" g, amo "amominud" "AAmominud" h ]

/-- Instructions of F (`a b c d` are `frs1 frs2 frs3 frd`), of D and of Zfh with
the same operands. -/
structure Regs where
  a : Opd
  b : Opd
  c : Opd
  d : Opd

def sReg : Regs := ⟨.Frs1, .Frs2, .Frs3, .Frd⟩
def dReg : Regs := ⟨.Drs1, .Drs2, .Drs3, .Drd⟩

def Regs.bin (r : Regs) (n f : String) : Row := one n [r.a, r.b, .Rm] [r.d] f
def Regs.bin' (r : Regs) (n f : String) : Row := one n [r.a, r.b] [r.d] f
def Regs.fma (r : Regs) (n f : String) : Row := one n [r.a, r.b, r.c, .Rm] [r.d] f
def Regs.cmp (r : Regs) (n f : String) : Row := one n [r.a, r.b] [.Rd] f
def Regs.toX (r : Regs) (n f : String) : Row := one n [r.a, .Rm] [.Rd] f
def Regs.ofX (r : Regs) (n f : String) : Row := one n [.Rs1, .Rm] [r.d] f

/-- F -/
def f32 : List Row :=
  let r := sReg
  [ ld "flw" "RV32::RiscVILw" "RiscVIFlwChild" .Rs1 .IImm12 .Frd,
    st "fsw" "RV32::RiscVFSw" .Rs1 .SImm12 .Frs2,
    r.bin "fadd_s" "RiscVFAdd", r.bin "fsub_s" "RiscVFSub", r.bin "fmul_s" "RiscVFMul",
    r.bin "fdiv_s" "RiscVFDiv", one "fsqrt_s" [.Frs1, .Rm] [.Frd] "RiscVFSqrt",
    r.bin' "fmin_s" "RiscVFMin", r.bin' "fmax_s" "RiscVFMax",
    r.fma "fmadd_s" "RiscVFMadd", r.fma "fmsub_s" "RiscVFMsub", r.fma "fnmadd_s" "RiscVFNmadd",
    r.fma "fnmsub_s" "RiscVFNmsub",
    r.toX "fcvt_ws" "RV32::RiscVFCvtWs", r.ofX "fcvt_sw" "RiscVFCvtSw",
    r.toX "fcvt_wus" "RV32::RiscVFCvtWus", r.ofX "fcvt_swu" "RiscVFCvtSwu",
    r.bin' "fsgnj_s" "RiscVFSgnj", r.bin' "fsgnjn_s" "RiscVFSgnjn", r.bin' "fsgnjx_s" "RiscVFSgnjx",
    one "fmv_xw" [.Frs1] [.Rd] "RV32::RiscVFMvxw", one "fmv_wx" [.Rs1] [.Frd] "RiscVFMvwx",
    r.cmp "fcmpeq_s" "RV32::RiscVFCmpeq", r.cmp "fcmplt_s" "RV32::RiscVFCmplt",
    r.cmp "fcmple_s" "RV32::RiscVFCmple", one "fclass_s" [.Frs1] [.Rd] "RV32::RiscVFClass" ]

def f64 : List Row :=
  let r := sReg
  [ ld "flw" "RV64::RiscVILw" "RiscVIFlwChild" .Rs1 .IImm12 .Frd,
    st "fsw" "RV64::RiscVFSw" .Rs1 .SImm12 .Frs2,
    r.bin "fadd_s" "RiscVFAdd", r.bin "fsub_s" "RiscVFSub", r.bin "fmul_s" "RiscVFMul",
    r.bin "fdiv_s" "RiscVFDiv", one "fsqrt_s" [.Frs1, .Rm] [.Frd] "RiscVFSqrt",
    r.bin' "fmin_s" "RiscVFMin", r.bin' "fmax_s" "RiscVFMax",
    r.fma "fmadd_s" "RiscVFMadd", r.fma "fmsub_s" "RiscVFMsub", r.fma "fnmadd_s" "RiscVFNmadd",
    r.fma "fnmsub_s" "RiscVFNmsub",
    r.toX "fcvt_ws" "RV64::RiscVFCvtWs", r.toX "fcvt_ls" "RV64::RiscVFCvtLs",
    r.ofX "fcvt_sw" "RiscVFCvtSw", r.ofX "fcvt_sl" "RiscVFCvtSl",
    r.toX "fcvt_wus" "RV64::RiscVFCvtWus", r.toX "fcvt_lus" "RV64::RiscVFCvtLus",
    r.ofX "fcvt_swu" "RiscVFCvtSwu", r.ofX "fcvt_slu" "RiscVFCvtSlu",
    r.bin' "fsgnj_s" "RiscVFSgnj", r.bin' "fsgnjn_s" "RiscVFSgnjn", r.bin' "fsgnjx_s" "RiscVFSgnjx",
    one "fmv_xw" [.Frs1] [.Rd] "RV64::RiscVFMvxw", one "fmv_wx" [.Rs1] [.Frd] "RiscVFMvwx",
    r.cmp "fcmpeq_s" "RV64::RiscVFCmpeq", r.cmp "fcmplt_s" "RV64::RiscVFCmplt",
    r.cmp "fcmple_s" "RV64::RiscVFCmple", one "fclass_s" [.Frs1] [.Rd] "RV64::RiscVFClass" ]

/-- D -/
def d32 : List Row :=
  let r := dReg
  [ ld "fld" "RV32::RiscVILd" "RV64::RiscVILdChild" .Rs1 .IImm12 .Drd,
    st "fsd" "RV32::RiscVDSd" .Rs1 .SImm12 .Drs2,
    r.bin "fadd_d" "RiscVDAdd", r.bin "fsub_d" "RiscVDSub", r.bin "fmul_d" "RiscVDMul",
    r.bin "fdiv_d" "RiscVDDiv", one "fsqrt_d" [.Drs1, .Rm] [.Drd] "RiscVDSqrt",
    r.bin' "fmin_d" "RiscVDMin", r.bin' "fmax_d" "RiscVDMax",
    r.fma "fmadd_d" "RiscVDMadd", r.fma "fmsub_d" "RiscVDMsub", r.fma "fnmadd_d" "RiscVDNmadd",
    r.fma "fnmsub_d" "RiscVDNmsub",
    r.toX "fcvt_wd" "RV32::RiscVDCvtWd", r.ofX "fcvt_dw" "RiscVDCvtDw",
    r.toX "fcvt_wud" "RV32::RiscVDCvtWud", r.ofX "fcvt_dwu" "RiscVDCvtDwu",
    one "fcvt_sd" [.Drs1, .Rm] [.Drd] "RiscVDCvtSd", one "fcvt_ds" [.Drs1, .Rm] [.Drd] "RiscVDCvtDs",
    r.bin' "fsgnj_d" "RiscVDSgnj", r.bin' "fsgnjn_d" "RiscVDSgnjn", r.bin' "fsgnjx_d" "RiscVDSgnjx",
    r.cmp "fcmpeq_d" "RV32::RiscVDCmpeq", r.cmp "fcmplt_d" "RV32::RiscVDCmplt",
    r.cmp "fcmple_d" "RV32::RiscVDCmple", one "fclass_d" [.Drs1] [.Rd] "RV32::RiscVDClass" ]

def d64 : List Row :=
  let r := dReg
  [ ld "fld" "RV64::RiscVILd" "RV64::RiscVILdChild" .Rs1 .IImm12 .Drd,
    st "fsd" "RV64::RiscVDSd" .Rs1 .SImm12 .Drs2,
    r.bin "fadd_d" "RiscVDAdd", r.bin "fsub_d" "RiscVDSub", r.bin "fmul_d" "RiscVDMul",
    r.bin "fdiv_d" "RiscVDDiv", one "fsqrt_d" [.Drs1, .Rm] [.Drd] "RiscVDSqrt",
    r.bin' "fmin_d" "RiscVDMin", r.bin' "fmax_d" "RiscVDMax",
    r.fma "fmadd_d" "RiscVDMadd", r.fma "fmsub_d" "RiscVDMsub", r.fma "fnmadd_d" "RiscVDNmadd",
    r.fma "fnmsub_d" "RiscVDNmsub",
    r.toX "fcvt_wd" "RV64::RiscVDCvtWd", r.toX "fcvt_ld" "RV64::RiscVDCvtLd",
    r.ofX "fcvt_dw" "RiscVDCvtDw", r.ofX "fcvt_dl" "RV64::RiscVDCvtDl",
    r.toX "fcvt_wud" "RV64::RiscVDCvtWud", r.toX "fcvt_lud" "RV64::RiscVDCvtLud",
    r.ofX "fcvt_dwu" "RiscVDCvtDwu", r.ofX "fcvt_dlu" "RV64::RiscVDCvtDlu",
    one "fcvt_sd" [.Drs1, .Rm] [.Drd] "RiscVDCvtSd", one "fcvt_ds" [.Drs1, .Rm] [.Drd] "RiscVDCvtDs",
    r.bin' "fsgnj_d" "RiscVDSgnj", r.bin' "fsgnjn_d" "RiscVDSgnjn", r.bin' "fsgnjx_d" "RiscVDSgnjx",
    r.cmp "fcmpeq_d" "RV64::RiscVDCmpeq", r.cmp "fcmplt_d" "RV64::RiscVDCmplt",
    r.cmp "fcmple_d" "RV64::RiscVDCmple", one "fclass_d" [.Drs1] [.Rd] "RV64::RiscVDClass",
    one "fmv_dx" [.Rs1] [.Frd] "RV64::RiscVDMvdx", one "fmv_xd" [.Frs1] [.Rd] "RV64::RiscVDMvxd" ]

/-- Zfh -/
def zfh (x : String) : List Row :=
  let r := sReg
  let cvt (n f : String) : Row := one n [.Frs1, .Rm] [.Frd] f
  [ cvt "fcvt_sh" "RiscVZfhCvtSh", cvt "fcvt_hs" "RiscVZfhCvtHs", cvt "fcvt_dh" "RiscVZfhCvtDh",
    cvt "fcvt_hd" "RiscVZfhCvtHd",
    ld "flh" (x ++ "RiscVILhu") "RiscVZfhFlhChild" .Rs1 .IImm12 .Frd,
    st "fsh" (x ++ "RiscVISh") .Rs1 .SImm12 .Frs2,
    one "fmv_xh" [.Frs1] [.Rd] (x ++ "RiscVZfhFMvxh"),
    one "fmv_hx" [.Rs1] [.Frd] (x ++ "RiscVZfhFMvhx"),
    r.ofX "fcvt_hw" "RiscVZfhCvtHw", r.ofX "fcvt_hwu" "RiscVZfhCvtHwu",
    r.bin "fadd_h" "RiscVZfhFadd", r.bin "fsub_h" "RiscVZfhFsub", r.bin "fmul_h" "RiscVZfhFmul",
    r.bin "fdiv_h" "RiscVZfhFdiv", r.bin' "fmin_h" "RiscVZfhFmin", r.bin' "fmax_h" "RiscVZfhFmax",
    cvt "fsqrt_h" "RiscVZfhFsqrt",
    r.bin' "fsgnj_h" "RiscVZfhFsgnj", r.bin' "fsgnjn_h" "RiscVZfhFsgnjn",
    r.bin' "fsgnjx_h" "RiscVZfhFsgnjx",
    r.fma "fmadd_h" "RiscVZfhFmadd", r.fma "fmsub_h" "RiscVZfhFmsub",
    r.fma "fnmadd_h" "RiscVZfhFnmadd", r.fma "fnmsub_h" "RiscVZfhFnmsub",
    r.toX "fcvt_wh" (x ++ "RiscVZfhCvtWh"), r.toX "fcvt_wuh" (x ++ "RiscVZfhCvtWuh"),
    r.cmp "fcmpeq_h" (x ++ "RiscVZfhFcmpeq"), r.cmp "fcmplt_h" (x ++ "RiscVZfhFcmplt"),
    r.cmp "fcmple_h" (x ++ "RiscVZfhFcmple"), one "fclass_h" [.Frs1] [.Rd] (x ++ "RiscVZfhFclass") ]

def zfhL : List Row :=
  [ sReg.toX "fcvt_lh" "RV64::RiscVZfhCvtLh", sReg.toX "fcvt_luh" "RV64::RiscVZfhCvtLuh",
    sReg.ofX "fcvt_hl" "RV64::RiscVZfhCvtHl", sReg.ofX "fcvt_hlu" "RV64::RiscVZfhCvtHlu" ]

/-- Zicsr; `_nr` is the form with rd = x0, `_nw` the form with rs1 = x0 (or
immediate 0). -/
def zicsr (x : String) : List Row :=
  let w (n f : String) (s : Opd) : Row := one n [s, .Csr] [.Rd, .Csr] (x ++ f)
  let r (n : String) : Row := one n [.Csr] [.Rd] (x ++ "RiscVZiCsrrNw")
  [ w "csrrw" "RiscVZiCsrrw" .Rs1, w "csrrs" "RiscVZiCsrrs" .Rs1, w "csrrc" "RiscVZiCsrrc" .Rs1,
    w "csrrs_nr" "RiscVZiCsrrs" .Rs1, w "csrrc_nr" "RiscVZiCsrrc" .Rs1,
    one "csrrw_nr" [.Rs1, .Csr] [.Csr] (x ++ "RiscVZiCsrrwNr"),
    r "csrrs_nw", r "csrrc_nw",
    w "csrrwi" "RiscVZiCsrrw" .CSRUimm5, w "csrrsi" "RiscVZiCsrrs" .CSRUimm5,
    w "csrrci" "RiscVZiCsrrc" .CSRUimm5, w "csrrsi_nr" "RiscVZiCsrrs" .CSRUimm5,
    w "csrrci_nr" "RiscVZiCsrrc" .CSRUimm5,
    one "csrrwi_nr" [.CSRUimm5, .Csr] [.Csr] (x ++ "RiscVZiCsrrwNr"),
    r "csrrsi_nw", r "csrrci_nw" ]

def zfencei : List Row := [one "fencei" [.IImm12] [] "RiscVZFencei"]

def privileged (x : String) : List Row :=
  let ret (n f : String) : Row := one n [] [.NextPc] (x ++ f)
  let sf (n f : String) : Row := one n [.Rs1, .Rs2] [] f
  [ ret "uret" "RiscVPrivURet", ret "sret" "RiscVPrivSRet", ret "mret" "RiscVPrivMRet",
    none' "wfi" "RiscVPrivWfi", sf "sfence_vma_zz" "RiscVPrivSFenceVmaZZ",
    sf "sfence_vma_zn" "RiscVPrivSFenceVmaZN", sf "sfence_vma_nz" "RiscVPrivSFenceVmaNZ",
    sf "sfence_vma_nn" "RiscVPrivSFenceVmaNN" ]

/-- Hints, and the shifts that mark a semihosting call. -/
def hints : List Row :=
  [ "addi_hint1", "addi_hint2", "slti_hint", "sltiu_hint", "andi_hint", "ori_hint", "xori_hint",
    "slli_semihost", "slli_hint1", "slli_hint2", "srli_hint", "srai_semihost", "srai_hint1",
    "srai_hint2", "lui_hint", "auipc_hint", "add_hint1", "add_hint2", "add_hint3", "and_hint",
    "or_hint", "xor_hint", "sll_hint", "srl_hint", "sub_hint", "sra_hint", "slt_hint", "sltu_hint",
    "fence_hint1", "fence_hint2", "fence_hint3", "fence_hint4", "fence_hint5", "fence_hint6",
    "fence_hint7" ].map .hint

def chints : List Row :=
  ["cnop_hint", "cli_hint", "clui_hint", "cmv_hint", "caddi_hint", "cslli_hint", "cadd_hint"].map .hint

/-! ## Bit manipulation -/

/-- Zba: the shift amount is a constant operand. -/
def zba (x : String) : List Row :=
  let sh (n f : String) (k : Opd) : Row := one n [.Rs1, .Rs2, k] [.Rd] (x ++ f)
  [ sh "sh1add" "RiscVShAdd" .Const1, sh "sh2add" "RiscVShAdd" .Const2,
    sh "sh3add" "RiscVShAdd" .Const3 ]

def zbaUw : List Row :=
  let sh (n : String) (k : Opd) : Row := one n [.Rs1, .Rs2, k] [.Rd] "RV64::RiscVShAddUw"
  [ rrr "add_uw" "RV64::RiscVAddUw", sh "sh1add_uw" .Const1, sh "sh2add_uw" .Const2,
    sh "sh3add_uw" .Const3, rri "slli_uw" "RV64::RiscVSlliUw" .RUimm6 ]

def zbb (x : String) : List Row :=
  [ rrr "andn" (x ++ "RiscVAndn"), rrr "orn" (x ++ "RiscVOrn"), rrr "xnor" (x ++ "RiscVXnor"),
    rr "clz" (x ++ "RiscVClz"), rr "ctz" (x ++ "RiscVCtz"), rr "cpop" (x ++ "RiscVCpop"),
    rrr "max" (x ++ "RiscVMax"), rrr "maxu" (x ++ "RiscVMaxu"), rrr "min" (x ++ "RiscVMin"),
    rrr "minu" (x ++ "RiscVMinu"), rr "sext_b" (x ++ "RiscVSextB"), rr "sext_h" (x ++ "RiscVSextH"),
    rr "zext_h" (x ++ "RiscVZextH"), rrr "rol" (x ++ "RiscVRol"), rrr "ror" (x ++ "RiscVRor"),
    rr "orcb" (x ++ "RiscVOrcb"), rr "rev8" (x ++ "RiscVRev8") ]

/-- The word forms; bit 5 of the immediate of `roriw` is 0 in every word decoded
as one (C71). -/
def zbbW : List Row :=
  [ rr "clzw" "RV64::RiscVClzw", rr "ctzw" "RV64::RiscVCtzw", rr "cpopw" "RV64::RiscVCpopw",
    rrr "rolw" "RV64::RiscVRolw", rri "roriw" "RV64::RiscVRorw" .RUimm6,
    rrr "rorw" "RV64::RiscVRorw" ]

def zbbImm (x : String) (u : Opd) : List Row := [rri "rori" (x ++ "RiscVRor") u]

def zbc (x : String) : List Row :=
  [ rrr "clmul" (x ++ "RiscVClmul"), rrr "clmulh" (x ++ "RiscVClmulh"),
    rrr "clmulr" (x ++ "RiscVClmulr") ]

def zbs (x : String) : List Row :=
  [ rrr "bclr" (x ++ "RiscVBclr"), rrr "bext" (x ++ "RiscVBext"), rrr "binv" (x ++ "RiscVBinv"),
    rrr "bset" (x ++ "RiscVBset") ]

def zbsImm (x : String) (u : Opd) : List Row :=
  [ rri "bclri" (x ++ "RiscVBclr") u, rri "bexti" (x ++ "RiscVBext") u,
    rri "binvi" (x ++ "RiscVBinv") u, rri "bseti" (x ++ "RiscVBset") u ]

def zicond (x : String) : List Row :=
  [rrr "czero_eqz" (x ++ "RiscVCzeroEqz"), rrr "czero_nez" (x ++ "RiscVCzeroNez")]

/-! ## Compressed instructions

Each has the function of the instruction it abbreviates (C extension, section
"expands to"). -/

/-- C of RV32. -/
def c32 : List Row :=
  [ ld "clwsp" "RV32::RiscVILw" "RV32::RiscVILwChild" .X2 .ICiUimm6x4 .Rd,
    ld "cflwsp" "RV32::RiscVILw" "RiscVIFlwChild" .X2 .ICiUimm6x4 .Frd,
    ld "cfldsp" "RV32::RiscVILd" "RV64::RiscVILdChild" .X2 .ICiUimm6x8 .Drd,
    st "cswsp" "RV32::RiscVISw" .X2 .ICssUimm6x4 .Crs2,
    st "cfswsp" "RV32::RiscVFSw" .X2 .ICssUimm6x4 .Cfrs2,
    st "cfsdsp" "RV32::RiscVDSd" .X2 .ICssUimm6x8 .Cdrs2,
    ld "clw" "RV32::RiscVILw" "RV32::RiscVILwChild" .C3rs1 .IClUimm5x4 .C3rd,
    ld "cflw" "RV32::RiscVILw" "RiscVIFlwChild" .C3rs1 .IClUimm5x4 .C3frd,
    ld "cfld" "RV32::RiscVILd" "RV64::RiscVILdChild" .C3rs1 .IClUimm5x8 .C3drd,
    st "csw" "RV32::RiscVISw" .C3rs1 .IClUimm5x4 .C3rs2,
    st "cfsw" "RV32::RiscVFSw" .C3rs1 .IClUimm5x4 .C3frs2,
    st "cfsd" "RV32::RiscVDSd" .C3rs1 .IClUimm5x8 .C3drs2,
    one "cj" [.ICjImm11, .X0] [.NextPc, .X0] "RV32::RiscVIJal",
    one "cjal" [.ICjImm11, .X0] [.NextPc, .X1] "RV32::RiscVIJal",
    one "cjr" [.Crs1, .X0] [.NextPc, .X0] "RV32::RiscVIJalr",
    one "cjalr" [.Crs1, .X0] [.NextPc, .X1] "RV32::RiscVIJalr",
    one "cbeqz" [.C3rs1, .X0, .ICbImm8] [.NextPc] "RV32::RiscVIBeq",
    one "cbnez" [.C3rs1, .X0, .ICbImm8] [.NextPc] "RV32::RiscVIBne",
    one "cli" [.X0, .ICiImm6] [.Rd] "RV32::RiscVIAdd",
    one "clui" [.ICiImm612] [.Rd] "RV32::RiscVILui",
    one "caddi" [.Rd, .ICiImm6] [.Rd] "RV32::RiscVIAdd",
    one "caddi16sp" [.X2, .ICiImm6x16] [.X2] "RV32::RiscVIAdd",
    one "caddi4spn" [.X2, .ICiwUimm8x4] [.C3rd] "RV32::RiscVIAdd",
    one "cslli" [.Rd, .ICiUimm6] [.Rd] "RV32::RiscVISll",
    one "csrli" [.C3rs1, .ICiUimm6] [.C3rs1] "RV32::RiscVISrl",
    one "csrai" [.C3rs1, .ICiUimm6] [.C3rs1] "RV32::RiscVISra",
    one "candi" [.C3rs1, .ICiImm6] [.C3rs1] "RV32::RiscVIAnd",
    one "cmv" [.Crs2, .X0] [.Rd] "RV32::RiscVIAdd",
    one "cadd" [.Crs2, .Rd] [.Rd] "RV32::RiscVIAdd",
    one "cand" [.C3rs1, .C3rs2] [.C3rs1] "RV32::RiscVIAnd",
    one "cor" [.C3rs1, .C3rs2] [.C3rs1] "RV32::RiscVIOr",
    one "cxor" [.C3rs1, .C3rs2] [.C3rs1] "RV32::RiscVIXor",
    one "csub" [.C3rs1, .C3rs2] [.C3rs1] "RV32::RiscVISub",
    none' "cnop" "RiscVINop", none' "cebreak" "RiscVIEbreak", none' "cunimp" "RiscVIUnimplemented" ]

/-- C of RV64. -/
def c64 : List Row :=
  [ ld "clwsp" "RV64::RiscVILw" "RV64::RiscVILwChild" .X2 .ICiUimm6x4 .Rd,
    ld "cldsp" "RV64::RiscVILd" "RV64::RiscVILdChild" .X2 .ICiUimm6x8 .Rd,
    ld "cfldsp" "RV64::RiscVILd" "RV64::RiscVILdChild" .X2 .ICiUimm6x8 .Drd,
    st "cswsp" "RV64::RiscVISw" .X2 .ICssUimm6x4 .Crs2,
    st "csdsp" "RV64::RiscVISd" .X2 .ICssUimm6x8 .Crs2,
    st "cfsdsp" "RV64::RiscVDSd" .X2 .ICssUimm6x8 .Cdrs2,
    ld "clw" "RV64::RiscVILw" "RV64::RiscVILwChild" .C3rs1 .IClUimm5x4 .C3rd,
    ld "cld" "RV64::RiscVILd" "RV64::RiscVILdChild" .C3rs1 .IClUimm5x8 .C3rd,
    ld "cfld" "RV64::RiscVILd" "RV64::RiscVILdChild" .C3rs1 .IClUimm5x8 .C3drd,
    st "csw" "RV64::RiscVISw" .C3rs1 .IClUimm5x4 .C3rs2,
    st "csd" "RV64::RiscVISd" .C3rs1 .IClUimm5x8 .C3rs2,
    st "cfsd" "RV64::RiscVDSd" .C3rs1 .IClUimm5x8 .C3drs2,
    one "cj" [.ICjImm11, .X0] [.NextPc, .X0] "RV64::RiscVIJal",
    one "cjr" [.Crs1, .X0] [.NextPc, .X0] "RV64::RiscVIJalr",
    one "cjalr" [.Crs1, .X0] [.NextPc, .X1] "RV64::RiscVIJalr",
    one "cbeqz" [.C3rs1, .X0, .ICbImm8] [.NextPc] "RV64::RiscVIBeq",
    one "cbnez" [.C3rs1, .X0, .ICbImm8] [.NextPc] "RV64::RiscVIBne",
    one "cli" [.X0, .ICiImm6] [.Rd] "RV64::RiscVIAdd",
    one "clui" [.ICiImm612] [.Rd] "RV64::RiscVILui",
    one "caddi" [.Rd, .ICiImm6] [.Rd] "RV64::RiscVIAdd",
    one "caddiw" [.Rd, .ICiImm6] [.Rd] "RV64::RiscVIAddw",
    one "caddi16sp" [.X2, .ICiImm6x16] [.X2] "RV64::RiscVIAdd",
    one "caddi4spn" [.X2, .ICiwUimm8x4] [.C3rd] "RV64::RiscVIAdd",
    one "cslli" [.Rd, .ICiUimm6] [.Rd] "RV64::RiscVISll",
    one "csrli" [.C3rs1, .ICiUimm6] [.C3rs1] "RV64::RiscVISrl",
    one "csrai" [.C3rs1, .ICiUimm6] [.C3rs1] "RV64::RiscVISra",
    one "candi" [.C3rs1, .ICiImm6] [.C3rs1] "RV64::RiscVIAnd",
    one "cmv" [.Crs2, .X0] [.Rd] "RV64::RiscVIAdd",
    one "cadd" [.Crs2, .Rd] [.Rd] "RV64::RiscVIAdd",
    one "cand" [.C3rs1, .C3rs2] [.C3rs1] "RV64::RiscVIAnd",
    one "cor" [.C3rs1, .C3rs2] [.C3rs1] "RV64::RiscVIOr",
    one "cxor" [.C3rs1, .C3rs2] [.C3rs1] "RV64::RiscVIXor",
    one "csub" [.C3rs1, .C3rs2] [.C3rs1] "RV64::RiscVISub",
    one "caddw" [.C3rs1, .C3rs2] [.C3rs1] "RV64::RiscVIAddw",
    one "csubw" [.C3rs1, .C3rs2] [.C3rs1] "RV64::RiscVISubw",
    none' "cnop" "RiscVINop", none' "cebreak" "RiscVIEbreak", none' "cunimp" "RiscVIUnimplemented" ]

/-- Zca: c.mv and c.add with the register in the upper field, which this
description calls `crd`. -/
def zca (x : String) : List Row :=
  let o (n : String) (s d : List Opd) (f : String) : Row := one n s d (x ++ f)
  [ ld "clwsp" (x ++ "RiscVILw") (x ++ "RiscVILwChild") .X2 .ICiUimm6x4 .Rd,
    st "cswsp" (x ++ "RiscVISw") .X2 .ICssUimm6x4 .Crs2,
    ld "clw" (x ++ "RiscVILw") (x ++ "RiscVILwChild") .C3rs1 .IClUimm5x4 .C3rd,
    st "csw" (x ++ "RiscVISw") .C3rs1 .IClUimm5x4 .C3rs2,
    o "cj" [.ICjImm11, .X0] [.NextPc, .X0] "RiscVIJal",
    o "cjal" [.ICjImm11, .X0] [.NextPc, .X1] "RiscVIJal",
    o "cjr" [.Crs1, .X0] [.NextPc, .X0] "RiscVIJalr",
    o "cjalr" [.Crs1, .X0] [.NextPc, .X1] "RiscVIJalr",
    o "cbeqz" [.C3rs1, .X0, .ICbImm8] [.NextPc] "RiscVIBeq",
    o "cbnez" [.C3rs1, .X0, .ICbImm8] [.NextPc] "RiscVIBne",
    o "cli" [.X0, .ICiImm6] [.Rd] "RiscVIAdd",
    o "clui" [.ICiImm612] [.Rd] "RiscVILui",
    o "caddi" [.Rd, .ICiImm6] [.Rd] "RiscVIAdd",
    o "caddi16sp" [.X2, .ICiImm6x16] [.X2] "RiscVIAdd",
    o "caddi4spn" [.X2, .ICiwUimm8x4] [.C3rd] "RiscVIAdd",
    o "cslli" [.Rd, .ICiUimm6] [.Rd] "RiscVISll",
    o "csrli" [.C3rs1, .ICiUimm6] [.C3rs1] "RiscVISrl",
    o "csrai" [.C3rs1, .ICiUimm6] [.C3rs1] "RiscVISra",
    o "candi" [.C3rs1, .ICiImm6] [.C3rs1] "RiscVIAnd",
    o "cmv" [.Crs2, .X0] [.Crd] "RiscVIAdd",
    o "cadd" [.Crs2, .Crd] [.Crd] "RiscVIAdd",
    o "cand" [.C3rs1, .C3rs2] [.C3rs1] "RiscVIAnd",
    o "cor" [.C3rs1, .C3rs2] [.C3rs1] "RiscVIOr",
    o "cxor" [.C3rs1, .C3rs2] [.C3rs1] "RiscVIXor",
    o "csub" [.C3rs1, .C3rs2] [.C3rs1] "RiscVISub",
    none' "cnop" "RiscVINop", none' "cebreak" "RiscVIEbreak" ]

/-- Zcb: the loads write the register named in the lower field; the extensions,
c.not and c.mul write their first source. -/
def zcb32 : List Row :=
  [ ld "c_lbu" "RV32::RiscVILbu" "RV32::RiscVILbuChild" .C3rs1 .Uimm2b .C3rs2,
    ld "c_lhu" "RV32::RiscVILhu" "RV32::RiscVILhuChild" .C3rs1 .Uimm2h .C3rs2,
    ld "c_lh" "RV32::RiscVILh" "RV32::RiscVILhChild" .C3rs1 .Uimm2h .C3rs2,
    st "c_sb" "RV32::RiscVISb" .C3rs1 .Uimm2b .C3rs2, st "c_sh" "RV32::RiscVISh" .C3rs1 .Uimm2h .C3rs2,
    one "c_zext_b" [.C3rs1] [.C3rs1] "RV32::RiscVZextB",
    one "c_sext_b" [.C3rs1] [.C3rs1] "RV32::RiscVSextB",
    one "c_zext_h" [.C3rs1] [.C3rs1] "RV32::RiscVZextH",
    one "c_sext_h" [.C3rs1] [.C3rs1] "RV32::RiscVSextH",
    one "c_not" [.C3rs1] [.C3rs1] "RV32::RiscVNot",
    one "c_mul" [.C3rs1, .C3rs2] [.C3rs1] "RV32::MMul" ]

def zcf32 : List Row :=
  [ ld "cflwsp" "RV32::RiscVILw" "RiscVIFlwChild" .X2 .ICiUimm6x4 .Frd,
    st "cfswsp" "RV32::RiscVFSw" .X2 .ICssUimm6x4 .Cfrs2,
    ld "cflw" "RV32::RiscVILw" "RiscVIFlwChild" .C3rs1 .IClUimm5x4 .C3frd,
    st "cfsw" "RV32::RiscVFSw" .C3rs1 .IClUimm5x4 .C3frs2 ]

def zcd32 : List Row :=
  [ ld "cfldsp" "RV32::RiscVILd" "RV64::RiscVILdChild" .X2 .ICiUimm6x8 .Drd,
    st "cfsdsp" "RV32::RiscVDSd" .X2 .ICssUimm6x8 .Cdrs2,
    ld "cfld" "RV32::RiscVILd" "RV64::RiscVILdChild" .C3rs1 .IClUimm5x8 .C3drd,
    st "cfsd" "RV32::RiscVDSd" .C3rs1 .IClUimm5x8 .C3drs2 ]

/-! ## Vector instructions -/

/-- The second operand of a form of the assembly syntax. -/
inductive Form where
  /-- vector register -/
  | vv
  /-- integer register -/
  | vx
  /-- floating-point register -/
  | vf
  /-- sign-extended immediate -/
  | vi
  /-- zero-extended immediate: shift amounts, slide offsets, gather indices -/
  | vu
  deriving DecidableEq

def Form.opd : Form → Opd
  | .vv => .Vs1 | .vx => .Rs1 | .vf => .Fs1 | .vi => .Simm5 | .vu => .Uimm5

def Form.suffix : Form → String
  | .vv => "_vv" | .vx => "_vx" | .vf => "_vf" | .vi => "_vi" | .vu => "_vi"

/-- `op vd, vs2, x, vm` -/
def bin (n f : String) (fs : List Form) : List Row :=
  fs.map fun m => one (n ++ m.suffix) [.Vs2, m.opd, .Vmask] [.Vd] f

/-- `op vd, x, vs2, vm`, which also reads vd -/
def mac (n f : String) (fs : List Form) : List Row :=
  fs.map fun m => one (n ++ m.suffix) [.Vs2, m.opd, .Vd, .Vmask] [.Vd] f

/-- carry-out: the mask is the carry, `vm` tells if there is one -/
def carry (n f : String) (fs : List Form) : List Row :=
  fs.map fun m => one (n ++ m.suffix) [.Vs2, m.opd, .Vmask, .Vm] [.Vd] f

/-- moves are merges under a mask of ones -/
def mov (n f : String) (fs : List Form) : List Row :=
  fs.map fun m => one (n ++ m.suffix) [.Vs2, m.opd, .VmaskTrue] [.Vd] f

/-- no mask operand -/
def plain (n f : String) : List Row := [one n [.Vs2, .Vs1] [.Vd] f]

/-- `op vd, vs2, vm` -/
def un (n f : String) : List Row := [one n [.Vs2, .Vmask] [.Vd] f]

/-- `op rd, vs2, vm` -/
def toX (n f : String) : List Row := [one n [.Vs2, .Vmask] [.Rd] f]

/-- The four element widths: bits as a suffix, bytes, and the constant operand. -/
def widths : List (String × Nat × Opd) :=
  [("8", 1, .Const1), ("16", 2, .Const2), ("32", 4, .Const4), ("64", 8, .Const8)]

/-- A load: address operands, function; the write-back part. -/
def vld (n : String) (s : List Opd) (f : String) (a : List Nat) : Row :=
  .does n [⟨s, [], f, a⟩, ⟨[], [.Vd], "VlChild", []⟩]

def vlseg (n : String) (s : List Opd) (f : String) (b : Nat) : Row :=
  .does n [⟨s, [], f, [b]⟩, ⟨[.Nf], [.Vd], "VlSegmentChild", [b]⟩]

def vst (n : String) (s : List Opd) (f : String) (a : List Nat) : Row := .does n [⟨s, [], f, a⟩]

def vcfg : List Row :=
  let o (n : String) (s : List Opd) (a : List Nat) : Row := .does n [⟨s, [.Rd], "Vsetvl", a⟩]
  [ o "vsetvli_xn" [.Rs1, .Zimm11] [0, 0], o "vsetvli_nz" [.Rs1, .Zimm11] [0, 1],
    o "vsetvli_zz" [.Rs1, .Zimm11] [1, 1], o "vsetivli" [.Uimm5, .Zimm10] [0, 0],
    o "vsetvl_xn" [.Rs1, .Rs2] [0, 0], o "vsetvl_nz" [.Rs1, .Rs2] [0, 1],
    o "vsetvl_zz" [.Rs1, .Rs2] [1, 1] ]

def vloads (ws : List (String × Nat × Opd)) : List Row :=
  ws.map (fun (n, b, k) => vld ("vle" ++ n) [.Rs1, k, .Vmask] "VlStrided" [b]) ++
  ws.map (fun (n, b, k) => vld ("vle" ++ n ++ "_vm1") [.Rs1, k, .VmaskTrue] "VlStrided" [b]) ++
  ws.map (fun (n, b, _) => vld ("vlse" ++ n) [.Rs1, .Rs2, .Vmask] "VlStrided" [b]) ++
  [vld "vlm" [.Rs1, .Const1, .VmaskTrue] "Vlm" []] ++
  ws.map (fun (n, b, k) => vld ("vle" ++ n ++ "ff") [.Rs1, k, .Vmask] "VlStrided" [b]) ++
  [("vl1re", 1), ("vl2re", 2), ("vl4re", 4), ("vl8re", 8)].flatMap (fun (m, r) =>
    ws.map fun (n, b, _) => vld (m ++ n) [.Rs1] "VlRegister" [r, b]) ++
  ["vluxei", "vloxei"].flatMap (fun m =>
    ws.map fun (n, b, _) => vld (m ++ n) [.Rs1, .Vs2, .Vmask] "VlIndexed" [b]) ++
  ws.map (fun (n, b, _) => vlseg ("vlsege" ++ n) [.Rs1, .Vmask, .Nf] "VlSegment" b) ++
  ws.map (fun (n, b, _) => vlseg ("vlssege" ++ n) [.Rs1, .Rs2, .Vmask, .Nf] "VlSegmentStrided" b) ++
  ["vluxsegei", "vloxsegei"].flatMap (fun m =>
    ws.map fun (n, b, _) => vlseg (m ++ n) [.Rs1, .Vs2, .Vmask, .Nf] "VlSegmentIndexed" b)

def vstores (ws : List (String × Nat × Opd)) : List Row :=
  ws.map (fun (n, b, k) => vst ("vse" ++ n) [.Vs3, .Rs1, k, .Vmask] "VsStrided" [b]) ++
  [vst "vsm" [.Vs3, .Rs1, .Const1, .VmaskTrue] "Vsm" []] ++
  ws.map (fun (n, b, k) => vst ("vse" ++ n ++ "ff") [.Vs3, .Rs1, k, .Vmask] "VsStrided" [b]) ++
  [("vs1re", 1), ("vs2re", 2), ("vs4re", 4), ("vs8re", 8)].flatMap (fun (m, r) =>
    ws.map fun (n, _, _) => vst (m ++ n) [.Vs3, .Rs1] "VsRegister" [r]) ++
  ws.map (fun (n, b, _) => vst ("vsse" ++ n) [.Vs3, .Rs1, .Rs2, .Vmask] "VsStrided" [b]) ++
  ["vsuxei", "vsoxei"].flatMap (fun m =>
    ws.map fun (n, b, _) => vst (m ++ n) [.Vs3, .Rs1, .Vs2, .Vmask] "VsIndexed" [b]) ++
  ws.map (fun (n, b, _) => vst ("vssege" ++ n) [.Vs3, .Rs1, .Vmask, .Nf] "VsSegment" [b]) ++
  ws.map (fun (n, b, _) =>
    vst ("vsssege" ++ n) [.Vs3, .Rs1, .Rs2, .Vmask, .Nf] "VsSegmentStrided" [b]) ++
  ["vsuxsegei", "vsoxsegei"].flatMap (fun m =>
    ws.map fun (n, b, _) => vst (m ++ n) [.Vs3, .Rs1, .Vs2, .Vmask, .Nf] "VsSegmentIndexed" [b])

/-- Integer, fixed-point, reduction, mask and permutation instructions, up to
the widening multiply-adds. -/
def vint : List Row :=
  bin "vadd" "Vadd" [.vv, .vx, .vi] ++ bin "vsub" "Vsub" [.vv, .vx] ++
  bin "vrsub" "Vrsub" [.vx, .vi] ++
  bin "vminu" "Vminu" [.vv, .vx] ++ bin "vmin" "Vmin" [.vv, .vx] ++
  bin "vmaxu" "Vmaxu" [.vv, .vx] ++ bin "vmax" "Vmax" [.vv, .vx] ++
  bin "vand" "Vand" [.vv, .vx, .vi] ++ bin "vor" "Vor" [.vv, .vx, .vi] ++
  bin "vxor" "Vxor" [.vv, .vx, .vi] ++
  bin "vrgather" "Vrgather" [.vv, .vx, .vu] ++ bin "vrgatherei16" "Vrgatherei16" [.vv] ++
  bin "vslideup" "Vslideup" [.vx, .vu] ++ bin "vslidedown" "Vslidedown" [.vx, .vu] ++
  bin "vadc" "Vadc" [.vv, .vx, .vi] ++ carry "vmadc" "Vmadc" [.vv, .vx, .vi] ++
  bin "vsbc" "Vsbc" [.vv, .vx] ++ carry "vmsbc" "Vmsbc" [.vv, .vx] ++
  bin "vmerge" "Vmerge" [.vv, .vx, .vi] ++ mov "vmv" "Vmerge" [.vv, .vx, .vi] ++
  bin "vmseq" "Vmseq" [.vv, .vx, .vi] ++ bin "vmsne" "Vmsne" [.vv, .vx, .vi] ++
  bin "vmsltu" "Vmsltu" [.vv, .vx] ++ bin "vmslt" "Vmslt" [.vv, .vx] ++
  bin "vmsleu" "Vmsleu" [.vv, .vx, .vi] ++ bin "vmsle" "Vmsle" [.vv, .vx, .vi] ++
  bin "vmsgtu" "Vmsgtu" [.vx, .vi] ++ bin "vmsgt" "Vmsgt" [.vx, .vi] ++
  bin "vsaddu" "Vsaddu" [.vv, .vx, .vi] ++ bin "vsadd" "Vsadd" [.vv, .vx, .vi] ++
  bin "vssubu" "Vssubu" [.vv, .vx] ++ bin "vssub" "Vssub" [.vv, .vx] ++
  bin "vsll" "Vsll" [.vv, .vx, .vu] ++ bin "vsmul" "Vsmul" [.vv, .vx] ++
  [("vmv1r_vi", 1), ("vmv2r_vi", 2), ("vmv4r_vi", 4), ("vmv8r_vi", 8)].map
    (fun (n, k) => Row.does n [⟨[.Vs2], [.Vd], "Vmvr", [k]⟩]) ++
  bin "vsrl" "Vsrl" [.vv, .vx, .vu] ++ bin "vsra" "Vsra" [.vv, .vx, .vu] ++
  bin "vssrl" "Vssrl" [.vv, .vx, .vu] ++ bin "vssra" "Vssra" [.vv, .vx, .vu] ++
  bin "vnsrl" "Vnsrl" [.vv, .vx, .vu] ++ bin "vnsra" "Vnsra" [.vv, .vx, .vu] ++
  bin "vnclipu" "Vnclipu" [.vv, .vx, .vu] ++ bin "vnclip" "Vnclip" [.vv, .vx, .vu] ++
  bin "vwredsumu" "Vwredsumu" [.vv] ++ bin "vwredsum" "Vwredsum" [.vv] ++
  bin "vredsum" "Vredsum" [.vv] ++ bin "vredand" "Vredand" [.vv] ++ bin "vredor" "Vredor" [.vv] ++
  bin "vredxor" "Vredxor" [.vv] ++ bin "vredminu" "Vredminu" [.vv] ++
  bin "vredmin" "Vredmin" [.vv] ++ bin "vredmaxu" "Vredmaxu" [.vv] ++
  bin "vredmax" "Vredmax" [.vv] ++
  bin "vaaddu" "Vaaddu" [.vv, .vx] ++ bin "vaadd" "Vaadd" [.vv, .vx] ++
  bin "vasubu" "Vasubu" [.vv, .vx] ++ bin "vasub" "Vasub" [.vv, .vx] ++
  bin "vslide1up" "Vslide1up" [.vx] ++ bin "vslide1down" "Vslide1down" [.vx] ++
  plain "vcompress_vv" "Vcompress" ++ plain "vmandnot_vv" "Vmandnot" ++ plain "vmand_vv" "Vmand" ++
  plain "vmor_vv" "Vmor" ++ plain "vmxor_vv" "Vmxor" ++ plain "vmornot_vv" "Vmornot" ++
  plain "vmnand_vv" "Vmnand" ++ plain "vmnor_vv" "Vmnor" ++ plain "vmxnor_vv" "Vmxnor" ++
  bin "vdivu" "Vdivu" [.vv, .vx] ++ bin "vdiv" "Vdiv" [.vv, .vx] ++
  bin "vremu" "Vremu" [.vv, .vx] ++ bin "vrem" "Vrem" [.vv, .vx] ++
  bin "vmulhu" "Vmulhu" [.vv, .vx] ++ bin "vmul" "Vmul" [.vv, .vx] ++
  bin "vmulhsu" "Vmulhsu" [.vv, .vx] ++ bin "vmulh" "Vmulh" [.vv, .vx] ++
  mac "vmadd" "Vmadd" [.vv, .vx] ++ mac "vnmsub" "Vnmsub" [.vv, .vx] ++
  mac "vmacc" "Vmacc" [.vv, .vx] ++ mac "vnmsac" "Vnmsac" [.vv, .vx] ++
  bin "vwaddu" "Vwaddu" [.vv, .vx] ++ bin "vwadd" "Vwadd" [.vv, .vx] ++
  bin "vwsubu" "Vwsubu" [.vv, .vx] ++ bin "vwsub" "Vwsub" [.vv, .vx] ++
  bin "vwaddu_w" "Vwadduw" [.vv, .vx] ++ bin "vwadd_w" "Vwaddw" [.vv, .vx] ++
  bin "vwsubu_w" "Vwsubuw" [.vv, .vx] ++ bin "vwsub_w" "Vwsubw" [.vv, .vx] ++
  bin "vwmulu" "Vwmulu" [.vv, .vx] ++ bin "vwmulsu" "Vwmulsu" [.vv, .vx] ++
  bin "vwmul" "Vwmul" [.vv, .vx] ++
  mac "vwmaccu" "Vwmaccu" [.vv, .vx] ++ mac "vwmacc" "Vwmacc" [.vv, .vx] ++
  mac "vwmaccus" "Vwmaccus" [.vv, .vx] ++ mac "vwmaccsu" "Vwmaccsu" [.vv, .vx]

/-- Floating-point instructions with two operands or more.  An unordered sum may
be computed in element order. -/
def vfp : List Row :=
  bin "vfadd" "Vfadd" [.vv, .vf] ++ bin "vfredusum" "Vfredosum" [.vv] ++
  bin "vfsub" "Vfsub" [.vv, .vf] ++ bin "vfredosum" "Vfredosum" [.vv] ++
  bin "vfmin" "Vfmin" [.vv, .vf] ++ bin "vfredmin" "Vfredmin" [.vv] ++
  bin "vfmax" "Vfmax" [.vv, .vf] ++ bin "vfredmax" "Vfredmax" [.vv] ++
  bin "vfsgnj" "Vfsgnj" [.vv, .vf] ++ bin "vfsgnjn" "Vfsgnjn" [.vv, .vf] ++
  bin "vfsgnjx" "Vfsgnjx" [.vv, .vf] ++
  bin "vfslide1up" "Vfslide1up" [.vf] ++ bin "vfslide1down" "Vfslide1down" [.vf] ++
  [one "vfmv_vf" [.Fs1, .Vmask] [.Vd] "Vfmvvf"] ++ bin "vfmerge" "Vfmerge" [.vf] ++
  bin "vmfeq" "Vmfeq" [.vv, .vf] ++ bin "vmfle" "Vmfle" [.vv, .vf] ++
  bin "vmflt" "Vmflt" [.vv, .vf] ++ bin "vmfne" "Vmfne" [.vv, .vf] ++
  bin "vmfgt" "Vmfgt" [.vf] ++ bin "vmfge" "Vmfge" [.vf] ++
  bin "vfdiv" "Vfdiv" [.vv, .vf] ++ bin "vfrdiv" "Vfrdiv" [.vf] ++
  bin "vfmul" "Vfmul" [.vv, .vf] ++ bin "vfrsub" "Vfrsub" [.vf] ++
  mac "vfmadd" "Vfmadd" [.vv, .vf] ++ mac "vfnmadd" "Vfnmadd" [.vv, .vf] ++
  mac "vfmsub" "Vfmsub" [.vv, .vf] ++ mac "vfnmsub" "Vfnmsub" [.vv, .vf] ++
  mac "vfmacc" "Vfmacc" [.vv, .vf] ++ mac "vfnmacc" "Vfnmacc" [.vv, .vf] ++
  mac "vfmsac" "Vfmsac" [.vv, .vf] ++ mac "vfnmsac" "Vfnmsac" [.vv, .vf] ++
  bin "vfwadd" "Vfwadd" [.vv, .vf] ++ bin "vfwredusum" "Vfwredosum" [.vv] ++
  bin "vfwsub" "Vfwsub" [.vv, .vf] ++ bin "vfwredosum" "Vfwredosum" [.vv] ++
  bin "vfwadd_w" "Vfwaddw" [.vv, .vf] ++ bin "vfwsub_w" "Vfwsubw" [.vv, .vf] ++
  bin "vfwmul" "Vfwmul" [.vv, .vf] ++
  mac "vfwmacc" "Vfwmacc" [.vv, .vf] ++ mac "vfwnmacc" "Vfwnmacc" [.vv, .vf] ++
  mac "vfwmsac" "Vfwmsac" [.vv, .vf] ++ mac "vfwnmsac" "Vfwnmsac" [.vv, .vf]

def vscalar : List Row :=
  [one "vmv_x_s" [.Vs2] [.Rd] "VmvToScalar"] ++ toX "vcpop" "Vcpop" ++ toX "vfirst" "Vfirst" ++
  [one "vmv_s_x" [.Rs1] [.Vd] "VmvFromScalar"] ++
  un "vzext_vf8" "Vzext8" ++ un "vsext_vf8" "Vsext8" ++ un "vzext_vf4" "Vzext4" ++
  un "vsext_vf4" "Vsext4" ++ un "vzext_vf2" "Vzext2" ++ un "vsext_vf2" "Vsext2"

/-- Floating-point moves, conversions and instructions with one operand. -/
def vfun : List Row :=
  [one "vfmv_f_s" [.Vs2] [.Fd] "Vfmvfs", one "vfmv_s_f" [.Fs1] [.Vd] "Vfmvsf"] ++
  un "vfcvt_xu_f_v" "Vfcvtxufv" ++ un "vfcvt_x_f_v" "Vfcvtxfv" ++
  un "vfcvt_f_xu_v" "Vfcvtfxuv" ++ un "vfcvt_f_x_v" "Vfcvtfxv" ++
  un "vfcvt_rtz_xu_f_v" "Vfcvtrtzxufv" ++ un "vfcvt_rtz_x_f_v" "Vfcvtrtzxfv" ++
  un "vfwcvt_xu_f_v" "Vfwcvtxufv" ++ un "vfwcvt_x_f_v" "Vfwcvtxfv" ++
  un "vfwcvt_f_xu_v" "Vfwcvtfxuv" ++ un "vfwcvt_f_x_v" "Vfwcvtfxv" ++
  un "vfwcvt_f_f_v" "Vfwcvtffv" ++
  un "vfwcvt_rtz_xu_f_v" "Vfwcvtrtzxufv" ++ un "vfwcvt_rtz_x_f_v" "Vfwcvtrtzxfv" ++
  un "vfncvt_xu_f_w" "Vfncvtxufw" ++ un "vfncvt_x_f_w" "Vfncvtxfw" ++
  un "vfncvt_f_xu_w" "Vfncvtfxuw" ++ un "vfncvt_f_x_w" "Vfncvtfxw" ++
  un "vfncvt_f_f_w" "Vfncvtffw" ++ un "vfncvt_rod_f_f_w" "Vfncvtrodffw" ++
  un "vfncvt_rtz_xu_f_w" "Vfncvtrtzxufw" ++ un "vfncvt_rtz_x_f_w" "Vfncvtrtzxfw" ++
  un "vfsqrt_v" "Vfsqrtv" ++ un "vfrsqrt7_v" "Vfrsqrt7v" ++ un "vfrec7_v" "Vfrec7v" ++
  un "vfclass_v" "Vfclassv"

def vmask : List Row :=
  un "vmsbf" "Vmsbf" ++ un "vmsof" "Vmsof" ++ un "vmsif" "Vmsif" ++ un "viota" "Viota" ++
  [one "vid" [.Vmask] [.Vd] "Vid"]

def vector : List Row :=
  vcfg ++ vloads widths ++ vstores widths ++ vint ++ vfp ++ vscalar ++ vfun ++ vmask

/-- Zve32x: elements of at most 32 bits, no floating point. -/
def zve32x : List Row :=
  vcfg ++ vloads (widths.take 3) ++ vstores (widths.take 3) ++ vint ++ vscalar ++ vmask

/-- Zvbb; `vror.vi` has an immediate of six bits. -/
def zvbb : List Row :=
  bin "vandn" "Vandn" [.vv, .vx] ++ un "vbrev8_v" "Vbrev8" ++ un "vrev8_v" "Vrev8" ++
  bin "vrol" "Vrol" [.vv, .vx] ++ bin "vror" "Vror" [.vv, .vx] ++
  [one "vror_vi" [.Vs2, .Uimm6, .Vmask] [.Vd] "Vror"] ++
  un "vbrev_v" "Vbrev" ++ un "vclz_v" "Vclz" ++ un "vctz_v" "Vctz" ++
  un "vcpop_v" "VectorVcpop" ++ bin "vwsll" "Vwsll" [.vv, .vx, .vu]

/-! ## The groups of the descriptions -/

/-- A slot of the `.isa` files. -/
inductive Group where
  | i32 | c32 | chints32 | m32 | a32 | f32 | d32 | hints32 | zicsr32 | zfencei32 | privileged32
  | zba32 | zbb32 | zbbImm32 | zbc32 | zbs32 | zbsImm32 | zicond32 | zfh32
  | i64 | c64 | chints64 | m64 | a64 | f64 | d64 | hints64 | zicsr64 | zfencei64 | privileged64
  | zba64 | zbb64 | zbbImm64 | zbc64 | zbs64 | zbsImm64 | zicond64 | zfh64
  | zca32 | zcb32 | zcf32 | zcd32 | zca64
  | vector | zve32x | zvbb

def Group.rows : Group → List Row
  | .i32 => Spec.i32 | .c32 => Spec.c32 | .chints32 => chints | .m32 => Spec.m32
  | .a32 => Spec.a32 | .f32 => Spec.f32 | .d32 => Spec.d32 | .hints32 => hints
  | .zicsr32 => zicsr "RV32::" ++ [none' "unimp" "RiscVIUnimplemented"]
  | .zfencei32 => zfencei | .privileged32 => privileged "RV32::"
  | .zba32 => zba "RV32::" | .zbb32 => zbb "RV32::" | .zbbImm32 => zbbImm "RV32::" .RUimm5
  | .zbc32 => zbc "RV32::" | .zbs32 => zbs "RV32::" | .zbsImm32 => zbsImm "RV32::" .RUimm5
  | .zicond32 => zicond "RV32::" | .zfh32 => zfh "RV32::"
  | .i64 => Spec.i64 | .c64 => Spec.c64 | .chints64 => chints | .m64 => Spec.m64
  | .a64 => Spec.a64 | .f64 => Spec.f64 | .d64 => Spec.d64 | .hints64 => hints
  | .zicsr64 => zicsr "RV64::" | .zfencei64 => zfencei | .privileged64 => privileged "RV64::"
  | .zba64 => zba "RV64::" ++ zbaUw | .zbb64 => zbb "RV64::" ++ zbbW
  | .zbbImm64 => zbbImm "RV64::" .RUimm6
  | .zbc64 => zbc "RV64::" | .zbs64 => zbs "RV64::" | .zbsImm64 => zbsImm "RV64::" .RUimm6
  | .zicond64 => zicond "RV64::" | .zfh64 => zfh "RV64::" ++ zfhL
  | .zca32 => zca "RV32::" | .zcb32 => Spec.zcb32 | .zcf32 => Spec.zcf32 | .zcd32 => Spec.zcd32
  | .zca64 => zca "RV64::"
  | .vector => Spec.vector | .zve32x => Spec.zve32x | .zvbb => Spec.zvbb

/-- The instructions found not to be described as their row says. -/
def Group.wrong : Group → List String
  | .c32 => ["cflwsp", "cfldsp", "cfswsp", "cfsdsp", "cflw", "cfld", "cfsw"]
  | .zcf32 => ["cflwsp", "cfswsp", "cflw", "cfsw"]
  | .zcd32 => ["cfldsp", "cfsdsp", "cfld"]
  | .c64 => ["cfsdsp", "cfsd"]
  | .zcb32 => ["c_zext_b", "c_sext_b", "c_zext_h", "c_sext_h", "c_not", "c_mul"]
  | .vector => ["vsuxsegei8", "vsuxsegei16", "vsuxsegei32", "vsuxsegei64",
      "vsll_vi", "vsrl_vi", "vsra_vi", "vfmerge_vf", "vfwredosum_vv",
      "vfwadd_w_vv", "vfwadd_w_vf", "vfwsub_w_vv", "vfwsub_w_vf"]
  | .zve32x => ["vsuxsegei8", "vsuxsegei16", "vsuxsegei32", "vsll_vi", "vsrl_vi", "vsra_vi"]
  | _ => []

end Verif.Described.Spec
