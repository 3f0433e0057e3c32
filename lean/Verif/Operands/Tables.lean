import Verif.Getters.Tables

/-!
# Instruction descriptions and the operands their functions use

Written by `tools/gen_operands.py` from `*.isa`, `*_instructions.cc` and
`*_instruction_helpers.h`.
-/

namespace Verif.Operands

open Getters (Opd)

/-- One use of an operand in the text of a semantic function. -/
inductive Acc where
  /-- `Source(k)`, `GetInstructionSource<..>(inst, k)`, `GetNaNBoxedSource<..>(inst, k)` -/
  | src (k : Nat)
  /-- `Destination(k)`, `RiscVWriteReg<..>(inst, k, ..)` -/
  | dst (k : Nat)
  /-- source `k`, under `if (inst->SourcesSize() > n)` -/
  | srcOver (n k : Nat)
  /-- source `k`, in the `else` of `if (inst->SourcesSize() > n)` -/
  | srcUpTo (n k : Nat)
  /-- every source `i + k` with `i < SourcesSize() - k` -/
  | srcFrom (k : Nat)
  /-- every destination `i` with `i < DestinationsSize() - m` -/
  | dstBelow (m : Nat)
  /-- destination `DestinationsSize() - m + k` -/
  | dstFromEnd (m k : Nat)
  deriving DecidableEq, Repr

/-- A semantic function: its own uses of operands, and the functions it hands
its instruction to. -/
inductive Code where
  | mk (name : String) (own : List Acc) (calls : List Code)

/-- An operand named in a description. -/
inductive Arg where
  | one (o : Opd)
  /-- a name no getter of the repository is registered for -/
  | other (name : String)
  /-- `[rlist]`: one operand for each register of the list -/
  | regs
  deriving DecidableEq, Repr

/-- An instruction, or the part of a load that writes back (`child`). -/
structure Phase where
  srcs : List Arg
  dsts : List Arg
  /-- the function named by `semfunc` -/
  fn : Option Code
  /-- leading arguments given by `absl::bind_front` (`true` is 1) -/
  args : List Nat := []

structure Instr where
  name : String
  phases : List Phase

/-- mpact/sim/generic/instruction_helpers.h, assumed -/
def ext_BinaryOp : Code := .mk "BinaryOp" [.src 0, .src 1, .dst 0] []

/-- riscv_instruction_helpers.h:303-314 -/
def fn_RiscVBinaryOp : Code := .mk "RiscVBinaryOp" [.src 0, .src 1, .dst 0] []

/-- riscv_i_instructions.cc:79-82 -/
def rv32_RiscVIAdd : Code := .mk "RV32::RiscVIAdd" [] [fn_RiscVBinaryOp]

/-- riscv_i_instructions.cc:345-345 -/
def fn_RiscVINop : Code := .mk "RiscVINop" [] []

/-- riscv_i_instructions.cc:89-92 -/
def rv32_RiscVISlt : Code := .mk "RV32::RiscVISlt" [] [fn_RiscVBinaryOp]

/-- riscv_i_instructions.cc:94-97 -/
def rv32_RiscVISltu : Code := .mk "RV32::RiscVISltu" [] [fn_RiscVBinaryOp]

/-- riscv_i_instructions.cc:99-102 -/
def rv32_RiscVIAnd : Code := .mk "RV32::RiscVIAnd" [] [fn_RiscVBinaryOp]

/-- riscv_i_instructions.cc:104-107 -/
def rv32_RiscVIOr : Code := .mk "RV32::RiscVIOr" [] [fn_RiscVBinaryOp]

/-- riscv_i_instructions.cc:109-112 -/
def rv32_RiscVIXor : Code := .mk "RV32::RiscVIXor" [] [fn_RiscVBinaryOp]

/-- riscv_i_instructions.cc:114-117 -/
def rv32_RiscVISll : Code := .mk "RV32::RiscVISll" [] [fn_RiscVBinaryOp]

/-- riscv_i_instructions.cc:119-122 -/
def rv32_RiscVISrl : Code := .mk "RV32::RiscVISrl" [] [fn_RiscVBinaryOp]

/-- riscv_i_instructions.cc:124-127 -/
def rv32_RiscVISra : Code := .mk "RV32::RiscVISra" [] [fn_RiscVBinaryOp]

/-- riscv_instruction_helpers.h:328-338 -/
def fn_RiscVUnaryOp : Code := .mk "RiscVUnaryOp" [.src 0, .dst 0] []

/-- riscv_i_instructions.cc:131-134 -/
def rv32_RiscVILui : Code := .mk "RV32::RiscVILui" [] [fn_RiscVUnaryOp]

/-- riscv_i_instructions.cc:139-144 -/
def rv32_RiscVIAuipc : Code := .mk "RV32::RiscVIAuipc" [] [fn_RiscVUnaryOp]

/-- riscv_i_instructions.cc:84-87 -/
def rv32_RiscVISub : Code := .mk "RV32::RiscVISub" [] [fn_RiscVBinaryOp]

/-- riscv_i_instructions.cc:46-62 -/
def fn_IsTargetMisaligned : Code := .mk "IsTargetMisaligned" [] []

/-- riscv_i_instructions.cc:148-163 -/
def rv32_RiscVIJal : Code := .mk "RV32::RiscVIJal" [.src 0, .dst 0, .dst 1] [fn_IsTargetMisaligned]

/-- riscv_i_instructions.cc:165-181 -/
def rv32_RiscVIJalr : Code := .mk "RV32::RiscVIJalr" [.src 0, .src 1, .dst 0, .dst 1] [fn_IsTargetMisaligned]

/-- riscv_instruction_helpers.h:341-372 -/
def fn_BranchConditional : Code := .mk "BranchConditional" [.src 0, .src 1, .src 2, .dst 0] []

/-- riscv_i_instructions.cc:356-359 -/
def rv32_RiscVIBeq : Code := .mk "RV32::RiscVIBeq" [] [fn_BranchConditional]

/-- riscv_i_instructions.cc:361-364 -/
def rv32_RiscVIBne : Code := .mk "RV32::RiscVIBne" [] [fn_BranchConditional]

/-- riscv_i_instructions.cc:366-369 -/
def rv32_RiscVIBlt : Code := .mk "RV32::RiscVIBlt" [] [fn_BranchConditional]

/-- riscv_i_instructions.cc:371-374 -/
def rv32_RiscVIBltu : Code := .mk "RV32::RiscVIBltu" [] [fn_BranchConditional]

/-- riscv_i_instructions.cc:376-379 -/
def rv32_RiscVIBge : Code := .mk "RV32::RiscVIBge" [] [fn_BranchConditional]

/-- riscv_i_instructions.cc:381-384 -/
def rv32_RiscVIBgeu : Code := .mk "RV32::RiscVIBgeu" [] [fn_BranchConditional]

/-- riscv_instruction_helpers.h:375-390 -/
def fn_RVLoad : Code := .mk "RVLoad" [.src 0, .src 1] []

/-- riscv_i_instructions.cc:437-439 -/
def rv32_RiscVILw : Code := .mk "RV32::RiscVILw" [] [fn_RVLoad]

/-- riscv_instruction_helpers.h:393-409 -/
def fn_RVLoadChild : Code := .mk "RVLoadChild" [.dst 0] []

/-- riscv_i_instructions.cc:441-443 -/
def rv32_RiscVILwChild : Code := .mk "RV32::RiscVILwChild" [] [fn_RVLoadChild]

/-- riscv_i_instructions.cc:445-447 -/
def rv32_RiscVILh : Code := .mk "RV32::RiscVILh" [] [fn_RVLoad]

/-- riscv_i_instructions.cc:449-451 -/
def rv32_RiscVILhChild : Code := .mk "RV32::RiscVILhChild" [] [fn_RVLoadChild]

/-- riscv_i_instructions.cc:453-455 -/
def rv32_RiscVILhu : Code := .mk "RV32::RiscVILhu" [] [fn_RVLoad]

/-- riscv_i_instructions.cc:457-459 -/
def rv32_RiscVILhuChild : Code := .mk "RV32::RiscVILhuChild" [] [fn_RVLoadChild]

/-- riscv_i_instructions.cc:461-463 -/
def rv32_RiscVILb : Code := .mk "RV32::RiscVILb" [] [fn_RVLoad]

/-- riscv_i_instructions.cc:465-467 -/
def rv32_RiscVILbChild : Code := .mk "RV32::RiscVILbChild" [] [fn_RVLoadChild]

/-- riscv_i_instructions.cc:469-471 -/
def rv32_RiscVILbu : Code := .mk "RV32::RiscVILbu" [] [fn_RVLoad]

/-- riscv_i_instructions.cc:473-475 -/
def rv32_RiscVILbuChild : Code := .mk "RV32::RiscVILbuChild" [] [fn_RVLoadChild]

/-- riscv_instruction_helpers.h:412-426 -/
def fn_RVStore : Code := .mk "RVStore" [.src 0, .src 1, .src 2] []

/-- riscv_i_instructions.cc:549-551 -/
def rv32_RiscVISw : Code := .mk "RV32::RiscVISw" [] [fn_RVStore]

/-- riscv_i_instructions.cc:553-555 -/
def rv32_RiscVISh : Code := .mk "RV32::RiscVISh" [] [fn_RVStore]

/-- riscv_i_instructions.cc:557-559 -/
def rv32_RiscVISb : Code := .mk "RV32::RiscVISb" [] [fn_RVStore]

/-- riscv_i_instructions.cc:600-606 -/
def fn_RiscVIFence : Code := .mk "RiscVIFence" [.src 0, .src 1] []

/-- riscv_i_instructions.cc:608-612 -/
def fn_RiscVIFenceTso : Code := .mk "RiscVIFenceTso" [] []

/-- riscv_i_instructions.cc:614-617 -/
def fn_RiscVIEcall : Code := .mk "RiscVIEcall" [] []

/-- riscv_i_instructions.cc:619-622 -/
def fn_RiscVIEbreak : Code := .mk "RiscVIEbreak" [] []

/-- riscv_i_instructions.cc:483-485 -/
def rv64_RiscVILd : Code := .mk "RV64::RiscVILd" [] [fn_RVLoad]

/-- riscv_i_instructions.cc:487-489 -/
def rv64_RiscVILdChild : Code := .mk "RV64::RiscVILdChild" [] [fn_RVLoadChild]

/-- riscv_i_instructions.cc:567-569 -/
def rv64_RiscVISd : Code := .mk "RV64::RiscVISd" [] [fn_RVStore]

/-- riscv_d_instructions.cc:363-375 -/
def rv32_RiscVDSd : Code := .mk "RV32::RiscVDSd" [.src 0, .src 1, .src 2] []

/-- riscv_i_instructions.cc:585-598 -/
def fn_RiscVIUnimplemented : Code := .mk "RiscVIUnimplemented" [] []

/-- riscv_m_instructions.cc:41-47 -/
def rv32_MMul : Code := .mk "RV32::MMul" [] [ext_BinaryOp]

/-- riscv_m_instructions.cc:49-54 -/
def rv32_MMulh : Code := .mk "RV32::MMulh" [] [ext_BinaryOp]

/-- riscv_m_instructions.cc:56-61 -/
def rv32_MMulhu : Code := .mk "RV32::MMulhu" [] [ext_BinaryOp]

/-- riscv_m_instructions.cc:63-69 -/
def rv32_MMulhsu : Code := .mk "RV32::MMulhsu" [] [ext_BinaryOp]

/-- riscv_m_instructions.cc:71-79 -/
def rv32_MDiv : Code := .mk "RV32::MDiv" [] [ext_BinaryOp]

/-- riscv_m_instructions.cc:81-86 -/
def rv32_MDivu : Code := .mk "RV32::MDivu" [] [ext_BinaryOp]

/-- riscv_m_instructions.cc:88-96 -/
def rv32_MRem : Code := .mk "RV32::MRem" [] [ext_BinaryOp]

/-- riscv_m_instructions.cc:98-103 -/
def rv32_MRemu : Code := .mk "RV32::MRemu" [] [ext_BinaryOp]

/-- riscv_a_instructions.cc:38-69 -/
def fn_AInstructionHelper : Code := .mk "AInstructionHelper" [.src 0, .src 1] []

/-- riscv_a_instructions.cc:71-74 -/
def fn_ALrw : Code := .mk "ALrw" [] [fn_AInstructionHelper]

/-- riscv_a_instructions.cc:76-79 -/
def fn_AScw : Code := .mk "AScw" [] [fn_AInstructionHelper]

/-- riscv_a_instructions.cc:81-84 -/
def fn_AAmoswapw : Code := .mk "AAmoswapw" [] [fn_AInstructionHelper]

/-- riscv_a_instructions.cc:91-94 -/
def fn_AAmoandw : Code := .mk "AAmoandw" [] [fn_AInstructionHelper]

/-- riscv_a_instructions.cc:96-99 -/
def fn_AAmoorw : Code := .mk "AAmoorw" [] [fn_AInstructionHelper]

/-- riscv_a_instructions.cc:101-104 -/
def fn_AAmoxorw : Code := .mk "AAmoxorw" [] [fn_AInstructionHelper]

/-- riscv_a_instructions.cc:86-89 -/
def fn_AAmoaddw : Code := .mk "AAmoaddw" [] [fn_AInstructionHelper]

/-- riscv_a_instructions.cc:106-109 -/
def fn_AAmomaxw : Code := .mk "AAmomaxw" [] [fn_AInstructionHelper]

/-- riscv_a_instructions.cc:111-114 -/
def fn_AAmomaxuw : Code := .mk "AAmomaxuw" [] [fn_AInstructionHelper]

/-- riscv_a_instructions.cc:116-119 -/
def fn_AAmominw : Code := .mk "AAmominw" [] [fn_AInstructionHelper]

/-- riscv_a_instructions.cc:121-124 -/
def fn_AAmominuw : Code := .mk "AAmominuw" [] [fn_AInstructionHelper]

/-- riscv_f_instructions.cc:141-157 -/
def fn_RiscVIFlwChild : Code := .mk "RiscVIFlwChild" [.dst 0] []

/-- riscv_f_instructions.cc:390-402 -/
def rv32_RiscVFSw : Code := .mk "RV32::RiscVFSw" [.src 0, .src 1, .src 2] []

/-- riscv_instruction_helpers.h:603-648 -/
def fn_RiscVBinaryFloatNaNBoxOp : Code := .mk "RiscVBinaryFloatNaNBoxOp" [.src 0, .src 1, .src 2, .dst 0] []

/-- riscv_f_instructions.cc:160-163 -/
def fn_RiscVFAdd : Code := .mk "RiscVFAdd" [] [fn_RiscVBinaryFloatNaNBoxOp]

/-- riscv_f_instructions.cc:165-168 -/
def fn_RiscVFSub : Code := .mk "RiscVFSub" [] [fn_RiscVBinaryFloatNaNBoxOp]

/-- riscv_f_instructions.cc:170-173 -/
def fn_RiscVFMul : Code := .mk "RiscVFMul" [] [fn_RiscVBinaryFloatNaNBoxOp]

/-- riscv_f_instructions.cc:175-178 -/
def fn_RiscVFDiv : Code := .mk "RiscVFDiv" [] [fn_RiscVBinaryFloatNaNBoxOp]

/-- riscv_instruction_helpers.h:458-481 -/
def fn_RiscVUnaryNaNBoxOp : Code := .mk "RiscVUnaryNaNBoxOp" [.src 0, .dst 0] []

/-- riscv_f_instructions.cc:182-219 -/
def fn_RiscVFSqrt : Code := .mk "RiscVFSqrt" [.src 1, .dst 1] [fn_RiscVUnaryNaNBoxOp]

/-- riscv_instruction_helpers.h:431-455 -/
def fn_RiscVBinaryNaNBoxOp : Code := .mk "RiscVBinaryNaNBoxOp" [.src 0, .src 1, .dst 0] []

/-- riscv_f_instructions.cc:222-245 -/
def fn_RiscVFMin : Code := .mk "RiscVFMin" [.dst 1] [fn_RiscVBinaryNaNBoxOp]

/-- riscv_f_instructions.cc:248-269 -/
def fn_RiscVFMax : Code := .mk "RiscVFMax" [.dst 1] [fn_RiscVBinaryNaNBoxOp]

/-- riscv_instruction_helpers.h:651-692 -/
def fn_RiscVTernaryFloatNaNBoxOp : Code := .mk "RiscVTernaryFloatNaNBoxOp" [.src 0, .src 1, .src 2, .src 3, .dst 0] []

/-- riscv_f_instructions.cc:277-289 -/
def fn_RiscVFMadd : Code := .mk "RiscVFMadd" [.dst 1] [fn_RiscVTernaryFloatNaNBoxOp]

/-- riscv_f_instructions.cc:291-302 -/
def fn_RiscVFMsub : Code := .mk "RiscVFMsub" [.dst 1] [fn_RiscVTernaryFloatNaNBoxOp]

/-- riscv_f_instructions.cc:304-315 -/
def fn_RiscVFNmadd : Code := .mk "RiscVFNmadd" [.dst 1] [fn_RiscVTernaryFloatNaNBoxOp]

/-- riscv_f_instructions.cc:317-328 -/
def fn_RiscVFNmsub : Code := .mk "RiscVFNmsub" [.dst 1] [fn_RiscVTernaryFloatNaNBoxOp]

/-- riscv_instruction_helpers.h:76-282 -/
def fn_RiscVConvertFloatWithFflagsOp : Code := .mk "RiscVConvertFloatWithFflagsOp" [.src 0, .src 1, .dst 0, .dst 1] []

/-- riscv_f_instructions.cc:60-63 -/
def fn_RVFCvtWs : Code := .mk "RVFCvtWs" [] [fn_RiscVConvertFloatWithFflagsOp]

/-- riscv_f_instructions.cc:407-409 -/
def rv32_RiscVFCvtWs : Code := .mk "RV32::RiscVFCvtWs" [] [fn_RVFCvtWs]

/-- riscv_instruction_helpers.h:485-532 -/
def fn_RiscVUnaryFloatNaNBoxOp : Code := .mk "RiscVUnaryFloatNaNBoxOp" [.src 0, .src 1, .dst 0] []

/-- riscv_f_instructions.cc:355-358 -/
def fn_RiscVFCvtSw : Code := .mk "RiscVFCvtSw" [] [fn_RiscVUnaryFloatNaNBoxOp]

/-- riscv_f_instructions.cc:66-69 -/
def fn_RVFCvtWus : Code := .mk "RVFCvtWus" [] [fn_RiscVConvertFloatWithFflagsOp]

/-- riscv_f_instructions.cc:412-414 -/
def rv32_RiscVFCvtWus : Code := .mk "RV32::RiscVFCvtWus" [] [fn_RVFCvtWus]

/-- riscv_f_instructions.cc:361-364 -/
def fn_RiscVFCvtSwu : Code := .mk "RiscVFCvtSwu" [] [fn_RiscVUnaryFloatNaNBoxOp]

/-- riscv_f_instructions.cc:331-335 -/
def fn_RiscVFSgnj : Code := .mk "RiscVFSgnj" [] [fn_RiscVBinaryNaNBoxOp]

/-- riscv_f_instructions.cc:338-343 -/
def fn_RiscVFSgnjn : Code := .mk "RiscVFSgnjn" [] [fn_RiscVBinaryNaNBoxOp]

/-- riscv_f_instructions.cc:347-352 -/
def fn_RiscVFSgnjx : Code := .mk "RiscVFSgnjx" [] [fn_RiscVBinaryNaNBoxOp]

/-- riscv_f_instructions.cc:418-421 -/
def rv32_RiscVFMvxw : Code := .mk "RV32::RiscVFMvxw" [] [fn_RiscVUnaryOp]

/-- riscv_f_instructions.cc:379-382 -/
def fn_RiscVFMvwx : Code := .mk "RiscVFMvwx" [] [fn_RiscVUnaryNaNBoxOp]

/-- riscv_f_instructions.cc:84-97 -/
def fn_RVFCmpeq : Code := .mk "RVFCmpeq" [.dst 1] [fn_RiscVBinaryNaNBoxOp]

/-- riscv_f_instructions.cc:424-426 -/
def rv32_RiscVFCmpeq : Code := .mk "RV32::RiscVFCmpeq" [] [fn_RVFCmpeq]

/-- riscv_f_instructions.cc:100-113 -/
def fn_RVFCmplt : Code := .mk "RVFCmplt" [.dst 1] [fn_RiscVBinaryNaNBoxOp]

/-- riscv_f_instructions.cc:429-431 -/
def rv32_RiscVFCmplt : Code := .mk "RV32::RiscVFCmplt" [] [fn_RVFCmplt]

/-- riscv_f_instructions.cc:116-129 -/
def fn_RVFCmple : Code := .mk "RVFCmple" [.dst 1] [fn_RiscVBinaryNaNBoxOp]

/-- riscv_f_instructions.cc:434-436 -/
def rv32_RiscVFCmple : Code := .mk "RV32::RiscVFCmple" [] [fn_RVFCmple]

/-- riscv_f_instructions.cc:439-443 -/
def rv32_RiscVFClass : Code := .mk "RV32::RiscVFClass" [] [fn_RiscVUnaryOp]

/-- riscv_i_instructions.cc:433-435 -/
def rv32_RiscVILd : Code := .mk "RV32::RiscVILd" [] [fn_RVLoad]

/-- riscv_d_instructions.cc:63-66 -/
def fn_RiscVDAdd : Code := .mk "RiscVDAdd" [] [fn_RiscVBinaryFloatNaNBoxOp]

/-- riscv_d_instructions.cc:68-71 -/
def fn_RiscVDSub : Code := .mk "RiscVDSub" [] [fn_RiscVBinaryFloatNaNBoxOp]

/-- riscv_d_instructions.cc:73-76 -/
def fn_RiscVDMul : Code := .mk "RiscVDMul" [] [fn_RiscVBinaryFloatNaNBoxOp]

/-- riscv_d_instructions.cc:78-81 -/
def fn_RiscVDDiv : Code := .mk "RiscVDDiv" [] [fn_RiscVBinaryFloatNaNBoxOp]

/-- riscv_d_instructions.cc:84-122 -/
def fn_RiscVDSqrt : Code := .mk "RiscVDSqrt" [.src 1, .dst 1] [fn_RiscVUnaryNaNBoxOp]

/-- riscv_d_instructions.cc:125-145 -/
def fn_RiscVDMin : Code := .mk "RiscVDMin" [.dst 1] [fn_RiscVBinaryOp]

/-- riscv_d_instructions.cc:148-168 -/
def fn_RiscVDMax : Code := .mk "RiscVDMax" [.dst 1] [fn_RiscVBinaryOp]

/-- riscv_d_instructions.cc:176-203 -/
def fn_RiscVDMadd : Code := .mk "RiscVDMadd" [.dst 1] [fn_RiscVTernaryFloatNaNBoxOp]

/-- riscv_d_instructions.cc:205-232 -/
def fn_RiscVDMsub : Code := .mk "RiscVDMsub" [.dst 1] [fn_RiscVTernaryFloatNaNBoxOp]

/-- riscv_d_instructions.cc:234-261 -/
def fn_RiscVDNmadd : Code := .mk "RiscVDNmadd" [.dst 1] [fn_RiscVTernaryFloatNaNBoxOp]

/-- riscv_d_instructions.cc:263-292 -/
def fn_RiscVDNmsub : Code := .mk "RiscVDNmsub" [.dst 1] [fn_RiscVTernaryFloatNaNBoxOp]

/-- riscv_d_instructions.cc:378-380 -/
def rv32_RiscVDCvtWd : Code := .mk "RV32::RiscVDCvtWd" [] [fn_RiscVConvertFloatWithFflagsOp]

/-- riscv_instruction_helpers.h:536-563 -/
def fn_RiscVUnaryFloatOp : Code := .mk "RiscVUnaryFloatOp" [.src 0, .src 1, .dst 0] []

/-- riscv_d_instructions.cc:297-300 -/
def fn_RiscVDCvtDw : Code := .mk "RiscVDCvtDw" [] [fn_RiscVUnaryFloatOp]

/-- riscv_d_instructions.cc:382-384 -/
def rv32_RiscVDCvtWud : Code := .mk "RV32::RiscVDCvtWud" [] [fn_RiscVConvertFloatWithFflagsOp]

/-- riscv_d_instructions.cc:303-306 -/
def fn_RiscVDCvtDwu : Code := .mk "RiscVDCvtDwu" [] [fn_RiscVUnaryFloatOp]

/-- riscv_d_instructions.cc:309-319 -/
def fn_RiscVDCvtSd : Code := .mk "RiscVDCvtSd" [] [fn_RiscVUnaryFloatNaNBoxOp]

/-- riscv_d_instructions.cc:322-331 -/
def fn_RiscVDCvtDs : Code := .mk "RiscVDCvtDs" [] [fn_RiscVUnaryFloatOp]

/-- riscv_d_instructions.cc:334-339 -/
def fn_RiscVDSgnj : Code := .mk "RiscVDSgnj" [] [fn_RiscVBinaryOp]

/-- riscv_d_instructions.cc:342-347 -/
def fn_RiscVDSgnjn : Code := .mk "RiscVDSgnjn" [] [fn_RiscVBinaryOp]

/-- riscv_d_instructions.cc:350-355 -/
def fn_RiscVDSgnjx : Code := .mk "RiscVDSgnjx" [] [fn_RiscVBinaryOp]

/-- riscv_d_instructions.cc:387-397 -/
def rv32_RiscVDCmpeq : Code := .mk "RV32::RiscVDCmpeq" [.dst 1] [fn_RiscVBinaryOp]

/-- riscv_d_instructions.cc:400-410 -/
def rv32_RiscVDCmplt : Code := .mk "RV32::RiscVDCmplt" [.dst 1] [fn_RiscVBinaryOp]

/-- riscv_d_instructions.cc:413-423 -/
def rv32_RiscVDCmple : Code := .mk "RV32::RiscVDCmple" [.dst 1] [fn_RiscVBinaryOp]

/-- riscv_d_instructions.cc:426-431 -/
def rv32_RiscVDClass : Code := .mk "RV32::RiscVDClass" [] [fn_RiscVUnaryOp]

/-- riscv_zicsr_instructions.cc:48-67 -/
def fn_CheckCsrPermission : Code := .mk "CheckCsrPermission" [] []

/-- riscv_zicsr_instructions.cc:72-99 -/
def fn_RVZiCsrrw : Code := .mk "RVZiCsrrw" [.src 0, .src 1, .dst 0] [fn_CheckCsrPermission]

/-- riscv_zicsr_instructions.cc:216-216 -/
def rv32_RiscVZiCsrrw : Code := .mk "RV32::RiscVZiCsrrw" [] [fn_RVZiCsrrw]

/-- riscv_zicsr_instructions.cc:102-129 -/
def fn_RVZiCsrrs : Code := .mk "RVZiCsrrs" [.src 0, .src 1, .dst 0] [fn_CheckCsrPermission]

/-- riscv_zicsr_instructions.cc:219-219 -/
def rv32_RiscVZiCsrrs : Code := .mk "RV32::RiscVZiCsrrs" [] [fn_RVZiCsrrs]

/-- riscv_zicsr_instructions.cc:132-160 -/
def fn_RVZiCsrrc : Code := .mk "RVZiCsrrc" [.src 0, .src 1, .dst 0] [fn_CheckCsrPermission]

/-- riscv_zicsr_instructions.cc:222-222 -/
def rv32_RiscVZiCsrrc : Code := .mk "RV32::RiscVZiCsrrc" [] [fn_RVZiCsrrc]

/-- riscv_zicsr_instructions.cc:163-183 -/
def fn_RVZiCsrrwNr : Code := .mk "RVZiCsrrwNr" [.src 0, .src 1] [fn_CheckCsrPermission]

/-- riscv_zicsr_instructions.cc:225-227 -/
def rv32_RiscVZiCsrrwNr : Code := .mk "RV32::RiscVZiCsrrwNr" [] [fn_RVZiCsrrwNr]

/-- riscv_zicsr_instructions.cc:186-208 -/
def fn_RVZiCsrrNw : Code := .mk "RVZiCsrrNw" [.src 0, .dst 0] [fn_CheckCsrPermission]

/-- riscv_zicsr_instructions.cc:230-232 -/
def rv32_RiscVZiCsrrNw : Code := .mk "RV32::RiscVZiCsrrNw" [] [fn_RVZiCsrrNw]

/-- riscv_zfencei_instructions.cc:24-27 -/
def fn_RiscVZFencei : Code := .mk "RiscVZFencei" [] []

/-- riscv_priv_instructions.cc:41-43 -/
def rv32_RiscVPrivURet : Code := .mk "RV32::RiscVPrivURet" [] []

/-- riscv_priv_instructions.cc:45-98 -/
def rv32_RiscVPrivSRet : Code := .mk "RV32::RiscVPrivSRet" [.dst 0] []

/-- riscv_priv_instructions.cc:100-153 -/
def rv32_RiscVPrivMRet : Code := .mk "RV32::RiscVPrivMRet" [.dst 0] []

/-- riscv_priv_instructions.cc:294-298 -/
def fn_RiscVPrivWfi : Code := .mk "RiscVPrivWfi" [] []

/-- riscv_priv_instructions.cc:300-311 -/
def fn_RiscVPrivSFenceVmaZZ : Code := .mk "RiscVPrivSFenceVmaZZ" [] []

/-- riscv_priv_instructions.cc:313-324 -/
def fn_RiscVPrivSFenceVmaZN : Code := .mk "RiscVPrivSFenceVmaZN" [] []

/-- riscv_priv_instructions.cc:326-337 -/
def fn_RiscVPrivSFenceVmaNZ : Code := .mk "RiscVPrivSFenceVmaNZ" [] []

/-- riscv_priv_instructions.cc:339-350 -/
def fn_RiscVPrivSFenceVmaNN : Code := .mk "RiscVPrivSFenceVmaNN" [] []

/-- riscv_bitmanip_instructions.cc:42-46 -/
def rv32_RiscVShAdd : Code := .mk "RV32::RiscVShAdd" [.src 2] [fn_RiscVBinaryOp]

/-- riscv_bitmanip_instructions.cc:49-52 -/
def rv32_RiscVAndn : Code := .mk "RV32::RiscVAndn" [] [fn_RiscVBinaryOp]

/-- riscv_bitmanip_instructions.cc:55-58 -/
def rv32_RiscVOrn : Code := .mk "RV32::RiscVOrn" [] [fn_RiscVBinaryOp]

/-- riscv_bitmanip_instructions.cc:61-64 -/
def rv32_RiscVXnor : Code := .mk "RV32::RiscVXnor" [] [fn_RiscVBinaryOp]

/-- riscv_bitmanip_instructions.cc:72-75 -/
def rv32_RiscVClz : Code := .mk "RV32::RiscVClz" [] [fn_RiscVUnaryOp]

/-- riscv_bitmanip_instructions.cc:78-81 -/
def rv32_RiscVCtz : Code := .mk "RV32::RiscVCtz" [] [fn_RiscVUnaryOp]

/-- riscv_bitmanip_instructions.cc:84-87 -/
def rv32_RiscVCpop : Code := .mk "RV32::RiscVCpop" [] [fn_RiscVUnaryOp]

/-- riscv_bitmanip_instructions.cc:90-93 -/
def rv32_RiscVMax : Code := .mk "RV32::RiscVMax" [] [fn_RiscVBinaryOp]

/-- riscv_bitmanip_instructions.cc:96-99 -/
def rv32_RiscVMaxu : Code := .mk "RV32::RiscVMaxu" [] [fn_RiscVBinaryOp]

/-- riscv_bitmanip_instructions.cc:102-105 -/
def rv32_RiscVMin : Code := .mk "RV32::RiscVMin" [] [fn_RiscVBinaryOp]

/-- riscv_bitmanip_instructions.cc:108-111 -/
def rv32_RiscVMinu : Code := .mk "RV32::RiscVMinu" [] [fn_RiscVBinaryOp]

/-- riscv_bitmanip_instructions.cc:114-117 -/
def rv32_RiscVSextB : Code := .mk "RV32::RiscVSextB" [] [fn_RiscVUnaryOp]

/-- riscv_bitmanip_instructions.cc:120-123 -/
def rv32_RiscVSextH : Code := .mk "RV32::RiscVSextH" [] [fn_RiscVUnaryOp]

/-- riscv_bitmanip_instructions.cc:126-130 -/
def rv32_RiscVZextH : Code := .mk "RV32::RiscVZextH" [] [fn_RiscVUnaryOp]

/-- riscv_bitmanip_instructions.cc:140-147 -/
def rv32_RiscVRol : Code := .mk "RV32::RiscVRol" [] [fn_RiscVBinaryOp]

/-- riscv_bitmanip_instructions.cc:150-157 -/
def rv32_RiscVRor : Code := .mk "RV32::RiscVRor" [] [fn_RiscVBinaryOp]

/-- riscv_bitmanip_instructions.cc:160-172 -/
def rv32_RiscVOrcb : Code := .mk "RV32::RiscVOrcb" [] [fn_RiscVUnaryOp]

/-- riscv_bitmanip_instructions.cc:175-185 -/
def rv32_RiscVRev8 : Code := .mk "RV32::RiscVRev8" [] [fn_RiscVUnaryOp]

/-- riscv_bitmanip_instructions.cc:188-197 -/
def rv32_RiscVClmul : Code := .mk "RV32::RiscVClmul" [] [fn_RiscVBinaryOp]

/-- riscv_bitmanip_instructions.cc:200-209 -/
def rv32_RiscVClmulh : Code := .mk "RV32::RiscVClmulh" [] [fn_RiscVBinaryOp]

/-- riscv_bitmanip_instructions.cc:212-221 -/
def rv32_RiscVClmulr : Code := .mk "RV32::RiscVClmulr" [] [fn_RiscVBinaryOp]

/-- riscv_bitmanip_instructions.cc:224-228 -/
def rv32_RiscVBclr : Code := .mk "RV32::RiscVBclr" [] [fn_RiscVBinaryOp]

/-- riscv_bitmanip_instructions.cc:231-235 -/
def rv32_RiscVBext : Code := .mk "RV32::RiscVBext" [] [fn_RiscVBinaryOp]

/-- riscv_bitmanip_instructions.cc:238-241 -/
def rv32_RiscVBinv : Code := .mk "RV32::RiscVBinv" [] [fn_RiscVBinaryOp]

/-- riscv_bitmanip_instructions.cc:244-247 -/
def rv32_RiscVBset : Code := .mk "RV32::RiscVBset" [] [fn_RiscVBinaryOp]

/-- riscv_vector_memory_instructions.cc:155-207 -/
def fn_Vsetvl : Code := .mk "Vsetvl" [.src 0, .src 1, .dst 0] []

/-- riscv_vector_memory_instructions.cc:216-272 -/
def fn_VlStrided : Code := .mk "VlStrided" [.src 0, .src 1, .src 2] []

/-- riscv_vector_memory_instructions.cc:37-88 -/
def fn_WriteBackLoadData : Code := .mk "WriteBackLoadData" [.dst 0] []

/-- riscv_vector_memory_instructions.cc:676-701 -/
def fn_VlChild : Code := .mk "VlChild" [] [fn_WriteBackLoadData]

/-- riscv_vector_memory_instructions.cc:278-322 -/
def fn_Vlm : Code := .mk "Vlm" [.src 0] []

/-- riscv_vector_memory_instructions.cc:421-459 -/
def fn_VlRegister : Code := .mk "VlRegister" [.src 0] []

/-- riscv_vector_memory_instructions.cc:335-413 -/
def fn_VlIndexed : Code := .mk "VlIndexed" [.src 0, .src 1, .src 2] []

/-- riscv_vector_memory_instructions.cc:471-520 -/
def fn_VlSegment : Code := .mk "VlSegment" [.src 0, .src 1, .src 2] []

/-- riscv_vector_memory_instructions.cc:92-150 -/
def fn_WriteBackSegmentLoadData : Code := .mk "WriteBackSegmentLoadData" [.src 0, .dst 0] []

/-- riscv_vector_memory_instructions.cc:706-731 -/
def fn_VlSegmentChild : Code := .mk "VlSegmentChild" [] [fn_WriteBackSegmentLoadData]

/-- riscv_vector_memory_instructions.cc:529-578 -/
def fn_VlSegmentStrided : Code := .mk "VlSegmentStrided" [.src 0, .src 1, .src 2, .src 3] []

/-- riscv_vector_memory_instructions.cc:588-671 -/
def fn_VlSegmentIndexed : Code := .mk "VlSegmentIndexed" [.src 0, .src 1, .src 2, .src 3] []

/-- riscv_vector_memory_instructions.cc:734-769 -/
def fn_StoreVectorStrided : Code := .mk "StoreVectorStrided" [.src 0, .src 1, .src 2, .src 3] []

/-- riscv_vector_memory_instructions.cc:776-806 -/
def fn_VsStrided : Code := .mk "VsStrided" [] [fn_StoreVectorStrided]

/-- riscv_vector_memory_instructions.cc:811-851 -/
def fn_Vsm : Code := .mk "Vsm" [.src 0, .src 1] []

/-- riscv_vector_memory_instructions.cc:951-976 -/
def fn_VsRegister : Code := .mk "VsRegister" [.src 0, .src 1] []

/-- riscv_vector_memory_instructions.cc:863-949 -/
def fn_VsIndexed : Code := .mk "VsIndexed" [.src 0, .src 1, .src 2, .src 3] []

/-- riscv_vector_memory_instructions.cc:980-1067 -/
def fn_VsSegment : Code := .mk "VsSegment" [.src 0, .src 1, .src 2, .src 3] []

/-- riscv_vector_memory_instructions.cc:1071-1161 -/
def fn_VsSegmentStrided : Code := .mk "VsSegmentStrided" [.src 0, .src 1, .src 2, .src 3, .src 4] []

/-- riscv_vector_memory_instructions.cc:1166-1282 -/
def fn_VsSegmentIndexed : Code := .mk "VsSegmentIndexed" [.src 0, .src 1, .src 2, .src 3, .src 4] []

/-- riscv_vector_instruction_helpers.h:380-462 -/
def fn_RiscVMaskBinaryVectorOp : Code := .mk "RiscVMaskBinaryVectorOp" [.src 0, .src 1, .src 2, .dst 0] []

/-- riscv_vector_instruction_helpers.h:467-478 -/
def fn_RiscVBinaryVectorOp : Code := .mk "RiscVBinaryVectorOp" [] [fn_RiscVMaskBinaryVectorOp]

/-- riscv_vector_opi_instructions.cc:46-71 -/
def fn_Vadd : Code := .mk "Vadd" [] [fn_RiscVBinaryVectorOp]

/-- riscv_vector_opi_instructions.cc:74-99 -/
def fn_Vsub : Code := .mk "Vsub" [] [fn_RiscVBinaryVectorOp]

/-- riscv_vector_opi_instructions.cc:102-127 -/
def fn_Vrsub : Code := .mk "Vrsub" [] [fn_RiscVBinaryVectorOp]

/-- riscv_vector_opi_instructions.cc:387-416 -/
def fn_Vminu : Code := .mk "Vminu" [] [fn_RiscVBinaryVectorOp]

/-- riscv_vector_opi_instructions.cc:419-447 -/
def fn_Vmin : Code := .mk "Vmin" [] [fn_RiscVBinaryVectorOp]

/-- riscv_vector_opi_instructions.cc:450-479 -/
def fn_Vmaxu : Code := .mk "Vmaxu" [] [fn_RiscVBinaryVectorOp]

/-- riscv_vector_opi_instructions.cc:482-510 -/
def fn_Vmax : Code := .mk "Vmax" [] [fn_RiscVBinaryVectorOp]

/-- riscv_vector_opi_instructions.cc:132-157 -/
def fn_Vand : Code := .mk "Vand" [] [fn_RiscVBinaryVectorOp]

/-- riscv_vector_opi_instructions.cc:160-185 -/
def fn_Vor : Code := .mk "Vor" [] [fn_RiscVBinaryVectorOp]

/-- riscv_vector_opi_instructions.cc:188-213 -/
def fn_Vxor : Code := .mk "Vxor" [] [fn_RiscVBinaryVectorOp]

/-- riscv_vector_permute_instructions.cc:34-107 -/
def fn_VrgatherHelper : Code := .mk "VrgatherHelper" [.src 0, .src 1, .src 2, .dst 0] []

/-- riscv_vector_permute_instructions.cc:110-127 -/
def fn_Vrgather : Code := .mk "Vrgather" [] [fn_VrgatherHelper]

/-- riscv_vector_permute_instructions.cc:130-147 -/
def fn_Vrgatherei16 : Code := .mk "Vrgatherei16" [] [fn_VrgatherHelper]

/-- riscv_vector_permute_instructions.cc:150-206 -/
def fn_VSlideHelper : Code := .mk "VSlideHelper" [.src 0, .src 2, .dst 0] []

/-- riscv_vector_permute_instructions.cc:208-230 -/
def fn_Vslideup : Code := .mk "Vslideup" [.src 1] [fn_VSlideHelper]

/-- riscv_vector_permute_instructions.cc:232-253 -/
def fn_Vslidedown : Code := .mk "Vslidedown" [.src 1] [fn_VSlideHelper]

/-- riscv_vector_opi_instructions.cc:938-970 -/
def fn_Vadc : Code := .mk "Vadc" [] [fn_RiscVMaskBinaryVectorOp]

/-- riscv_vector_instruction_helpers.h:44-85 -/
def fn_RiscVSetMaskBinaryVectorMaskOp : Code := .mk "RiscVSetMaskBinaryVectorMaskOp" [.dst 0, .src 1, .src 2, .srcOver 3 3, .src 0] []

/-- riscv_vector_opi_instructions.cc:973-1023 -/
def fn_Vmadc : Code := .mk "Vmadc" [] [fn_RiscVSetMaskBinaryVectorMaskOp]

/-- riscv_vector_opi_instructions.cc:1026-1058 -/
def fn_Vsbc : Code := .mk "Vsbc" [] [fn_RiscVMaskBinaryVectorOp]

/-- riscv_vector_opi_instructions.cc:1061-1095 -/
def fn_Vmsbc : Code := .mk "Vmsbc" [] [fn_RiscVSetMaskBinaryVectorMaskOp]

/-- riscv_vector_opi_instructions.cc:1098-1130 -/
def fn_Vmerge : Code := .mk "Vmerge" [] [fn_RiscVMaskBinaryVectorOp]

/-- riscv_vector_instruction_helpers.h:90-135 -/
def fn_RiscVMaskBinaryVectorMaskOp : Code := .mk "RiscVMaskBinaryVectorMaskOp" [.dst 0, .src 1, .src 2, .srcOver 3 3, .src 0] []

/-- riscv_vector_instruction_helpers.h:139-150 -/
def fn_RiscVBinaryVectorMaskOp : Code := .mk "RiscVBinaryVectorMaskOp" [] [fn_RiscVMaskBinaryVectorMaskOp]

/-- riscv_vector_opi_instructions.cc:513-538 -/
def fn_Vmseq : Code := .mk "Vmseq" [] [fn_RiscVBinaryVectorMaskOp]

/-- riscv_vector_opi_instructions.cc:543-568 -/
def fn_Vmsne : Code := .mk "Vmsne" [] [fn_RiscVBinaryVectorMaskOp]

/-- riscv_vector_opi_instructions.cc:571-596 -/
def fn_Vmsltu : Code := .mk "Vmsltu" [] [fn_RiscVBinaryVectorMaskOp]

/-- riscv_vector_opi_instructions.cc:599-624 -/
def fn_Vmslt : Code := .mk "Vmslt" [] [fn_RiscVBinaryVectorMaskOp]

/-- riscv_vector_opi_instructions.cc:627-652 -/
def fn_Vmsleu : Code := .mk "Vmsleu" [] [fn_RiscVBinaryVectorMaskOp]

/-- riscv_vector_opi_instructions.cc:655-680 -/
def fn_Vmsle : Code := .mk "Vmsle" [] [fn_RiscVBinaryVectorMaskOp]

/-- riscv_vector_opi_instructions.cc:683-708 -/
def fn_Vmsgtu : Code := .mk "Vmsgtu" [] [fn_RiscVBinaryVectorMaskOp]

/-- riscv_vector_opi_instructions.cc:711-736 -/
def fn_Vmsgt : Code := .mk "Vmsgt" [] [fn_RiscVBinaryVectorMaskOp]

/-- riscv_vector_opi_instructions.cc:739-788 -/
def fn_Vsaddu : Code := .mk "Vsaddu" [] [fn_RiscVBinaryVectorOp]

/-- riscv_vector_opi_instructions.cc:808-837 -/
def fn_Vsadd : Code := .mk "Vsadd" [] [fn_RiscVBinaryVectorOp]

/-- riscv_vector_opi_instructions.cc:840-889 -/
def fn_Vssubu : Code := .mk "Vssubu" [] [fn_RiscVBinaryVectorOp]

/-- riscv_vector_opi_instructions.cc:906-935 -/
def fn_Vssub : Code := .mk "Vssub" [] [fn_RiscVBinaryVectorOp]

/-- riscv_vector_opi_instructions.cc:218-247 -/
def fn_Vsll : Code := .mk "Vsll" [] [fn_RiscVBinaryVectorOp]

/-- riscv_vector_opi_instructions.cc:1377-1406 -/
def fn_Vsmul : Code := .mk "Vsmul" [] [fn_RiscVBinaryVectorOp]

/-- riscv_vector_opi_instructions.cc:1133-1163 -/
def fn_Vmvr : Code := .mk "Vmvr" [.src 0, .dst 0] []

/-- riscv_vector_opi_instructions.cc:250-279 -/
def fn_Vsrl : Code := .mk "Vsrl" [] [fn_RiscVBinaryVectorOp]

/-- riscv_vector_opi_instructions.cc:282-311 -/
def fn_Vsra : Code := .mk "Vsra" [] [fn_RiscVBinaryVectorOp]

/-- riscv_vector_opi_instructions.cc:1185-1214 -/
def fn_Vssrl : Code := .mk "Vssrl" [] [fn_RiscVBinaryVectorOp]

/-- riscv_vector_opi_instructions.cc:1217-1246 -/
def fn_Vssra : Code := .mk "Vssra" [] [fn_RiscVBinaryVectorOp]

/-- riscv_vector_opi_instructions.cc:317-347 -/
def fn_Vnsrl : Code := .mk "Vnsrl" [] [fn_RiscVBinaryVectorOp]

/-- riscv_vector_opi_instructions.cc:351-384 -/
def fn_Vnsra : Code := .mk "Vnsra" [] [fn_RiscVBinaryVectorOp]

/-- riscv_vector_opi_instructions.cc:1316-1353 -/
def fn_Vnclipu : Code := .mk "Vnclipu" [] [fn_RiscVBinaryVectorOp]

/-- riscv_vector_opi_instructions.cc:1278-1312 -/
def fn_Vnclip : Code := .mk "Vnclip" [] [fn_RiscVBinaryVectorOp]

/-- riscv_vector_instruction_helpers.h:646-691 -/
def fn_RiscVBinaryReductionVectorOp : Code := .mk "RiscVBinaryReductionVectorOp" [.src 0, .src 1, .src 2, .dst 0] []

/-- riscv_vector_reduction_instructions.cc:291-318 -/
def fn_Vwredsumu : Code := .mk "Vwredsumu" [] [fn_RiscVBinaryReductionVectorOp]

/-- riscv_vector_reduction_instructions.cc:321-348 -/
def fn_Vwredsum : Code := .mk "Vwredsum" [] [fn_RiscVBinaryReductionVectorOp]

/-- riscv_vector_reduction_instructions.cc:29-57 -/
def fn_Vredsum : Code := .mk "Vredsum" [] [fn_RiscVBinaryReductionVectorOp]

/-- riscv_vector_reduction_instructions.cc:60-88 -/
def fn_Vredand : Code := .mk "Vredand" [] [fn_RiscVBinaryReductionVectorOp]

/-- riscv_vector_reduction_instructions.cc:91-119 -/
def fn_Vredor : Code := .mk "Vredor" [] [fn_RiscVBinaryReductionVectorOp]

/-- riscv_vector_reduction_instructions.cc:122-150 -/
def fn_Vredxor : Code := .mk "Vredxor" [] [fn_RiscVBinaryReductionVectorOp]

/-- riscv_vector_reduction_instructions.cc:153-185 -/
def fn_Vredminu : Code := .mk "Vredminu" [] [fn_RiscVBinaryReductionVectorOp]

/-- riscv_vector_reduction_instructions.cc:188-219 -/
def fn_Vredmin : Code := .mk "Vredmin" [] [fn_RiscVBinaryReductionVectorOp]

/-- riscv_vector_reduction_instructions.cc:222-254 -/
def fn_Vredmaxu : Code := .mk "Vredmaxu" [] [fn_RiscVBinaryReductionVectorOp]

/-- riscv_vector_reduction_instructions.cc:257-288 -/
def fn_Vredmax : Code := .mk "Vredmax" [] [fn_RiscVBinaryReductionVectorOp]

/-- riscv_vector_opm_instructions.cc:47-76 -/
def fn_Vaaddu : Code := .mk "Vaaddu" [] [fn_RiscVBinaryVectorOp]

/-- riscv_vector_opm_instructions.cc:80-109 -/
def fn_Vaadd : Code := .mk "Vaadd" [] [fn_RiscVBinaryVectorOp]

/-- riscv_vector_opm_instructions.cc:123-152 -/
def fn_Vasubu : Code := .mk "Vasubu" [] [fn_RiscVBinaryVectorOp]

/-- riscv_vector_opm_instructions.cc:155-184 -/
def fn_Vasub : Code := .mk "Vasub" [] [fn_RiscVBinaryVectorOp]

/-- riscv_vector_permute_instructions.cc:256-313 -/
def fn_VSlide1Helper : Code := .mk "VSlide1Helper" [.src 0, .src 1, .src 2, .dst 0] []

/-- riscv_vector_permute_instructions.cc:315-332 -/
def fn_Vslide1up : Code := .mk "Vslide1up" [] [fn_VSlide1Helper]

/-- riscv_vector_permute_instructions.cc:334-351 -/
def fn_Vslide1down : Code := .mk "Vslide1down" [] [fn_VSlide1Helper]

/-- riscv_vector_permute_instructions.cc:383-436 -/
def fn_VCompressHelper : Code := .mk "VCompressHelper" [.src 0, .src 1, .dst 0] []

/-- riscv_vector_permute_instructions.cc:438-455 -/
def fn_Vcompress : Code := .mk "Vcompress" [] [fn_VCompressHelper]

/-- riscv_vector_opm_instructions.cc:189-225 -/
def fn_BitwiseMaskBinaryOp : Code := .mk "BitwiseMaskBinaryOp" [.src 0, .src 1, .dst 0] []

/-- riscv_vector_opm_instructions.cc:228-233 -/
def fn_Vmandnot : Code := .mk "Vmandnot" [] [fn_BitwiseMaskBinaryOp]

/-- riscv_vector_opm_instructions.cc:235-240 -/
def fn_Vmand : Code := .mk "Vmand" [] [fn_BitwiseMaskBinaryOp]

/-- riscv_vector_opm_instructions.cc:241-246 -/
def fn_Vmor : Code := .mk "Vmor" [] [fn_BitwiseMaskBinaryOp]

/-- riscv_vector_opm_instructions.cc:247-252 -/
def fn_Vmxor : Code := .mk "Vmxor" [] [fn_BitwiseMaskBinaryOp]

/-- riscv_vector_opm_instructions.cc:253-258 -/
def fn_Vmornot : Code := .mk "Vmornot" [] [fn_BitwiseMaskBinaryOp]

/-- riscv_vector_opm_instructions.cc:259-264 -/
def fn_Vmnand : Code := .mk "Vmnand" [] [fn_BitwiseMaskBinaryOp]

/-- riscv_vector_opm_instructions.cc:265-270 -/
def fn_Vmnor : Code := .mk "Vmnor" [] [fn_BitwiseMaskBinaryOp]

/-- riscv_vector_opm_instructions.cc:271-276 -/
def fn_Vmxnor : Code := .mk "Vmxnor" [] [fn_BitwiseMaskBinaryOp]

/-- riscv_vector_opm_instructions.cc:280-313 -/
def fn_Vdivu : Code := .mk "Vdivu" [] [fn_RiscVBinaryVectorOp]

/-- riscv_vector_opm_instructions.cc:317-362 -/
def fn_Vdiv : Code := .mk "Vdiv" [] [fn_RiscVBinaryVectorOp]

/-- riscv_vector_opm_instructions.cc:365-398 -/
def fn_Vremu : Code := .mk "Vremu" [] [fn_RiscVBinaryVectorOp]

/-- riscv_vector_opm_instructions.cc:401-434 -/
def fn_Vrem : Code := .mk "Vrem" [] [fn_RiscVBinaryVectorOp]

/-- riscv_vector_opm_instructions.cc:449-478 -/
def fn_Vmulhu : Code := .mk "Vmulhu" [] [fn_RiscVBinaryVectorOp]

/-- riscv_vector_opm_instructions.cc:482-518 -/
def fn_Vmul : Code := .mk "Vmul" [] [fn_RiscVBinaryVectorOp]

/-- riscv_vector_opm_instructions.cc:535-564 -/
def fn_Vmulhsu : Code := .mk "Vmulhsu" [] [fn_RiscVBinaryVectorOp]

/-- riscv_vector_opm_instructions.cc:567-596 -/
def fn_Vmulh : Code := .mk "Vmulh" [] [fn_RiscVBinaryVectorOp]

/-- riscv_vector_instruction_helpers.h:569-641 -/
def fn_RiscVTernaryVectorOp : Code := .mk "RiscVTernaryVectorOp" [.src 0, .src 1, .src 2, .src 3, .dst 0] []

/-- riscv_vector_opm_instructions.cc:599-635 -/
def fn_Vmadd : Code := .mk "Vmadd" [] [fn_RiscVTernaryVectorOp]

/-- riscv_vector_opm_instructions.cc:638-673 -/
def fn_Vnmsub : Code := .mk "Vnmsub" [] [fn_RiscVTernaryVectorOp]

/-- riscv_vector_opm_instructions.cc:676-711 -/
def fn_Vmacc : Code := .mk "Vmacc" [] [fn_RiscVTernaryVectorOp]

/-- riscv_vector_opm_instructions.cc:714-749 -/
def fn_Vnmsac : Code := .mk "Vnmsac" [] [fn_RiscVTernaryVectorOp]

/-- riscv_vector_opm_instructions.cc:752-776 -/
def fn_Vwaddu : Code := .mk "Vwaddu" [] [fn_RiscVBinaryVectorOp]

/-- riscv_vector_opm_instructions.cc:806-843 -/
def fn_Vwadd : Code := .mk "Vwadd" [] [fn_RiscVBinaryVectorOp]

/-- riscv_vector_opm_instructions.cc:779-803 -/
def fn_Vwsubu : Code := .mk "Vwsubu" [] [fn_RiscVBinaryVectorOp]

/-- riscv_vector_opm_instructions.cc:846-882 -/
def fn_Vwsub : Code := .mk "Vwsub" [] [fn_RiscVBinaryVectorOp]

/-- riscv_vector_opm_instructions.cc:885-916 -/
def fn_Vwadduw : Code := .mk "Vwadduw" [] [fn_RiscVBinaryVectorOp]

/-- riscv_vector_opm_instructions.cc:953-984 -/
def fn_Vwaddw : Code := .mk "Vwaddw" [] [fn_RiscVBinaryVectorOp]

/-- riscv_vector_opm_instructions.cc:919-950 -/
def fn_Vwsubuw : Code := .mk "Vwsubuw" [] [fn_RiscVBinaryVectorOp]

/-- riscv_vector_opm_instructions.cc:987-1018 -/
def fn_Vwsubw : Code := .mk "Vwsubw" [] [fn_RiscVBinaryVectorOp]

/-- riscv_vector_opm_instructions.cc:1031-1062 -/
def fn_Vwmulu : Code := .mk "Vwmulu" [] [fn_RiscVBinaryVectorOp]

/-- riscv_vector_opm_instructions.cc:1078-1109 -/
def fn_Vwmulsu : Code := .mk "Vwmulsu" [] [fn_RiscVBinaryVectorOp]

/-- riscv_vector_opm_instructions.cc:1112-1143 -/
def fn_Vwmul : Code := .mk "Vwmul" [] [fn_RiscVBinaryVectorOp]

/-- riscv_vector_opm_instructions.cc:1157-1191 -/
def fn_Vwmaccu : Code := .mk "Vwmaccu" [] [fn_RiscVTernaryVectorOp]

/-- riscv_vector_opm_instructions.cc:1194-1225 -/
def fn_Vwmacc : Code := .mk "Vwmacc" [] [fn_RiscVTernaryVectorOp]

/-- riscv_vector_opm_instructions.cc:1228-1261 -/
def fn_Vwmaccus : Code := .mk "Vwmaccus" [] [fn_RiscVTernaryVectorOp]

/-- riscv_vector_opm_instructions.cc:1264-1297 -/
def fn_Vwmaccsu : Code := .mk "Vwmaccsu" [] [fn_RiscVTernaryVectorOp]

/-- riscv_vector_fp_instructions.cc:38-62 -/
def fn_Vfadd : Code := .mk "Vfadd" [] [fn_RiscVBinaryVectorOp]

/-- riscv_vector_fp_reduction_instructions.cc:38-64 -/
def fn_Vfredosum : Code := .mk "Vfredosum" [] [fn_RiscVBinaryReductionVectorOp]

/-- riscv_vector_fp_instructions.cc:65-89 -/
def fn_Vfsub : Code := .mk "Vfsub" [] [fn_RiscVBinaryVectorOp]

/-- riscv_vector_instruction_helpers.h:480-564 -/
def fn_RiscVBinaryVectorOpWithFflags : Code := .mk "RiscVBinaryVectorOpWithFflags" [.src 0, .src 1, .src 2, .dst 0, .dst 1] []

/-- riscv_vector_fp_instructions.cc:759-786 -/
def fn_Vfmin : Code := .mk "Vfmin" [] [fn_RiscVBinaryVectorOpWithFflags]

/-- riscv_vector_fp_reduction_instructions.cc:108-141 -/
def fn_Vfredmin : Code := .mk "Vfredmin" [] [fn_RiscVBinaryReductionVectorOp]

/-- riscv_vector_fp_instructions.cc:789-816 -/
def fn_Vfmax : Code := .mk "Vfmax" [] [fn_RiscVBinaryVectorOpWithFflags]

/-- riscv_vector_fp_reduction_instructions.cc:144-177 -/
def fn_Vfredmax : Code := .mk "Vfredmax" [] [fn_RiscVBinaryReductionVectorOp]

/-- riscv_vector_fp_instructions.cc:664-684 -/
def fn_Vfsgnj : Code := .mk "Vfsgnj" [] [fn_RiscVBinaryVectorOp]

/-- riscv_vector_fp_instructions.cc:687-707 -/
def fn_Vfsgnjn : Code := .mk "Vfsgnjn" [] [fn_RiscVBinaryVectorOp]

/-- riscv_vector_fp_instructions.cc:710-730 -/
def fn_Vfsgnjx : Code := .mk "Vfsgnjx" [] [fn_RiscVBinaryVectorOp]

/-- riscv_vector_permute_instructions.cc:353-366 -/
def fn_Vfslide1up : Code := .mk "Vfslide1up" [] [fn_VSlide1Helper]

/-- riscv_vector_permute_instructions.cc:368-381 -/
def fn_Vfslide1down : Code := .mk "Vfslide1down" [] [fn_VSlide1Helper]

/-- riscv_vector_fp_unary_instructions.cc:64-95 -/
def fn_Vfmvvf : Code := .mk "Vfmvvf" [.src 0, .dst 0] []

/-- riscv_vector_fp_instructions.cc:819-840 -/
def fn_Vfmerge : Code := .mk "Vfmerge" [] [fn_RiscVMaskBinaryVectorOp]

/-- riscv_vector_fp_compare_instructions.cc:27-44 -/
def fn_Vmfeq : Code := .mk "Vmfeq" [] [fn_RiscVBinaryVectorMaskOp]

/-- riscv_vector_fp_compare_instructions.cc:47-64 -/
def fn_Vmfle : Code := .mk "Vmfle" [] [fn_RiscVBinaryVectorMaskOp]

/-- riscv_vector_fp_compare_instructions.cc:67-84 -/
def fn_Vmflt : Code := .mk "Vmflt" [] [fn_RiscVBinaryVectorMaskOp]

/-- riscv_vector_fp_compare_instructions.cc:87-104 -/
def fn_Vmfne : Code := .mk "Vmfne" [] [fn_RiscVBinaryVectorMaskOp]

/-- riscv_vector_fp_compare_instructions.cc:107-124 -/
def fn_Vmfgt : Code := .mk "Vmfgt" [] [fn_RiscVBinaryVectorMaskOp]

/-- riscv_vector_fp_compare_instructions.cc:127-144 -/
def fn_Vmfge : Code := .mk "Vmfge" [] [fn_RiscVBinaryVectorMaskOp]

/-- riscv_vector_fp_instructions.cc:248-272 -/
def fn_Vfdiv : Code := .mk "Vfdiv" [] [fn_RiscVBinaryVectorOp]

/-- riscv_vector_fp_instructions.cc:275-299 -/
def fn_Vfrdiv : Code := .mk "Vfrdiv" [] [fn_RiscVBinaryVectorOp]

/-- riscv_vector_fp_instructions.cc:221-245 -/
def fn_Vfmul : Code := .mk "Vfmul" [] [fn_RiscVBinaryVectorOp]

/-- riscv_vector_fp_instructions.cc:92-116 -/
def fn_Vfrsub : Code := .mk "Vfrsub" [] [fn_RiscVBinaryVectorOp]

/-- riscv_vector_fp_instructions.cc:328-354 -/
def fn_Vfmadd : Code := .mk "Vfmadd" [] [fn_RiscVTernaryVectorOp]

/-- riscv_vector_fp_instructions.cc:357-383 -/
def fn_Vfnmadd : Code := .mk "Vfnmadd" [] [fn_RiscVTernaryVectorOp]

/-- riscv_vector_fp_instructions.cc:386-412 -/
def fn_Vfmsub : Code := .mk "Vfmsub" [] [fn_RiscVTernaryVectorOp]

/-- riscv_vector_fp_instructions.cc:415-441 -/
def fn_Vfnmsub : Code := .mk "Vfnmsub" [] [fn_RiscVTernaryVectorOp]

/-- riscv_vector_fp_instructions.cc:444-470 -/
def fn_Vfmacc : Code := .mk "Vfmacc" [] [fn_RiscVTernaryVectorOp]

/-- riscv_vector_fp_instructions.cc:473-499 -/
def fn_Vfnmacc : Code := .mk "Vfnmacc" [] [fn_RiscVTernaryVectorOp]

/-- riscv_vector_fp_instructions.cc:502-528 -/
def fn_Vfmsac : Code := .mk "Vfmsac" [] [fn_RiscVTernaryVectorOp]

/-- riscv_vector_fp_instructions.cc:531-557 -/
def fn_Vfnmsac : Code := .mk "Vfnmsac" [] [fn_RiscVTernaryVectorOp]

/-- riscv_vector_fp_instructions.cc:119-142 -/
def fn_Vfwadd : Code := .mk "Vfwadd" [] [fn_RiscVBinaryVectorOp]

/-- riscv_vector_fp_reduction_instructions.cc:66-88 -/
def fn_Vfwredosum : Code := .mk "Vfwredosum" [] [fn_RiscVBinaryReductionVectorOp]

/-- riscv_vector_fp_instructions.cc:145-168 -/
def fn_Vfwsub : Code := .mk "Vfwsub" [] [fn_RiscVBinaryVectorOp]

/-- riscv_vector_fp_instructions.cc:302-325 -/
def fn_Vfwmul : Code := .mk "Vfwmul" [] [fn_RiscVBinaryVectorOp]

/-- riscv_vector_fp_instructions.cc:560-583 -/
def fn_Vfwmacc : Code := .mk "Vfwmacc" [] [fn_RiscVTernaryVectorOp]

/-- riscv_vector_fp_instructions.cc:586-609 -/
def fn_Vfwnmacc : Code := .mk "Vfwnmacc" [] [fn_RiscVTernaryVectorOp]

/-- riscv_vector_fp_instructions.cc:612-635 -/
def fn_Vfwmsac : Code := .mk "Vfwmsac" [] [fn_RiscVTernaryVectorOp]

/-- riscv_vector_fp_instructions.cc:638-661 -/
def fn_Vfwnmsac : Code := .mk "Vfwnmsac" [] [fn_RiscVTernaryVectorOp]

/-- riscv_vector_unary_instructions.cc:39-70 -/
def fn_VmvToScalar : Code := .mk "VmvToScalar" [.src 0, .dst 0] []

/-- riscv_vector_unary_instructions.cc:101-135 -/
def fn_Vcpop : Code := .mk "Vcpop" [.src 0, .src 1, .dst 0] []

/-- riscv_vector_unary_instructions.cc:139-176 -/
def fn_Vfirst : Code := .mk "Vfirst" [.src 0, .src 1, .dst 0] []

/-- riscv_vector_unary_instructions.cc:72-97 -/
def fn_VmvFromScalar : Code := .mk "VmvFromScalar" [.src 0, .dst 0] []

/-- riscv_vector_instruction_helpers.h:231-297 -/
def fn_RiscVUnaryVectorOp : Code := .mk "RiscVUnaryVectorOp" [.src 0, .src 1, .dst 0] []

/-- riscv_vector_unary_instructions.cc:263-276 -/
def fn_Vzext8 : Code := .mk "Vzext8" [] [fn_RiscVUnaryVectorOp]

/-- riscv_vector_unary_instructions.cc:278-291 -/
def fn_Vsext8 : Code := .mk "Vsext8" [] [fn_RiscVUnaryVectorOp]

/-- riscv_vector_unary_instructions.cc:225-242 -/
def fn_Vzext4 : Code := .mk "Vzext4" [] [fn_RiscVUnaryVectorOp]

/-- riscv_vector_unary_instructions.cc:244-261 -/
def fn_Vsext4 : Code := .mk "Vsext4" [] [fn_RiscVUnaryVectorOp]

/-- riscv_vector_unary_instructions.cc:179-200 -/
def fn_Vzext2 : Code := .mk "Vzext2" [] [fn_RiscVUnaryVectorOp]

/-- riscv_vector_unary_instructions.cc:202-223 -/
def fn_Vsext2 : Code := .mk "Vsext2" [] [fn_RiscVUnaryVectorOp]

/-- riscv_vector_fp_unary_instructions.cc:126-157 -/
def fn_Vfmvfs : Code := .mk "Vfmvfs" [.src 0, .dst 0] []

/-- riscv_vector_fp_unary_instructions.cc:98-123 -/
def fn_Vfmvsf : Code := .mk "Vfmvsf" [.src 0, .dst 0] []

/-- riscv_vector_instruction_helpers.h:302-375 -/
def fn_RiscVUnaryVectorOpWithFflags : Code := .mk "RiscVUnaryVectorOpWithFflags" [.src 0, .src 1, .dst 0, .dst 1] []

/-- riscv_vector_fp_unary_instructions.cc:160-185 -/
def fn_Vfcvtxufv : Code := .mk "Vfcvtxufv" [] [fn_RiscVUnaryVectorOpWithFflags]

/-- riscv_vector_fp_unary_instructions.cc:188-213 -/
def fn_Vfcvtxfv : Code := .mk "Vfcvtxfv" [] [fn_RiscVUnaryVectorOpWithFflags]

/-- riscv_vector_fp_unary_instructions.cc:216-240 -/
def fn_Vfcvtfxuv : Code := .mk "Vfcvtfxuv" [] [fn_RiscVUnaryVectorOp]

/-- riscv_vector_fp_unary_instructions.cc:243-267 -/
def fn_Vfcvtfxv : Code := .mk "Vfcvtfxv" [] [fn_RiscVUnaryVectorOp]

/-- riscv_vector_fp_unary_instructions.cc:270-290 -/
def fn_Vfcvtrtzxufv : Code := .mk "Vfcvtrtzxufv" [] [fn_RiscVUnaryVectorOpWithFflags]

/-- riscv_vector_fp_unary_instructions.cc:293-313 -/
def fn_Vfcvtrtzxfv : Code := .mk "Vfcvtrtzxfv" [] [fn_RiscVUnaryVectorOpWithFflags]

/-- riscv_vector_fp_unary_instructions.cc:316-336 -/
def fn_Vfwcvtxufv : Code := .mk "Vfwcvtxufv" [] [fn_RiscVUnaryVectorOpWithFflags]

/-- riscv_vector_fp_unary_instructions.cc:339-359 -/
def fn_Vfwcvtxfv : Code := .mk "Vfwcvtxfv" [] [fn_RiscVUnaryVectorOpWithFflags]

/-- riscv_vector_fp_unary_instructions.cc:378-402 -/
def fn_Vfwcvtfxuv : Code := .mk "Vfwcvtfxuv" [] [fn_RiscVUnaryVectorOp]

/-- riscv_vector_fp_unary_instructions.cc:405-429 -/
def fn_Vfwcvtfxv : Code := .mk "Vfwcvtfxv" [] [fn_RiscVUnaryVectorOp]

/-- riscv_vector_fp_unary_instructions.cc:362-375 -/
def fn_Vfwcvtffv : Code := .mk "Vfwcvtffv" [] [fn_RiscVUnaryVectorOp]

/-- riscv_vector_fp_unary_instructions.cc:432-447 -/
def fn_Vfwcvtrtzxufv : Code := .mk "Vfwcvtrtzxufv" [] [fn_RiscVUnaryVectorOpWithFflags]

/-- riscv_vector_fp_unary_instructions.cc:450-465 -/
def fn_Vfwcvtrtzxfv : Code := .mk "Vfwcvtrtzxfv" [] [fn_RiscVUnaryVectorOpWithFflags]

/-- riscv_vector_fp_unary_instructions.cc:468-493 -/
def fn_Vfncvtxufw : Code := .mk "Vfncvtxufw" [] [fn_RiscVUnaryVectorOpWithFflags]

/-- riscv_vector_fp_unary_instructions.cc:496-521 -/
def fn_Vfncvtxfw : Code := .mk "Vfncvtxfw" [] [fn_RiscVUnaryVectorOpWithFflags]

/-- riscv_vector_fp_unary_instructions.cc:588-608 -/
def fn_Vfncvtfxuw : Code := .mk "Vfncvtfxuw" [] [fn_RiscVUnaryVectorOp]

/-- riscv_vector_fp_unary_instructions.cc:611-631 -/
def fn_Vfncvtfxw : Code := .mk "Vfncvtfxw" [] [fn_RiscVUnaryVectorOp]

/-- riscv_vector_fp_unary_instructions.cc:524-544 -/
def fn_Vfncvtffw : Code := .mk "Vfncvtffw" [] [fn_RiscVUnaryVectorOp]

/-- riscv_vector_fp_unary_instructions.cc:547-585 -/
def fn_Vfncvtrodffw : Code := .mk "Vfncvtrodffw" [] [fn_RiscVUnaryVectorOp]

/-- riscv_vector_fp_unary_instructions.cc:634-654 -/
def fn_Vfncvtrtzxufw : Code := .mk "Vfncvtrtzxufw" [] [fn_RiscVUnaryVectorOpWithFflags]

/-- riscv_vector_fp_unary_instructions.cc:657-677 -/
def fn_Vfncvtrtzxfw : Code := .mk "Vfncvtrtzxfw" [] [fn_RiscVUnaryVectorOpWithFflags]

/-- riscv_vector_fp_unary_instructions.cc:696-733 -/
def fn_Vfsqrtv : Code := .mk "Vfsqrtv" [] [fn_RiscVUnaryVectorOp]

/-- riscv_vector_fp_unary_instructions.cc:807-829 -/
def fn_Vfrsqrt7v : Code := .mk "Vfrsqrt7v" [] [fn_RiscVUnaryVectorOpWithFflags]

/-- riscv_vector_fp_unary_instructions.cc:919-939 -/
def fn_Vfrec7v : Code := .mk "Vfrec7v" [] [fn_RiscVUnaryVectorOp]

/-- riscv_vector_fp_unary_instructions.cc:942-961 -/
def fn_Vfclassv : Code := .mk "Vfclassv" [] [fn_RiscVUnaryVectorOp]

/-- riscv_vector_unary_instructions.cc:294-333 -/
def fn_Vmsbf : Code := .mk "Vmsbf" [.src 0, .src 1, .dst 0] []

/-- riscv_vector_unary_instructions.cc:373-405 -/
def fn_Vmsof : Code := .mk "Vmsof" [.src 0, .src 1, .dst 0] []

/-- riscv_vector_unary_instructions.cc:336-370 -/
def fn_Vmsif : Code := .mk "Vmsif" [.src 0, .src 1, .dst 0] []

/-- riscv_vector_instruction_helpers.h:155-226 -/
def fn_RiscVMaskNullaryVectorOp : Code := .mk "RiscVMaskNullaryVectorOp" [.dst 0, .srcOver 1 0, .srcOver 1 1, .srcUpTo 1 0] []

/-- riscv_vector_unary_instructions.cc:411-445 -/
def fn_Viota : Code := .mk "Viota" [] [fn_RiscVMaskNullaryVectorOp]

/-- riscv_vector_unary_instructions.cc:449-483 -/
def fn_Vid : Code := .mk "Vid" [] [fn_RiscVMaskNullaryVectorOp]

/-- riscv_i_instructions.cc:196-199 -/
def rv64_RiscVIAdd : Code := .mk "RV64::RiscVIAdd" [] [fn_RiscVBinaryOp]

/-- riscv_i_instructions.cc:201-207 -/
def rv64_RiscVIAddw : Code := .mk "RV64::RiscVIAddw" [] [fn_RiscVBinaryOp]

/-- riscv_i_instructions.cc:222-225 -/
def rv64_RiscVISlt : Code := .mk "RV64::RiscVISlt" [] [fn_RiscVBinaryOp]

/-- riscv_i_instructions.cc:227-230 -/
def rv64_RiscVISltu : Code := .mk "RV64::RiscVISltu" [] [fn_RiscVBinaryOp]

/-- riscv_i_instructions.cc:232-235 -/
def rv64_RiscVIAnd : Code := .mk "RV64::RiscVIAnd" [] [fn_RiscVBinaryOp]

/-- riscv_i_instructions.cc:237-240 -/
def rv64_RiscVIOr : Code := .mk "RV64::RiscVIOr" [] [fn_RiscVBinaryOp]

/-- riscv_i_instructions.cc:242-245 -/
def rv64_RiscVIXor : Code := .mk "RV64::RiscVIXor" [] [fn_RiscVBinaryOp]

/-- riscv_i_instructions.cc:247-250 -/
def rv64_RiscVISll : Code := .mk "RV64::RiscVISll" [] [fn_RiscVBinaryOp]

/-- riscv_i_instructions.cc:252-255 -/
def rv64_RiscVISrl : Code := .mk "RV64::RiscVISrl" [] [fn_RiscVBinaryOp]

/-- riscv_i_instructions.cc:257-260 -/
def rv64_RiscVISra : Code := .mk "RV64::RiscVISra" [] [fn_RiscVBinaryOp]

/-- riscv_i_instructions.cc:262-267 -/
def rv64_RiscVISllw : Code := .mk "RV64::RiscVISllw" [] [fn_RiscVBinaryOp]

/-- riscv_i_instructions.cc:269-275 -/
def rv64_RiscVISrlw : Code := .mk "RV64::RiscVISrlw" [] [fn_RiscVBinaryOp]

/-- riscv_i_instructions.cc:277-282 -/
def rv64_RiscVISraw : Code := .mk "RV64::RiscVISraw" [] [fn_RiscVBinaryOp]

/-- riscv_i_instructions.cc:286-292 -/
def rv64_RiscVILui : Code := .mk "RV64::RiscVILui" [] [fn_RiscVUnaryOp]

/-- riscv_i_instructions.cc:296-302 -/
def rv64_RiscVIAuipc : Code := .mk "RV64::RiscVIAuipc" [] [fn_RiscVUnaryOp]

/-- riscv_i_instructions.cc:209-212 -/
def rv64_RiscVISub : Code := .mk "RV64::RiscVISub" [] [fn_RiscVBinaryOp]

/-- riscv_i_instructions.cc:214-220 -/
def rv64_RiscVISubw : Code := .mk "RV64::RiscVISubw" [] [fn_RiscVBinaryOp]

/-- riscv_i_instructions.cc:306-322 -/
def rv64_RiscVIJal : Code := .mk "RV64::RiscVIJal" [.src 0, .dst 0, .dst 1] [fn_IsTargetMisaligned]

/-- riscv_i_instructions.cc:324-341 -/
def rv64_RiscVIJalr : Code := .mk "RV64::RiscVIJalr" [.src 0, .src 1, .dst 0, .dst 1] [fn_IsTargetMisaligned]

/-- riscv_i_instructions.cc:397-400 -/
def rv64_RiscVIBeq : Code := .mk "RV64::RiscVIBeq" [] [fn_BranchConditional]

/-- riscv_i_instructions.cc:402-405 -/
def rv64_RiscVIBne : Code := .mk "RV64::RiscVIBne" [] [fn_BranchConditional]

/-- riscv_i_instructions.cc:407-410 -/
def rv64_RiscVIBlt : Code := .mk "RV64::RiscVIBlt" [] [fn_BranchConditional]

/-- riscv_i_instructions.cc:412-415 -/
def rv64_RiscVIBltu : Code := .mk "RV64::RiscVIBltu" [] [fn_BranchConditional]

/-- riscv_i_instructions.cc:417-420 -/
def rv64_RiscVIBge : Code := .mk "RV64::RiscVIBge" [] [fn_BranchConditional]

/-- riscv_i_instructions.cc:422-425 -/
def rv64_RiscVIBgeu : Code := .mk "RV64::RiscVIBgeu" [] [fn_BranchConditional]

/-- riscv_i_instructions.cc:491-493 -/
def rv64_RiscVILw : Code := .mk "RV64::RiscVILw" [] [fn_RVLoad]

/-- riscv_i_instructions.cc:495-497 -/
def rv64_RiscVILwChild : Code := .mk "RV64::RiscVILwChild" [] [fn_RVLoadChild]

/-- riscv_i_instructions.cc:503-505 -/
def rv64_RiscVILwuChild : Code := .mk "RV64::RiscVILwuChild" [] [fn_RVLoadChild]

/-- riscv_i_instructions.cc:507-509 -/
def rv64_RiscVILh : Code := .mk "RV64::RiscVILh" [] [fn_RVLoad]

/-- riscv_i_instructions.cc:511-513 -/
def rv64_RiscVILhChild : Code := .mk "RV64::RiscVILhChild" [] [fn_RVLoadChild]

/-- riscv_i_instructions.cc:515-517 -/
def rv64_RiscVILhu : Code := .mk "RV64::RiscVILhu" [] [fn_RVLoad]

/-- riscv_i_instructions.cc:519-521 -/
def rv64_RiscVILhuChild : Code := .mk "RV64::RiscVILhuChild" [] [fn_RVLoadChild]

/-- riscv_i_instructions.cc:523-525 -/
def rv64_RiscVILb : Code := .mk "RV64::RiscVILb" [] [fn_RVLoad]

/-- riscv_i_instructions.cc:527-529 -/
def rv64_RiscVILbChild : Code := .mk "RV64::RiscVILbChild" [] [fn_RVLoadChild]

/-- riscv_i_instructions.cc:531-533 -/
def rv64_RiscVILbu : Code := .mk "RV64::RiscVILbu" [] [fn_RVLoad]

/-- riscv_i_instructions.cc:535-537 -/
def rv64_RiscVILbuChild : Code := .mk "RV64::RiscVILbuChild" [] [fn_RVLoadChild]

/-- riscv_i_instructions.cc:571-573 -/
def rv64_RiscVISw : Code := .mk "RV64::RiscVISw" [] [fn_RVStore]

/-- riscv_i_instructions.cc:575-577 -/
def rv64_RiscVISh : Code := .mk "RV64::RiscVISh" [] [fn_RVStore]

/-- riscv_i_instructions.cc:579-581 -/
def rv64_RiscVISb : Code := .mk "RV64::RiscVISb" [] [fn_RVStore]

/-- riscv_m_instructions.cc:117-123 -/
def rv64_MMul : Code := .mk "RV64::MMul" [] [ext_BinaryOp]

/-- riscv_m_instructions.cc:193-200 -/
def rv64_MMulw : Code := .mk "RV64::MMulw" [] [ext_BinaryOp]

/-- riscv_m_instructions.cc:125-130 -/
def rv64_MMulh : Code := .mk "RV64::MMulh" [] [ext_BinaryOp]

/-- riscv_m_instructions.cc:132-137 -/
def rv64_MMulhu : Code := .mk "RV64::MMulhu" [] [ext_BinaryOp]

/-- riscv_m_instructions.cc:139-157 -/
def rv64_MMulhsu : Code := .mk "RV64::MMulhsu" [] [ext_BinaryOp]

/-- riscv_m_instructions.cc:159-167 -/
def rv64_MDiv : Code := .mk "RV64::MDiv" [] [ext_BinaryOp]

/-- riscv_m_instructions.cc:169-174 -/
def rv64_MDivu : Code := .mk "RV64::MDivu" [] [ext_BinaryOp]

/-- riscv_m_instructions.cc:176-184 -/
def rv64_MRem : Code := .mk "RV64::MRem" [] [ext_BinaryOp]

/-- riscv_m_instructions.cc:186-191 -/
def rv64_MRemu : Code := .mk "RV64::MRemu" [] [ext_BinaryOp]

/-- riscv_m_instructions.cc:202-212 -/
def rv64_MDivw : Code := .mk "RV64::MDivw" [] [ext_BinaryOp]

/-- riscv_m_instructions.cc:214-220 -/
def rv64_MDivuw : Code := .mk "RV64::MDivuw" [] [ext_BinaryOp]

/-- riscv_m_instructions.cc:222-231 -/
def rv64_MRemw : Code := .mk "RV64::MRemw" [] [ext_BinaryOp]

/-- riscv_m_instructions.cc:233-239 -/
def rv64_MRemuw : Code := .mk "RV64::MRemuw" [] [ext_BinaryOp]

/-- riscv_a_instructions.cc:126-129 -/
def fn_ALrd : Code := .mk "ALrd" [] [fn_AInstructionHelper]

/-- riscv_a_instructions.cc:131-134 -/
def fn_AScd : Code := .mk "AScd" [] [fn_AInstructionHelper]

/-- riscv_a_instructions.cc:136-139 -/
def fn_AAmoswapd : Code := .mk "AAmoswapd" [] [fn_AInstructionHelper]

/-- riscv_a_instructions.cc:146-149 -/
def fn_AAmoandd : Code := .mk "AAmoandd" [] [fn_AInstructionHelper]

/-- riscv_a_instructions.cc:151-154 -/
def fn_AAmoord : Code := .mk "AAmoord" [] [fn_AInstructionHelper]

/-- riscv_a_instructions.cc:156-159 -/
def fn_AAmoxord : Code := .mk "AAmoxord" [] [fn_AInstructionHelper]

/-- riscv_a_instructions.cc:141-144 -/
def fn_AAmoaddd : Code := .mk "AAmoaddd" [] [fn_AInstructionHelper]

/-- riscv_a_instructions.cc:161-164 -/
def fn_AAmomaxd : Code := .mk "AAmomaxd" [] [fn_AInstructionHelper]

/-- riscv_a_instructions.cc:166-169 -/
def fn_AAmomaxud : Code := .mk "AAmomaxud" [] [fn_AInstructionHelper]

/-- riscv_a_instructions.cc:171-174 -/
def fn_AAmomind : Code := .mk "AAmomind" [] [fn_AInstructionHelper]

/-- riscv_a_instructions.cc:176-179 -/
def fn_AAmominud : Code := .mk "AAmominud" [] [fn_AInstructionHelper]

/-- riscv_f_instructions.cc:453-465 -/
def rv64_RiscVFSw : Code := .mk "RV64::RiscVFSw" [.src 0, .src 1, .src 2] []

/-- riscv_f_instructions.cc:468-470 -/
def rv64_RiscVFCvtWs : Code := .mk "RV64::RiscVFCvtWs" [] [fn_RVFCvtWs]

/-- riscv_f_instructions.cc:72-75 -/
def fn_RVFCvtLs : Code := .mk "RVFCvtLs" [] [fn_RiscVConvertFloatWithFflagsOp]

/-- riscv_f_instructions.cc:478-480 -/
def rv64_RiscVFCvtLs : Code := .mk "RV64::RiscVFCvtLs" [] [fn_RVFCvtLs]

/-- riscv_f_instructions.cc:367-370 -/
def fn_RiscVFCvtSl : Code := .mk "RiscVFCvtSl" [] [fn_RiscVUnaryFloatNaNBoxOp]

/-- riscv_f_instructions.cc:473-475 -/
def rv64_RiscVFCvtWus : Code := .mk "RV64::RiscVFCvtWus" [] [fn_RVFCvtWus]

/-- riscv_f_instructions.cc:78-81 -/
def fn_RVFCvtLus : Code := .mk "RVFCvtLus" [] [fn_RiscVConvertFloatWithFflagsOp]

/-- riscv_f_instructions.cc:483-485 -/
def rv64_RiscVFCvtLus : Code := .mk "RV64::RiscVFCvtLus" [] [fn_RVFCvtLus]

/-- riscv_f_instructions.cc:373-376 -/
def fn_RiscVFCvtSlu : Code := .mk "RiscVFCvtSlu" [] [fn_RiscVUnaryFloatNaNBoxOp]

/-- riscv_f_instructions.cc:489-492 -/
def rv64_RiscVFMvxw : Code := .mk "RV64::RiscVFMvxw" [] [fn_RiscVUnaryOp]

/-- riscv_f_instructions.cc:501-503 -/
def rv64_RiscVFCmpeq : Code := .mk "RV64::RiscVFCmpeq" [] [fn_RVFCmpeq]

/-- riscv_f_instructions.cc:506-508 -/
def rv64_RiscVFCmplt : Code := .mk "RV64::RiscVFCmplt" [] [fn_RVFCmplt]

/-- riscv_f_instructions.cc:511-513 -/
def rv64_RiscVFCmple : Code := .mk "RV64::RiscVFCmple" [] [fn_RVFCmple]

/-- riscv_f_instructions.cc:516-520 -/
def rv64_RiscVFClass : Code := .mk "RV64::RiscVFClass" [] [fn_RiscVUnaryOp]

/-- riscv_d_instructions.cc:441-453 -/
def rv64_RiscVDSd : Code := .mk "RV64::RiscVDSd" [.src 0, .src 1, .src 2] []

/-- riscv_d_instructions.cc:456-458 -/
def rv64_RiscVDCvtWd : Code := .mk "RV64::RiscVDCvtWd" [] [fn_RiscVConvertFloatWithFflagsOp]

/-- riscv_d_instructions.cc:512-514 -/
def rv64_RiscVDCvtLd : Code := .mk "RV64::RiscVDCvtLd" [] [fn_RiscVConvertFloatWithFflagsOp]

/-- riscv_d_instructions.cc:522-525 -/
def rv64_RiscVDCvtDl : Code := .mk "RV64::RiscVDCvtDl" [] [fn_RiscVUnaryFloatOp]

/-- riscv_d_instructions.cc:460-462 -/
def rv64_RiscVDCvtWud : Code := .mk "RV64::RiscVDCvtWud" [] [fn_RiscVConvertFloatWithFflagsOp]

/-- riscv_d_instructions.cc:517-519 -/
def rv64_RiscVDCvtLud : Code := .mk "RV64::RiscVDCvtLud" [] [fn_RiscVConvertFloatWithFflagsOp]

/-- riscv_d_instructions.cc:528-531 -/
def rv64_RiscVDCvtDlu : Code := .mk "RV64::RiscVDCvtDlu" [] [fn_RiscVUnaryFloatOp]

/-- riscv_d_instructions.cc:465-475 -/
def rv64_RiscVDCmpeq : Code := .mk "RV64::RiscVDCmpeq" [.dst 1] [fn_RiscVBinaryOp]

/-- riscv_d_instructions.cc:478-488 -/
def rv64_RiscVDCmplt : Code := .mk "RV64::RiscVDCmplt" [.dst 1] [fn_RiscVBinaryOp]

/-- riscv_d_instructions.cc:491-501 -/
def rv64_RiscVDCmple : Code := .mk "RV64::RiscVDCmple" [.dst 1] [fn_RiscVBinaryOp]

/-- riscv_d_instructions.cc:504-509 -/
def rv64_RiscVDClass : Code := .mk "RV64::RiscVDClass" [] [fn_RiscVUnaryOp]

/-- riscv_d_instructions.cc:538-541 -/
def rv64_RiscVDMvdx : Code := .mk "RV64::RiscVDMvdx" [] [fn_RiscVUnaryOp]

/-- riscv_d_instructions.cc:533-536 -/
def rv64_RiscVDMvxd : Code := .mk "RV64::RiscVDMvxd" [] [fn_RiscVUnaryOp]

/-- riscv_zicsr_instructions.cc:242-242 -/
def rv64_RiscVZiCsrrw : Code := .mk "RV64::RiscVZiCsrrw" [] [fn_RVZiCsrrw]

/-- riscv_zicsr_instructions.cc:245-245 -/
def rv64_RiscVZiCsrrs : Code := .mk "RV64::RiscVZiCsrrs" [] [fn_RVZiCsrrs]

/-- riscv_zicsr_instructions.cc:248-248 -/
def rv64_RiscVZiCsrrc : Code := .mk "RV64::RiscVZiCsrrc" [] [fn_RVZiCsrrc]

/-- riscv_zicsr_instructions.cc:251-253 -/
def rv64_RiscVZiCsrrwNr : Code := .mk "RV64::RiscVZiCsrrwNr" [] [fn_RVZiCsrrwNr]

/-- riscv_zicsr_instructions.cc:256-258 -/
def rv64_RiscVZiCsrrNw : Code := .mk "RV64::RiscVZiCsrrNw" [] [fn_RVZiCsrrNw]

/-- riscv_priv_instructions.cc:163-165 -/
def rv64_RiscVPrivURet : Code := .mk "RV64::RiscVPrivURet" [] []

/-- riscv_priv_instructions.cc:167-235 -/
def rv64_RiscVPrivSRet : Code := .mk "RV64::RiscVPrivSRet" [.dst 0] []

/-- riscv_priv_instructions.cc:237-290 -/
def rv64_RiscVPrivMRet : Code := .mk "RV64::RiscVPrivMRet" [.dst 0] []

/-- riscv_bitmanip_instructions.cc:266-270 -/
def rv64_RiscVShAdd : Code := .mk "RV64::RiscVShAdd" [.src 2] [fn_RiscVBinaryOp]

/-- riscv_b_instructions.cc:59-62, riscv_bitmanip_instructions.cc:259-263 -/
def rv64_RiscVAddUw : Code := .mk "RV64::RiscVAddUw" [] [fn_RiscVBinaryOp]

/-- riscv_bitmanip_instructions.cc:272-278 -/
def rv64_RiscVShAddUw : Code := .mk "RV64::RiscVShAddUw" [.src 2] [fn_RiscVBinaryOp]

/-- riscv_bitmanip_instructions.cc:280-285 -/
def rv64_RiscVSlliUw : Code := .mk "RV64::RiscVSlliUw" [] [fn_RiscVBinaryOp]

/-- riscv_b_instructions.cc:93-96, riscv_bitmanip_instructions.cc:288-291 -/
def rv64_RiscVAndn : Code := .mk "RV64::RiscVAndn" [] [fn_RiscVBinaryOp]

/-- riscv_b_instructions.cc:98-101, riscv_bitmanip_instructions.cc:294-297 -/
def rv64_RiscVOrn : Code := .mk "RV64::RiscVOrn" [] [fn_RiscVBinaryOp]

/-- riscv_b_instructions.cc:103-106, riscv_bitmanip_instructions.cc:300-303 -/
def rv64_RiscVXnor : Code := .mk "RV64::RiscVXnor" [] [fn_RiscVBinaryOp]

/-- riscv_b_instructions.cc:108-111, riscv_bitmanip_instructions.cc:311-314 -/
def rv64_RiscVClz : Code := .mk "RV64::RiscVClz" [] [fn_RiscVUnaryOp]

/-- riscv_b_instructions.cc:120-123, riscv_bitmanip_instructions.cc:322-325 -/
def rv64_RiscVCtz : Code := .mk "RV64::RiscVCtz" [] [fn_RiscVUnaryOp]

/-- riscv_b_instructions.cc:132-135, riscv_bitmanip_instructions.cc:333-336 -/
def rv64_RiscVCpop : Code := .mk "RV64::RiscVCpop" [] [fn_RiscVUnaryOp]

/-- riscv_b_instructions.cc:143-146, riscv_bitmanip_instructions.cc:344-347 -/
def rv64_RiscVMax : Code := .mk "RV64::RiscVMax" [] [fn_RiscVBinaryOp]

/-- riscv_b_instructions.cc:148-151, riscv_bitmanip_instructions.cc:350-353 -/
def rv64_RiscVMaxu : Code := .mk "RV64::RiscVMaxu" [] [fn_RiscVBinaryOp]

/-- riscv_b_instructions.cc:153-156, riscv_bitmanip_instructions.cc:356-359 -/
def rv64_RiscVMin : Code := .mk "RV64::RiscVMin" [] [fn_RiscVBinaryOp]

/-- riscv_b_instructions.cc:158-161, riscv_bitmanip_instructions.cc:362-365 -/
def rv64_RiscVMinu : Code := .mk "RV64::RiscVMinu" [] [fn_RiscVBinaryOp]

/-- riscv_bitmanip_instructions.cc:368-371 -/
def rv64_RiscVSextB : Code := .mk "RV64::RiscVSextB" [] [fn_RiscVUnaryOp]

/-- riscv_bitmanip_instructions.cc:374-377 -/
def rv64_RiscVSextH : Code := .mk "RV64::RiscVSextH" [] [fn_RiscVUnaryOp]

/-- riscv_bitmanip_instructions.cc:380-384 -/
def rv64_RiscVZextH : Code := .mk "RV64::RiscVZextH" [] [fn_RiscVUnaryOp]

/-- riscv_b_instructions.cc:194-198, riscv_bitmanip_instructions.cc:394-401 -/
def rv64_RiscVRol : Code := .mk "RV64::RiscVRol" [] [fn_RiscVBinaryOp]

/-- riscv_b_instructions.cc:213-217, riscv_bitmanip_instructions.cc:416-423 -/
def rv64_RiscVRor : Code := .mk "RV64::RiscVRor" [] [fn_RiscVBinaryOp]

/-- riscv_b_instructions.cc:242-253, riscv_bitmanip_instructions.cc:438-450 -/
def rv64_RiscVOrcb : Code := .mk "RV64::RiscVOrcb" [] [fn_RiscVUnaryOp]

/-- riscv_b_instructions.cc:255-270, riscv_bitmanip_instructions.cc:453-463 -/
def rv64_RiscVRev8 : Code := .mk "RV64::RiscVRev8" [] [fn_RiscVUnaryOp]

/-- riscv_b_instructions.cc:113-118, riscv_bitmanip_instructions.cc:316-319 -/
def rv64_RiscVClzw : Code := .mk "RV64::RiscVClzw" [] [fn_RiscVUnaryOp]

/-- riscv_b_instructions.cc:125-130, riscv_bitmanip_instructions.cc:327-330 -/
def rv64_RiscVCtzw : Code := .mk "RV64::RiscVCtzw" [] [fn_RiscVUnaryOp]

/-- riscv_b_instructions.cc:137-141, riscv_bitmanip_instructions.cc:338-341 -/
def rv64_RiscVCpopw : Code := .mk "RV64::RiscVCpopw" [] [fn_RiscVUnaryOp]

/-- riscv_b_instructions.cc:200-211, riscv_bitmanip_instructions.cc:403-413 -/
def rv64_RiscVRolw : Code := .mk "RV64::RiscVRolw" [] [fn_RiscVBinaryOp]

/-- riscv_b_instructions.cc:219-230, riscv_bitmanip_instructions.cc:425-435 -/
def rv64_RiscVRorw : Code := .mk "RV64::RiscVRorw" [] [fn_RiscVBinaryOp]

/-- riscv_bitmanip_instructions.cc:466-475 -/
def rv64_RiscVClmul : Code := .mk "RV64::RiscVClmul" [] [fn_RiscVBinaryOp]

/-- riscv_bitmanip_instructions.cc:478-487 -/
def rv64_RiscVClmulh : Code := .mk "RV64::RiscVClmulh" [] [fn_RiscVBinaryOp]

/-- riscv_bitmanip_instructions.cc:490-499 -/
def rv64_RiscVClmulr : Code := .mk "RV64::RiscVClmulr" [] [fn_RiscVBinaryOp]

/-- riscv_bitmanip_instructions.cc:502-506 -/
def rv64_RiscVBclr : Code := .mk "RV64::RiscVBclr" [] [fn_RiscVBinaryOp]

/-- riscv_bitmanip_instructions.cc:509-513 -/
def rv64_RiscVBext : Code := .mk "RV64::RiscVBext" [] [fn_RiscVBinaryOp]

/-- riscv_bitmanip_instructions.cc:516-520 -/
def rv64_RiscVBinv : Code := .mk "RV64::RiscVBinv" [] [fn_RiscVBinaryOp]

/-- riscv_bitmanip_instructions.cc:523-527 -/
def rv64_RiscVBset : Code := .mk "RV64::RiscVBset" [] [fn_RiscVBinaryOp]

/-- riscv_zfh_instructions.cc:294-348 -/
def fn_RiscVZfhCvtHelper : Code := .mk "RiscVZfhCvtHelper" [.src 0, .src 1, .dst 0, .dst 1] []

/-- riscv_zfh_instructions.cc:754-759 -/
def fn_RiscVZfhCvtSh : Code := .mk "RiscVZfhCvtSh" [] [fn_RiscVZfhCvtHelper]

/-- riscv_zfh_instructions.cc:762-767 -/
def fn_RiscVZfhCvtHs : Code := .mk "RiscVZfhCvtHs" [] [fn_RiscVZfhCvtHelper]

/-- riscv_zfh_instructions.cc:770-775 -/
def fn_RiscVZfhCvtDh : Code := .mk "RiscVZfhCvtDh" [] [fn_RiscVZfhCvtHelper]

/-- riscv_zfh_instructions.cc:778-783 -/
def fn_RiscVZfhCvtHd : Code := .mk "RiscVZfhCvtHd" [] [fn_RiscVZfhCvtHelper]

/-- riscv_zfh_instructions.cc:733-751 -/
def fn_RiscVZfhFlhChild : Code := .mk "RiscVZfhFlhChild" [.dst 0] []

/-- riscv_zfh_instructions.cc:494-504 -/
def fn_RiscVZfhFMvxhHelper : Code := .mk "RiscVZfhFMvxhHelper" [] [fn_RiscVUnaryFloatOp]

/-- riscv_zfh_instructions.cc:606-608 -/
def rv32_RiscVZfhFMvxh : Code := .mk "RV32::RiscVZfhFMvxh" [] [fn_RiscVZfhFMvxhHelper]

/-- riscv_zfh_instructions.cc:507-526 -/
def fn_RiscVZfhFMvhxHelper : Code := .mk "RiscVZfhFMvhxHelper" [.src 0, .dst 0] []

/-- riscv_zfh_instructions.cc:612-614 -/
def rv32_RiscVZfhFMvhx : Code := .mk "RV32::RiscVZfhFMvhx" [] [fn_RiscVZfhFMvhxHelper]

/-- riscv_zfh_instructions.cc:921-928 -/
def fn_RiscVZfhCvtHw : Code := .mk "RiscVZfhCvtHw" [] [fn_RiscVZfhCvtHelper]

/-- riscv_zfh_instructions.cc:931-938 -/
def fn_RiscVZfhCvtHwu : Code := .mk "RiscVZfhCvtHwu" [] [fn_RiscVZfhCvtHelper]

/-- riscv_zfh_instructions.cc:395-438 -/
def fn_RiscVZfhBinaryHelper : Code := .mk "RiscVZfhBinaryHelper" [.src 2, .dst 1] [fn_RiscVBinaryFloatNaNBoxOp]

/-- riscv_zfh_instructions.cc:786-789 -/
def fn_RiscVZfhFadd : Code := .mk "RiscVZfhFadd" [] [fn_RiscVZfhBinaryHelper]

/-- riscv_zfh_instructions.cc:792-795 -/
def fn_RiscVZfhFsub : Code := .mk "RiscVZfhFsub" [] [fn_RiscVZfhBinaryHelper]

/-- riscv_zfh_instructions.cc:798-801 -/
def fn_RiscVZfhFmul : Code := .mk "RiscVZfhFmul" [] [fn_RiscVZfhBinaryHelper]

/-- riscv_zfh_instructions.cc:804-807 -/
def fn_RiscVZfhFdiv : Code := .mk "RiscVZfhFdiv" [] [fn_RiscVZfhBinaryHelper]

/-- riscv_zfh_instructions.cc:811-825 -/
def fn_RiscVZfhFmin : Code := .mk "RiscVZfhFmin" [] [fn_RiscVZfhBinaryHelper]

/-- riscv_zfh_instructions.cc:829-843 -/
def fn_RiscVZfhFmax : Code := .mk "RiscVZfhFmax" [] [fn_RiscVZfhBinaryHelper]

/-- riscv_zfh_instructions.cc:351-392 -/
def fn_RiscVZfhUnaryHelper : Code := .mk "RiscVZfhUnaryHelper" [.src 1, .dst 1] [fn_RiscVUnaryFloatNaNBoxOp]

/-- riscv_zfh_instructions.cc:847-850 -/
def fn_RiscVZfhFsqrt : Code := .mk "RiscVZfhFsqrt" [] [fn_RiscVZfhUnaryHelper]

/-- riscv_zfh_instructions.cc:854-862 -/
def fn_RiscVZfhFsgnj : Code := .mk "RiscVZfhFsgnj" [] [fn_RiscVBinaryFloatNaNBoxOp]

/-- riscv_zfh_instructions.cc:866-874 -/
def fn_RiscVZfhFsgnjn : Code := .mk "RiscVZfhFsgnjn" [] [fn_RiscVBinaryFloatNaNBoxOp]

/-- riscv_zfh_instructions.cc:878-886 -/
def fn_RiscVZfhFsgnjx : Code := .mk "RiscVZfhFsgnjx" [] [fn_RiscVBinaryFloatNaNBoxOp]

/-- riscv_zfh_instructions.cc:441-491 -/
def fn_RiscVZfhTernaryHelper : Code := .mk "RiscVZfhTernaryHelper" [.src 3, .dst 1] [fn_RiscVTernaryFloatNaNBoxOp]

/-- riscv_zfh_instructions.cc:890-894 -/
def fn_RiscVZfhFmadd : Code := .mk "RiscVZfhFmadd" [] [fn_RiscVZfhTernaryHelper]

/-- riscv_zfh_instructions.cc:898-902 -/
def fn_RiscVZfhFmsub : Code := .mk "RiscVZfhFmsub" [] [fn_RiscVZfhTernaryHelper]

/-- riscv_zfh_instructions.cc:906-910 -/
def fn_RiscVZfhFnmadd : Code := .mk "RiscVZfhFnmadd" [] [fn_RiscVZfhTernaryHelper]

/-- riscv_zfh_instructions.cc:914-918 -/
def fn_RiscVZfhFnmsub : Code := .mk "RiscVZfhFnmsub" [] [fn_RiscVZfhTernaryHelper]

/-- riscv_zfh_instructions.cc:617-620 -/
def rv32_RiscVZfhCvtWh : Code := .mk "RV32::RiscVZfhCvtWh" [] [fn_RiscVConvertFloatWithFflagsOp]

/-- riscv_zfh_instructions.cc:623-626 -/
def rv32_RiscVZfhCvtWuh : Code := .mk "RV32::RiscVZfhCvtWuh" [] [fn_RiscVConvertFloatWithFflagsOp]

/-- riscv_zfh_instructions.cc:529-549 -/
def fn_RiscVZfhFcmpeqHelper : Code := .mk "RiscVZfhFcmpeqHelper" [.src 0, .src 1, .dst 0, .dst 1] []

/-- riscv_zfh_instructions.cc:629-631 -/
def rv32_RiscVZfhFcmpeq : Code := .mk "RV32::RiscVZfhFcmpeq" [] [fn_RiscVZfhFcmpeqHelper]

/-- riscv_zfh_instructions.cc:552-574 -/
def fn_RiscVZfhFcmpltHelper : Code := .mk "RiscVZfhFcmpltHelper" [.src 0, .src 1, .dst 0, .dst 1] []

/-- riscv_zfh_instructions.cc:634-636 -/
def rv32_RiscVZfhFcmplt : Code := .mk "RV32::RiscVZfhFcmplt" [] [fn_RiscVZfhFcmpltHelper]

/-- riscv_zfh_instructions.cc:577-599 -/
def fn_RiscVZfhFcmpleHelper : Code := .mk "RiscVZfhFcmpleHelper" [.src 0, .src 1, .dst 0, .dst 1] []

/-- riscv_zfh_instructions.cc:639-641 -/
def rv32_RiscVZfhFcmple : Code := .mk "RV32::RiscVZfhFcmple" [] [fn_RiscVZfhFcmpleHelper]

/-- riscv_zfh_instructions.cc:644-649 -/
def rv32_RiscVZfhFclass : Code := .mk "RV32::RiscVZfhFclass" [] [fn_RiscVUnaryOp]

/-- riscv_zfh_instructions.cc:656-658 -/
def rv64_RiscVZfhFMvxh : Code := .mk "RV64::RiscVZfhFMvxh" [] [fn_RiscVZfhFMvxhHelper]

/-- riscv_zfh_instructions.cc:662-664 -/
def rv64_RiscVZfhFMvhx : Code := .mk "RV64::RiscVZfhFMvhx" [] [fn_RiscVZfhFMvhxHelper]

/-- riscv_zfh_instructions.cc:667-670 -/
def rv64_RiscVZfhCvtWh : Code := .mk "RV64::RiscVZfhCvtWh" [] [fn_RiscVConvertFloatWithFflagsOp]

/-- riscv_zfh_instructions.cc:673-676 -/
def rv64_RiscVZfhCvtWuh : Code := .mk "RV64::RiscVZfhCvtWuh" [] [fn_RiscVConvertFloatWithFflagsOp]

/-- riscv_zfh_instructions.cc:679-681 -/
def rv64_RiscVZfhFcmpeq : Code := .mk "RV64::RiscVZfhFcmpeq" [] [fn_RiscVZfhFcmpeqHelper]

/-- riscv_zfh_instructions.cc:684-686 -/
def rv64_RiscVZfhFcmplt : Code := .mk "RV64::RiscVZfhFcmplt" [] [fn_RiscVZfhFcmpltHelper]

/-- riscv_zfh_instructions.cc:689-691 -/
def rv64_RiscVZfhFcmple : Code := .mk "RV64::RiscVZfhFcmple" [] [fn_RiscVZfhFcmpleHelper]

/-- riscv_zfh_instructions.cc:694-699 -/
def rv64_RiscVZfhFclass : Code := .mk "RV64::RiscVZfhFclass" [] [fn_RiscVUnaryOp]

/-- riscv_zfh_instructions.cc:702-705 -/
def rv64_RiscVZfhCvtLh : Code := .mk "RV64::RiscVZfhCvtLh" [] [fn_RiscVConvertFloatWithFflagsOp]

/-- riscv_zfh_instructions.cc:708-711 -/
def rv64_RiscVZfhCvtLuh : Code := .mk "RV64::RiscVZfhCvtLuh" [] [fn_RiscVConvertFloatWithFflagsOp]

/-- riscv_zfh_instructions.cc:714-720 -/
def rv64_RiscVZfhCvtHl : Code := .mk "RV64::RiscVZfhCvtHl" [] [fn_RiscVZfhCvtHelper]

/-- riscv_zfh_instructions.cc:723-729 -/
def rv64_RiscVZfhCvtHlu : Code := .mk "RV64::RiscVZfhCvtHlu" [] [fn_RiscVZfhCvtHelper]

/-- riscv_vector_basic_bit_manipulation_instructions.cc:64-89 -/
def fn_Vandn : Code := .mk "Vandn" [] [fn_RiscVBinaryVectorOp]

/-- riscv_vector_basic_bit_manipulation_instructions.cc:91-134 -/
def fn_Vbrev8 : Code := .mk "Vbrev8" [] [fn_RiscVUnaryVectorOp]

/-- riscv_vector_basic_bit_manipulation_instructions.cc:136-160 -/
def fn_Vrev8 : Code := .mk "Vrev8" [] [fn_RiscVUnaryVectorOp]

/-- riscv_vector_basic_bit_manipulation_instructions.cc:162-195 -/
def fn_Vrol : Code := .mk "Vrol" [] [fn_RiscVBinaryVectorOp]

/-- riscv_vector_basic_bit_manipulation_instructions.cc:197-230 -/
def fn_Vror : Code := .mk "Vror" [] [fn_RiscVBinaryVectorOp]

/-- riscv_vector_basic_bit_manipulation_instructions.cc:234-259 -/
def fn_Vbrev : Code := .mk "Vbrev" [] [fn_RiscVUnaryVectorOp]

/-- riscv_vector_basic_bit_manipulation_instructions.cc:261-286 -/
def fn_Vclz : Code := .mk "Vclz" [] [fn_RiscVUnaryVectorOp]

/-- riscv_vector_basic_bit_manipulation_instructions.cc:288-313 -/
def fn_Vctz : Code := .mk "Vctz" [] [fn_RiscVUnaryVectorOp]

/-- riscv_vector_basic_bit_manipulation_instructions.cc:315-340 -/
def fn_VectorVcpop : Code := .mk "VectorVcpop" [] [fn_RiscVUnaryVectorOp]

/-- riscv_vector_basic_bit_manipulation_instructions.cc:342-366 -/
def fn_Vwsll : Code := .mk "Vwsll" [] [fn_RiscVBinaryVectorOp]

/-- riscv_zicond_instructions.cc:30-33 -/
def rv32_RiscVCzeroEqz : Code := .mk "RV32::RiscVCzeroEqz" [] [fn_RiscVBinaryOp]

/-- riscv_zicond_instructions.cc:37-40 -/
def rv32_RiscVCzeroNez : Code := .mk "RV32::RiscVCzeroNez" [] [fn_RiscVBinaryOp]

/-- riscv_zimop_instructions.cc:30-36 -/
def rv32_RiscVMop : Code := .mk "RV32::RiscVMop" [.dst 0] []

/-- riscv_zhintpause_instructions.cc:9-9 -/
def fn_RiscVPause : Code := .mk "RiscVPause" [] []

/-- riscv_zihintntl_instructions.cc:9-9 -/
def fn_RiscVNtlP1 : Code := .mk "RiscVNtlP1" [] []

/-- riscv_zihintntl_instructions.cc:10-10 -/
def fn_RiscVNtlPall : Code := .mk "RiscVNtlPall" [] []

/-- riscv_zihintntl_instructions.cc:11-11 -/
def fn_RiscVNtlS1 : Code := .mk "RiscVNtlS1" [] []

/-- riscv_zihintntl_instructions.cc:12-12 -/
def fn_RiscVNtlAll : Code := .mk "RiscVNtlAll" [] []

/-- riscv_bitmanip_instructions.cc:133-137 -/
def rv32_RiscVZextB : Code := .mk "RV32::RiscVZextB" [] [fn_RiscVUnaryOp]

/-- riscv_bitmanip_instructions.cc:66-69 -/
def rv32_RiscVNot : Code := .mk "RV32::RiscVNot" [] [fn_RiscVUnaryOp]

/-- riscv_zc_instructions.cc:46-67 -/
def rv32_RiscVZCmpPush : Code := .mk "RV32::RiscVZCmpPush" [.srcFrom 3, .src 0, .src 1, .src 2, .dst 0] []

/-- riscv_zc_instructions.cc:73-92 -/
def rv32_RiscVZCmpPopHelper (m : Nat) : Code := .mk "RV32::RiscVZCmpPopHelper" [.src 0, .src 1, .src 2, .dstBelow m, .dstFromEnd m 0] []

/-- riscv_zc_instructions.cc:96-100 -/
def rv32_RiscVZCmpPop : Code := .mk "RV32::RiscVZCmpPop" [] [rv32_RiscVZCmpPopHelper 1]

/-- riscv_zc_instructions.cc:102-112 -/
def rv32_RiscVZCmpPopRet : Code := .mk "RV32::RiscVZCmpPopRet" [.src 3, .dstFromEnd 2 1] [rv32_RiscVZCmpPopHelper 2]

/-- riscv_zc_instructions.cc:114-126 -/
def rv32_RiscVZCmpPopRetz : Code := .mk "RV32::RiscVZCmpPopRetz" [.dstFromEnd 3 1, .src 3, .dstFromEnd 3 2] [rv32_RiscVZCmpPopHelper 3]

/-- riscv_zc_instructions.cc:128-133 -/
def rv32_RiscVZCmpMvTwoRegs : Code := .mk "RV32::RiscVZCmpMvTwoRegs" [.src 0, .src 1, .dst 0, .dst 1] []

/-- riscv_zc_instructions.cc:138-158 -/
def rv32_RiscVZCmtJtHelper : Code := .mk "RV32::RiscVZCmtJtHelper" [.src 0, .dst 0] []

/-- riscv_zc_instructions.cc:162-162 -/
def rv32_RiscVZCmtJt : Code := .mk "RV32::RiscVZCmtJt" [] [rv32_RiscVZCmtJtHelper]

/-- riscv_zc_instructions.cc:164-168 -/
def rv32_RiscVZCmtJalt : Code := .mk "RV32::RiscVZCmtJalt" [.dst 1] [rv32_RiscVZCmtJtHelper]

/-- riscv_zicbop_instructions.cc:30-30 -/
def rv32_RiscVPrefetchI : Code := .mk "RV32::RiscVPrefetchI" [] []

/-- riscv_zicbop_instructions.cc:31-31 -/
def rv32_RiscVPrefetchR : Code := .mk "RV32::RiscVPrefetchR" [] []

/-- riscv_zicbop_instructions.cc:32-32 -/
def rv32_RiscVPrefetchW : Code := .mk "RV32::RiscVPrefetchW" [] []

/-- riscv_zc_instructions.cc:187-208 -/
def rv64_RiscVZCmpPush : Code := .mk "RV64::RiscVZCmpPush" [.srcFrom 3, .src 0, .src 1, .src 2, .dst 0] []

/-- riscv_zc_instructions.cc:214-233 -/
def rv64_RiscVZCmpPopHelper (m : Nat) : Code := .mk "RV64::RiscVZCmpPopHelper" [.src 0, .src 1, .src 2, .dstBelow m, .dstFromEnd m 0] []

/-- riscv_zc_instructions.cc:237-241 -/
def rv64_RiscVZCmpPop : Code := .mk "RV64::RiscVZCmpPop" [] [rv64_RiscVZCmpPopHelper 1]

/-- riscv_zc_instructions.cc:243-253 -/
def rv64_RiscVZCmpPopRet : Code := .mk "RV64::RiscVZCmpPopRet" [.src 3, .dstFromEnd 2 1] [rv64_RiscVZCmpPopHelper 2]

/-- riscv_zc_instructions.cc:255-267 -/
def rv64_RiscVZCmpPopRetz : Code := .mk "RV64::RiscVZCmpPopRetz" [.dstFromEnd 3 1, .src 3, .dstFromEnd 3 2] [rv64_RiscVZCmpPopHelper 3]

/-- riscv_zc_instructions.cc:269-274 -/
def rv64_RiscVZCmpMvTwoRegs : Code := .mk "RV64::RiscVZCmpMvTwoRegs" [.src 0, .src 1, .dst 0, .dst 1] []

/-- riscv_zicond_instructions.cc:51-54 -/
def rv64_RiscVCzeroEqz : Code := .mk "RV64::RiscVCzeroEqz" [] [fn_RiscVBinaryOp]

/-- riscv_zicond_instructions.cc:58-61 -/
def rv64_RiscVCzeroNez : Code := .mk "RV64::RiscVCzeroNez" [] [fn_RiscVBinaryOp]

/-- riscv_zimop_instructions.cc:45-51 -/
def rv64_RiscVMop : Code := .mk "RV64::RiscVMop" [.dst 0] []

/-- riscv_zicbop_instructions.cc:39-39 -/
def rv64_RiscVPrefetchI : Code := .mk "RV64::RiscVPrefetchI" [] []

/-- riscv_zicbop_instructions.cc:40-40 -/
def rv64_RiscVPrefetchR : Code := .mk "RV64::RiscVPrefetchR" [] []

/-- riscv_zicbop_instructions.cc:41-41 -/
def rv64_RiscVPrefetchW : Code := .mk "RV64::RiscVPrefetchW" [] []

/-- Slot `riscv32i` (riscv32g.isa:32-218). -/
def slot_riscv32i : List Instr := [
  { name := "addi", phases := [{ srcs := [.one .Rs1, .one .IImm12], dsts := [.one .Rd], fn := some rv32_RiscVIAdd }] },
  { name := "nop", phases := [{ srcs := [], dsts := [], fn := some fn_RiscVINop }] },
  { name := "slti", phases := [{ srcs := [.one .Rs1, .one .IImm12], dsts := [.one .Rd], fn := some rv32_RiscVISlt }] },
  { name := "sltiu", phases := [{ srcs := [.one .Rs1, .one .IImm12], dsts := [.one .Rd], fn := some rv32_RiscVISltu }] },
  { name := "andi", phases := [{ srcs := [.one .Rs1, .one .IImm12], dsts := [.one .Rd], fn := some rv32_RiscVIAnd }] },
  { name := "ori", phases := [{ srcs := [.one .Rs1, .one .IImm12], dsts := [.one .Rd], fn := some rv32_RiscVIOr }] },
  { name := "xori", phases := [{ srcs := [.one .Rs1, .one .IImm12], dsts := [.one .Rd], fn := some rv32_RiscVIXor }] },
  { name := "slli", phases := [{ srcs := [.one .Rs1, .one .IUimm5], dsts := [.one .Rd], fn := some rv32_RiscVISll }] },
  { name := "srli", phases := [{ srcs := [.one .Rs1, .one .IUimm5], dsts := [.one .Rd], fn := some rv32_RiscVISrl }] },
  { name := "srai", phases := [{ srcs := [.one .Rs1, .one .IUimm5], dsts := [.one .Rd], fn := some rv32_RiscVISra }] },
  { name := "lui", phases := [{ srcs := [.one .UImm20], dsts := [.one .Rd], fn := some rv32_RiscVILui }] },
  { name := "auipc", phases := [{ srcs := [.one .UImm20], dsts := [.one .Rd], fn := some rv32_RiscVIAuipc }] },
  { name := "add", phases := [{ srcs := [.one .Rs1, .one .Rs2], dsts := [.one .Rd], fn := some rv32_RiscVIAdd }] },
  { name := "slt", phases := [{ srcs := [.one .Rs1, .one .Rs2], dsts := [.one .Rd], fn := some rv32_RiscVISlt }] },
  { name := "sltu", phases := [{ srcs := [.one .Rs1, .one .Rs2], dsts := [.one .Rd], fn := some rv32_RiscVISltu }] },
  { name := "and", phases := [{ srcs := [.one .Rs1, .one .Rs2], dsts := [.one .Rd], fn := some rv32_RiscVIAnd }] },
  { name := "or", phases := [{ srcs := [.one .Rs1, .one .Rs2], dsts := [.one .Rd], fn := some rv32_RiscVIOr }] },
  { name := "xor", phases := [{ srcs := [.one .Rs1, .one .Rs2], dsts := [.one .Rd], fn := some rv32_RiscVIXor }] },
  { name := "sll", phases := [{ srcs := [.one .Rs1, .one .Rs2], dsts := [.one .Rd], fn := some rv32_RiscVISll }] },
  { name := "srl", phases := [{ srcs := [.one .Rs1, .one .Rs2], dsts := [.one .Rd], fn := some rv32_RiscVISrl }] },
  { name := "sub", phases := [{ srcs := [.one .Rs1, .one .Rs2], dsts := [.one .Rd], fn := some rv32_RiscVISub }] },
  { name := "sra", phases := [{ srcs := [.one .Rs1, .one .Rs2], dsts := [.one .Rd], fn := some rv32_RiscVISra }] },
  { name := "hint", phases := [{ srcs := [], dsts := [], fn := some fn_RiscVINop }] },
  { name := "jal", phases := [{ srcs := [.one .JImm20], dsts := [.one .NextPc, .one .Rd], fn := some rv32_RiscVIJal }] },
  { name := "jalr", phases := [{ srcs := [.one .Rs1, .one .JImm12], dsts := [.one .NextPc, .one .Rd], fn := some rv32_RiscVIJalr }] },
  { name := "j", phases := [{ srcs := [.one .JImm20], dsts := [.one .NextPc, .one .Rd], fn := some rv32_RiscVIJal }] },
  { name := "jr", phases := [{ srcs := [.one .Rs1, .one .JImm12], dsts := [.one .NextPc, .one .Rd], fn := some rv32_RiscVIJalr }] },
  { name := "beq", phases := [{ srcs := [.one .Rs1, .one .Rs2, .one .BImm12], dsts := [.one .NextPc], fn := some rv32_RiscVIBeq }] },
  { name := "bne", phases := [{ srcs := [.one .Rs1, .one .Rs2, .one .BImm12], dsts := [.one .NextPc], fn := some rv32_RiscVIBne }] },
  { name := "blt", phases := [{ srcs := [.one .Rs1, .one .Rs2, .one .BImm12], dsts := [.one .NextPc], fn := some rv32_RiscVIBlt }] },
  { name := "bltu", phases := [{ srcs := [.one .Rs1, .one .Rs2, .one .BImm12], dsts := [.one .NextPc], fn := some rv32_RiscVIBltu }] },
  { name := "bge", phases := [{ srcs := [.one .Rs1, .one .Rs2, .one .BImm12], dsts := [.one .NextPc], fn := some rv32_RiscVIBge }] },
  { name := "bgeu", phases := [{ srcs := [.one .Rs1, .one .Rs2, .one .BImm12], dsts := [.one .NextPc], fn := some rv32_RiscVIBgeu }] },
  { name := "lw", phases := [{ srcs := [.one .Rs1, .one .IImm12], dsts := [], fn := some rv32_RiscVILw }, { srcs := [], dsts := [.one .Rd], fn := some rv32_RiscVILwChild }] },
  { name := "lh", phases := [{ srcs := [.one .Rs1, .one .IImm12], dsts := [], fn := some rv32_RiscVILh }, { srcs := [], dsts := [.one .Rd], fn := some rv32_RiscVILhChild }] },
  { name := "lhu", phases := [{ srcs := [.one .Rs1, .one .IImm12], dsts := [], fn := some rv32_RiscVILhu }, { srcs := [], dsts := [.one .Rd], fn := some rv32_RiscVILhuChild }] },
  { name := "lb", phases := [{ srcs := [.one .Rs1, .one .IImm12], dsts := [], fn := some rv32_RiscVILb }, { srcs := [], dsts := [.one .Rd], fn := some rv32_RiscVILbChild }] },
  { name := "lbu", phases := [{ srcs := [.one .Rs1, .one .IImm12], dsts := [], fn := some rv32_RiscVILbu }, { srcs := [], dsts := [.one .Rd], fn := some rv32_RiscVILbuChild }] },
  { name := "sw", phases := [{ srcs := [.one .Rs1, .one .SImm12, .one .Rs2], dsts := [], fn := some rv32_RiscVISw }] },
  { name := "sh", phases := [{ srcs := [.one .Rs1, .one .SImm12, .one .Rs2], dsts := [], fn := some rv32_RiscVISh }] },
  { name := "sb", phases := [{ srcs := [.one .Rs1, .one .SImm12, .one .Rs2], dsts := [], fn := some rv32_RiscVISb }] },
  { name := "fence", phases := [{ srcs := [.one .Pred, .one .Succ], dsts := [], fn := some fn_RiscVIFence }] },
  { name := "fence_tso", phases := [{ srcs := [], dsts := [], fn := some fn_RiscVIFenceTso }] },
  { name := "ecall", phases := [{ srcs := [], dsts := [], fn := some fn_RiscVIEcall }] },
  { name := "ebreak", phases := [{ srcs := [], dsts := [], fn := some fn_RiscVIEbreak }] }]

/-- Slot `riscv32c` (riscv32g.isa:863-1011). -/
def slot_riscv32c : List Instr := [
  { name := "clwsp", phases := [{ srcs := [.one .X2, .one .ICiUimm6x4], dsts := [], fn := some rv32_RiscVILw }, { srcs := [], dsts := [.one .Rd], fn := some rv32_RiscVILwChild }] },
  { name := "cflwsp", phases := [{ srcs := [.one .X2, .one .ICiUimm6x4], dsts := [], fn := some rv32_RiscVILw }, { srcs := [], dsts := [.one .Frd], fn := some rv32_RiscVILwChild }] },
  { name := "cfldsp", phases := [{ srcs := [.one .X2, .one .ICiUimm6x8], dsts := [], fn := some rv64_RiscVILd }, { srcs := [], dsts := [.one .Drd], fn := some rv64_RiscVILdChild }] },
  { name := "cswsp", phases := [{ srcs := [.one .X2, .one .ICssUimm6x4, .one .Crs2], dsts := [], fn := some rv32_RiscVISw }] },
  { name := "cfswsp", phases := [{ srcs := [.one .X2, .one .ICssUimm6x4, .one .Cfrs2], dsts := [], fn := some rv32_RiscVISw }] },
  { name := "cfsdsp", phases := [{ srcs := [.one .X2, .one .ICssUimm6x8, .one .Cdrs2], dsts := [], fn := some rv64_RiscVISd }] },
  { name := "clw", phases := [{ srcs := [.one .C3rs1, .one .IClUimm5x4], dsts := [], fn := some rv32_RiscVILw }, { srcs := [], dsts := [.one .C3rd], fn := some rv32_RiscVILwChild }] },
  { name := "cflw", phases := [{ srcs := [.one .C3rs1, .one .IClUimm5x4], dsts := [], fn := some rv32_RiscVILw }, { srcs := [], dsts := [.one .C3frd], fn := some rv32_RiscVILwChild }] },
  { name := "cfld", phases := [{ srcs := [.one .C3rs1, .one .IClUimm5x8], dsts := [], fn := some rv64_RiscVILd }, { srcs := [], dsts := [.one .C3drd], fn := some rv64_RiscVILdChild }] },
  { name := "csw", phases := [{ srcs := [.one .C3rs1, .one .IClUimm5x4, .one .C3rs2], dsts := [], fn := some rv32_RiscVISw }] },
  { name := "cfsw", phases := [{ srcs := [.one .C3rs1, .one .IClUimm5x4, .one .C3frs2], dsts := [], fn := some rv32_RiscVISw }] },
  { name := "cfsd", phases := [{ srcs := [.one .C3rs1, .one .IClUimm5x8, .one .C3drs2], dsts := [], fn := some rv32_RiscVDSd }] },
  { name := "cj", phases := [{ srcs := [.one .ICjImm11, .one .X0], dsts := [.one .NextPc, .one .X0], fn := some rv32_RiscVIJal }] },
  { name := "cjal", phases := [{ srcs := [.one .ICjImm11, .one .X0], dsts := [.one .NextPc, .one .X1], fn := some rv32_RiscVIJal }] },
  { name := "cjr", phases := [{ srcs := [.one .Crs1, .one .X0], dsts := [.one .NextPc, .one .X0], fn := some rv32_RiscVIJalr }] },
  { name := "cjalr", phases := [{ srcs := [.one .Crs1, .one .X0], dsts := [.one .NextPc, .one .X1], fn := some rv32_RiscVIJalr }] },
  { name := "cbeqz", phases := [{ srcs := [.one .C3rs1, .one .X0, .one .ICbImm8], dsts := [.one .NextPc], fn := some rv32_RiscVIBeq }] },
  { name := "cbnez", phases := [{ srcs := [.one .C3rs1, .one .X0, .one .ICbImm8], dsts := [.one .NextPc], fn := some rv32_RiscVIBne }] },
  { name := "cli", phases := [{ srcs := [.one .X0, .one .ICiImm6], dsts := [.one .Rd], fn := some rv32_RiscVIAdd }] },
  { name := "clui", phases := [{ srcs := [.one .ICiImm612], dsts := [.one .Rd], fn := some rv32_RiscVILui }] },
  { name := "caddi", phases := [{ srcs := [.one .Rd, .one .ICiImm6], dsts := [.one .Rd], fn := some rv32_RiscVIAdd }] },
  { name := "caddi16sp", phases := [{ srcs := [.one .X2, .one .ICiImm6x16], dsts := [.one .X2], fn := some rv32_RiscVIAdd }] },
  { name := "caddi4spn", phases := [{ srcs := [.one .X2, .one .ICiwUimm8x4], dsts := [.one .C3rd], fn := some rv32_RiscVIAdd }] },
  { name := "cslli", phases := [{ srcs := [.one .Rd, .one .ICiUimm6], dsts := [.one .Rd], fn := some rv32_RiscVISll }] },
  { name := "csrli", phases := [{ srcs := [.one .C3rs1, .one .ICiUimm6], dsts := [.one .C3rs1], fn := some rv32_RiscVISrl }] },
  { name := "csrai", phases := [{ srcs := [.one .C3rs1, .one .ICiUimm6], dsts := [.one .C3rs1], fn := some rv32_RiscVISra }] },
  { name := "candi", phases := [{ srcs := [.one .C3rs1, .one .ICiImm6], dsts := [.one .C3rs1], fn := some rv32_RiscVIAnd }] },
  { name := "cmv", phases := [{ srcs := [.one .Crs2, .one .X0], dsts := [.one .Rd], fn := some rv32_RiscVIAdd }] },
  { name := "cadd", phases := [{ srcs := [.one .Crs2, .one .Rd], dsts := [.one .Rd], fn := some rv32_RiscVIAdd }] },
  { name := "cand", phases := [{ srcs := [.one .C3rs1, .one .C3rs2], dsts := [.one .C3rs1], fn := some rv32_RiscVIAnd }] },
  { name := "cor", phases := [{ srcs := [.one .C3rs1, .one .C3rs2], dsts := [.one .C3rs1], fn := some rv32_RiscVIOr }] },
  { name := "cxor", phases := [{ srcs := [.one .C3rs1, .one .C3rs2], dsts := [.one .C3rs1], fn := some rv32_RiscVIXor }] },
  { name := "csub", phases := [{ srcs := [.one .C3rs1, .one .C3rs2], dsts := [.one .C3rs1], fn := some rv32_RiscVISub }] },
  { name := "cnop", phases := [{ srcs := [], dsts := [], fn := some fn_RiscVINop }] },
  { name := "cebreak", phases := [{ srcs := [], dsts := [], fn := some fn_RiscVIEbreak }] },
  { name := "cunimp", phases := [{ srcs := [], dsts := [], fn := some fn_RiscVIUnimplemented }] }]

/-- Slot `riscv32chints` (riscv32g.isa:1018-1040). -/
def slot_riscv32chints : List Instr := [
  { name := "cnop_hint", phases := [{ srcs := [], dsts := [], fn := some fn_RiscVINop }] },
  { name := "cli_hint", phases := [{ srcs := [.one .X0, .one .ICiImm6], dsts := [.one .Rd], fn := some fn_RiscVINop }] },
  { name := "clui_hint", phases := [{ srcs := [.one .ICiImm612], dsts := [.one .Rd], fn := some fn_RiscVINop }] },
  { name := "cmv_hint", phases := [{ srcs := [.one .Crs2, .one .X0], dsts := [.one .Rd], fn := some fn_RiscVINop }] },
  { name := "caddi_hint", phases := [{ srcs := [.one .Rd, .one .ICiImm6], dsts := [.one .Rd], fn := some fn_RiscVINop }] },
  { name := "cslli_hint", phases := [{ srcs := [.one .Rd, .one .ICiUimm6], dsts := [.one .Rd], fn := some fn_RiscVINop }] },
  { name := "cadd_hint", phases := [{ srcs := [.one .Crs2, .one .Rd], dsts := [.one .Rd], fn := some fn_RiscVINop }] }]

/-- Slot `riscv32m` (riscv32g.isa:428-464). -/
def slot_riscv32m : List Instr := [
  { name := "mul", phases := [{ srcs := [.one .Rs1, .one .Rs2], dsts := [.one .Rd], fn := some rv32_MMul }] },
  { name := "mulh", phases := [{ srcs := [.one .Rs1, .one .Rs2], dsts := [.one .Rd], fn := some rv32_MMulh }] },
  { name := "mulhu", phases := [{ srcs := [.one .Rs1, .one .Rs2], dsts := [.one .Rd], fn := some rv32_MMulhu }] },
  { name := "mulhsu", phases := [{ srcs := [.one .Rs1, .one .Rs2], dsts := [.one .Rd], fn := some rv32_MMulhsu }] },
  { name := "div", phases := [{ srcs := [.one .Rs1, .one .Rs2], dsts := [.one .Rd], fn := some rv32_MDiv }] },
  { name := "divu", phases := [{ srcs := [.one .Rs1, .one .Rs2], dsts := [.one .Rd], fn := some rv32_MDivu }] },
  { name := "rem", phases := [{ srcs := [.one .Rs1, .one .Rs2], dsts := [.one .Rd], fn := some rv32_MRem }] },
  { name := "remu", phases := [{ srcs := [.one .Rs1, .one .Rs2], dsts := [.one .Rd], fn := some rv32_MRemu }] }]

/-- Slot `riscv32_amo_arithmetic` (riscv32g.isa:526-544). Inherited instructions are listed with the overrides applied. -/
def slot_riscv32_amo_arithmetic : List Instr := [
  { name := "lrw", phases := [{ srcs := [.one .Rs1, .one .AAq, .one .ARl], dsts := [], fn := some fn_ALrw }, { srcs := [], dsts := [.one .Rd], fn := some rv32_RiscVILwChild }] },
  { name := "scw", phases := [{ srcs := [.one .Rs1, .one .Rs2, .one .AAq, .one .ARl], dsts := [], fn := some fn_AScw }, { srcs := [], dsts := [.one .Rd], fn := some rv32_RiscVILwChild }] },
  { name := "amoswapw", phases := [{ srcs := [.one .Rs1, .one .Rs2, .one .AAq, .one .ARl], dsts := [], fn := some fn_AAmoswapw }, { srcs := [], dsts := [.one .Rd], fn := some rv32_RiscVILwChild }] },
  { name := "amoandw", phases := [{ srcs := [.one .Rs1, .one .Rs2, .one .AAq, .one .ARl], dsts := [], fn := some fn_AAmoandw }, { srcs := [], dsts := [.one .Rd], fn := some rv32_RiscVILwChild }] },
  { name := "amoorw", phases := [{ srcs := [.one .Rs1, .one .Rs2, .one .AAq, .one .ARl], dsts := [], fn := some fn_AAmoorw }, { srcs := [], dsts := [.one .Rd], fn := some rv32_RiscVILwChild }] },
  { name := "amoxorw", phases := [{ srcs := [.one .Rs1, .one .Rs2, .one .AAq, .one .ARl], dsts := [], fn := some fn_AAmoxorw }, { srcs := [], dsts := [.one .Rd], fn := some rv32_RiscVILwChild }] },
  { name := "amoaddw", phases := [{ srcs := [.one .Rs1, .one .Rs2, .one .AAq, .one .ARl], dsts := [], fn := some fn_AAmoaddw }, { srcs := [], dsts := [.one .Rd], fn := some rv32_RiscVILwChild }] },
  { name := "amomaxw", phases := [{ srcs := [.one .Rs1, .one .Rs2, .one .AAq, .one .ARl], dsts := [], fn := some fn_AAmomaxw }, { srcs := [], dsts := [.one .Rd], fn := some rv32_RiscVILwChild }] },
  { name := "amomaxuw", phases := [{ srcs := [.one .Rs1, .one .Rs2, .one .AAq, .one .ARl], dsts := [], fn := some fn_AAmomaxuw }, { srcs := [], dsts := [.one .Rd], fn := some rv32_RiscVILwChild }] },
  { name := "amominw", phases := [{ srcs := [.one .Rs1, .one .Rs2, .one .AAq, .one .ARl], dsts := [], fn := some fn_AAmominw }, { srcs := [], dsts := [.one .Rd], fn := some rv32_RiscVILwChild }] },
  { name := "amominuw", phases := [{ srcs := [.one .Rs1, .one .Rs2, .one .AAq, .one .ARl], dsts := [], fn := some fn_AAmominuw }, { srcs := [], dsts := [.one .Rd], fn := some rv32_RiscVILwChild }] }]

/-- Slot `riscv32f` (riscv32g.isa:629-740). -/
def slot_riscv32f : List Instr := [
  { name := "flw", phases := [{ srcs := [.one .Rs1, .one .IImm12], dsts := [], fn := some rv32_RiscVILw }, { srcs := [], dsts := [.one .Frd], fn := some fn_RiscVIFlwChild }] },
  { name := "fsw", phases := [{ srcs := [.one .Rs1, .one .SImm12, .one .Frs2], dsts := [], fn := some rv32_RiscVFSw }] },
  { name := "fadd_s", phases := [{ srcs := [.one .Frs1, .one .Frs2, .one .Rm], dsts := [.one .Frd], fn := some fn_RiscVFAdd }] },
  { name := "fsub_s", phases := [{ srcs := [.one .Frs1, .one .Frs2, .one .Rm], dsts := [.one .Frd], fn := some fn_RiscVFSub }] },
  { name := "fmul_s", phases := [{ srcs := [.one .Frs1, .one .Frs2, .one .Rm], dsts := [.one .Frd], fn := some fn_RiscVFMul }] },
  { name := "fdiv_s", phases := [{ srcs := [.one .Frs1, .one .Frs2, .one .Rm], dsts := [.one .Frd], fn := some fn_RiscVFDiv }] },
  { name := "fsqrt_s", phases := [{ srcs := [.one .Frs1, .one .Rm], dsts := [.one .Frd, .one .Fflags], fn := some fn_RiscVFSqrt }] },
  { name := "fmin_s", phases := [{ srcs := [.one .Frs1, .one .Frs2], dsts := [.one .Frd, .one .Fflags], fn := some fn_RiscVFMin }] },
  { name := "fmax_s", phases := [{ srcs := [.one .Frs1, .one .Frs2], dsts := [.one .Frd, .one .Fflags], fn := some fn_RiscVFMax }] },
  { name := "fmadd_s", phases := [{ srcs := [.one .Frs1, .one .Frs2, .one .Frs3, .one .Rm], dsts := [.one .Frd, .one .Fflags], fn := some fn_RiscVFMadd }] },
  { name := "fmsub_s", phases := [{ srcs := [.one .Frs1, .one .Frs2, .one .Frs3, .one .Rm], dsts := [.one .Frd, .one .Fflags], fn := some fn_RiscVFMsub }] },
  { name := "fnmadd_s", phases := [{ srcs := [.one .Frs1, .one .Frs2, .one .Frs3, .one .Rm], dsts := [.one .Frd, .one .Fflags], fn := some fn_RiscVFNmadd }] },
  { name := "fnmsub_s", phases := [{ srcs := [.one .Frs1, .one .Frs2, .one .Frs3, .one .Rm], dsts := [.one .Frd, .one .Fflags], fn := some fn_RiscVFNmsub }] },
  { name := "fcvt_ws", phases := [{ srcs := [.one .Frs1, .one .Rm], dsts := [.one .Rd, .one .Fflags], fn := some rv32_RiscVFCvtWs }] },
  { name := "fcvt_sw", phases := [{ srcs := [.one .Rs1, .one .Rm], dsts := [.one .Frd], fn := some fn_RiscVFCvtSw }] },
  { name := "fcvt_wus", phases := [{ srcs := [.one .Frs1, .one .Rm], dsts := [.one .Rd, .one .Fflags], fn := some rv32_RiscVFCvtWus }] },
  { name := "fcvt_swu", phases := [{ srcs := [.one .Rs1, .one .Rm], dsts := [.one .Frd], fn := some fn_RiscVFCvtSwu }] },
  { name := "fsgnj_s", phases := [{ srcs := [.one .Frs1, .one .Frs2], dsts := [.one .Frd], fn := some fn_RiscVFSgnj }] },
  { name := "fsgnjn_s", phases := [{ srcs := [.one .Frs1, .one .Frs2], dsts := [.one .Frd], fn := some fn_RiscVFSgnjn }] },
  { name := "fsgnjx_s", phases := [{ srcs := [.one .Frs1, .one .Frs2], dsts := [.one .Frd], fn := some fn_RiscVFSgnjx }] },
  { name := "fmv_xw", phases := [{ srcs := [.one .Frs1], dsts := [.one .Rd], fn := some rv32_RiscVFMvxw }] },
  { name := "fmv_wx", phases := [{ srcs := [.one .Rs1], dsts := [.one .Frd], fn := some fn_RiscVFMvwx }] },
  { name := "fcmpeq_s", phases := [{ srcs := [.one .Frs1, .one .Frs2], dsts := [.one .Rd, .one .Fflags], fn := some rv32_RiscVFCmpeq }] },
  { name := "fcmplt_s", phases := [{ srcs := [.one .Frs1, .one .Frs2], dsts := [.one .Rd, .one .Fflags], fn := some rv32_RiscVFCmplt }] },
  { name := "fcmple_s", phases := [{ srcs := [.one .Frs1, .one .Frs2], dsts := [.one .Rd, .one .Fflags], fn := some rv32_RiscVFCmple }] },
  { name := "fclass_s", phases := [{ srcs := [.one .Frs1], dsts := [.one .Rd], fn := some rv32_RiscVFClass }] }]

/-- Slot `riscv32d` (riscv32g.isa:748-855). -/
def slot_riscv32d : List Instr := [
  { name := "fld", phases := [{ srcs := [.one .Rs1, .one .IImm12], dsts := [], fn := some rv32_RiscVILd }, { srcs := [], dsts := [.one .Drd], fn := some rv64_RiscVILdChild }] },
  { name := "fsd", phases := [{ srcs := [.one .Rs1, .one .SImm12, .one .Drs2], dsts := [], fn := some rv32_RiscVDSd }] },
  { name := "fadd_d", phases := [{ srcs := [.one .Drs1, .one .Drs2, .one .Rm], dsts := [.one .Drd], fn := some fn_RiscVDAdd }] },
  { name := "fsub_d", phases := [{ srcs := [.one .Drs1, .one .Drs2, .one .Rm], dsts := [.one .Drd], fn := some fn_RiscVDSub }] },
  { name := "fmul_d", phases := [{ srcs := [.one .Drs1, .one .Drs2, .one .Rm], dsts := [.one .Drd], fn := some fn_RiscVDMul }] },
  { name := "fdiv_d", phases := [{ srcs := [.one .Drs1, .one .Drs2, .one .Rm], dsts := [.one .Drd], fn := some fn_RiscVDDiv }] },
  { name := "fsqrt_d", phases := [{ srcs := [.one .Drs1, .one .Rm], dsts := [.one .Drd, .one .Fflags], fn := some fn_RiscVDSqrt }] },
  { name := "fmin_d", phases := [{ srcs := [.one .Drs1, .one .Drs2], dsts := [.one .Drd, .one .Fflags], fn := some fn_RiscVDMin }] },
  { name := "fmax_d", phases := [{ srcs := [.one .Drs1, .one .Drs2], dsts := [.one .Drd, .one .Fflags], fn := some fn_RiscVDMax }] },
  { name := "fmadd_d", phases := [{ srcs := [.one .Drs1, .one .Drs2, .one .Drs3, .one .Rm], dsts := [.one .Drd, .one .Fflags], fn := some fn_RiscVDMadd }] },
  { name := "fmsub_d", phases := [{ srcs := [.one .Drs1, .one .Drs2, .one .Drs3, .one .Rm], dsts := [.one .Drd, .one .Fflags], fn := some fn_RiscVDMsub }] },
  { name := "fnmadd_d", phases := [{ srcs := [.one .Drs1, .one .Drs2, .one .Drs3, .one .Rm], dsts := [.one .Drd, .one .Fflags], fn := some fn_RiscVDNmadd }] },
  { name := "fnmsub_d", phases := [{ srcs := [.one .Drs1, .one .Drs2, .one .Drs3, .one .Rm], dsts := [.one .Drd, .one .Fflags], fn := some fn_RiscVDNmsub }] },
  { name := "fcvt_wd", phases := [{ srcs := [.one .Drs1, .one .Rm], dsts := [.one .Rd, .one .Fflags], fn := some rv32_RiscVDCvtWd }] },
  { name := "fcvt_dw", phases := [{ srcs := [.one .Rs1, .one .Rm], dsts := [.one .Drd], fn := some fn_RiscVDCvtDw }] },
  { name := "fcvt_wud", phases := [{ srcs := [.one .Drs1, .one .Rm], dsts := [.one .Rd, .one .Fflags], fn := some rv32_RiscVDCvtWud }] },
  { name := "fcvt_dwu", phases := [{ srcs := [.one .Rs1, .one .Rm], dsts := [.one .Drd], fn := some fn_RiscVDCvtDwu }] },
  { name := "fcvt_sd", phases := [{ srcs := [.one .Drs1, .one .Rm], dsts := [.one .Drd], fn := some fn_RiscVDCvtSd }] },
  { name := "fcvt_ds", phases := [{ srcs := [.one .Drs1, .one .Rm], dsts := [.one .Drd], fn := some fn_RiscVDCvtDs }] },
  { name := "fsgnj_d", phases := [{ srcs := [.one .Drs1, .one .Drs2], dsts := [.one .Drd], fn := some fn_RiscVDSgnj }] },
  { name := "fsgnjn_d", phases := [{ srcs := [.one .Drs1, .one .Drs2], dsts := [.one .Drd], fn := some fn_RiscVDSgnjn }] },
  { name := "fsgnjx_d", phases := [{ srcs := [.one .Drs1, .one .Drs2], dsts := [.one .Drd], fn := some fn_RiscVDSgnjx }] },
  { name := "fcmpeq_d", phases := [{ srcs := [.one .Drs1, .one .Drs2], dsts := [.one .Rd, .one .Fflags], fn := some rv32_RiscVDCmpeq }] },
  { name := "fcmplt_d", phases := [{ srcs := [.one .Drs1, .one .Drs2], dsts := [.one .Rd, .one .Fflags], fn := some rv32_RiscVDCmplt }] },
  { name := "fcmple_d", phases := [{ srcs := [.one .Drs1, .one .Drs2], dsts := [.one .Rd, .one .Fflags], fn := some rv32_RiscVDCmple }] },
  { name := "fclass_d", phases := [{ srcs := [.one .Drs1], dsts := [.one .Rd], fn := some rv32_RiscVDClass }] }]

/-- Slot `riscv32_hints` (riscv32g.isa:226-365). -/
def slot_riscv32_hints : List Instr := [
  { name := "addi_hint1", phases := [{ srcs := [.one .Rs1, .one .IImm12], dsts := [.one .Rd], fn := some fn_RiscVINop }] },
  { name := "addi_hint2", phases := [{ srcs := [.one .Rs1, .one .IImm12], dsts := [.one .Rd], fn := some fn_RiscVINop }] },
  { name := "slti_hint", phases := [{ srcs := [.one .Rs1, .one .IImm12], dsts := [.one .Rd], fn := some fn_RiscVINop }] },
  { name := "sltiu_hint", phases := [{ srcs := [.one .Rs1, .one .IImm12], dsts := [.one .Rd], fn := some fn_RiscVINop }] },
  { name := "andi_hint", phases := [{ srcs := [.one .Rs1, .one .IImm12], dsts := [.one .Rd], fn := some fn_RiscVINop }] },
  { name := "ori_hint", phases := [{ srcs := [.one .Rs1, .one .IImm12], dsts := [.one .Rd], fn := some fn_RiscVINop }] },
  { name := "xori_hint", phases := [{ srcs := [.one .Rs1, .one .IImm12], dsts := [.one .Rd], fn := some fn_RiscVINop }] },
  { name := "slli_semihost", phases := [{ srcs := [.one .Rs1, .one .IUimm5], dsts := [.one .Rd], fn := some fn_RiscVINop }] },
  { name := "slli_hint1", phases := [{ srcs := [.one .Rs1, .one .IUimm5], dsts := [.one .Rd], fn := some fn_RiscVINop }] },
  { name := "slli_hint2", phases := [{ srcs := [.one .Rs1, .one .IUimm5], dsts := [.one .Rd], fn := some fn_RiscVINop }] },
  { name := "srli_hint", phases := [{ srcs := [.one .Rs1, .one .IUimm5], dsts := [.one .Rd], fn := some fn_RiscVINop }] },
  { name := "srai_semihost", phases := [{ srcs := [.one .Rs1, .one .IUimm5], dsts := [.one .Rd], fn := some fn_RiscVINop }] },
  { name := "srai_hint1", phases := [{ srcs := [.one .Rs1, .one .IUimm5], dsts := [.one .Rd], fn := some fn_RiscVINop }] },
  { name := "srai_hint2", phases := [{ srcs := [.one .Rs1, .one .IUimm5], dsts := [.one .Rd], fn := some fn_RiscVINop }] },
  { name := "lui_hint", phases := [{ srcs := [.one .UImm20], dsts := [.one .Rd], fn := some fn_RiscVINop }] },
  { name := "auipc_hint", phases := [{ srcs := [.one .UImm20], dsts := [.one .Rd], fn := some fn_RiscVINop }] },
  { name := "add_hint1", phases := [{ srcs := [.one .Rs1, .one .Rs2], dsts := [.one .Rd], fn := some fn_RiscVINop }] },
  { name := "add_hint2", phases := [{ srcs := [.one .Rs1, .one .Rs2], dsts := [.one .Rd], fn := some fn_RiscVINop }] },
  { name := "add_hint3", phases := [{ srcs := [.one .Rs1, .one .Rs2], dsts := [.one .Rd], fn := some fn_RiscVINop }] },
  { name := "and_hint", phases := [{ srcs := [.one .Rs1, .one .Rs2], dsts := [.one .Rd], fn := some fn_RiscVINop }] },
  { name := "or_hint", phases := [{ srcs := [.one .Rs1, .one .Rs2], dsts := [.one .Rd], fn := some fn_RiscVINop }] },
  { name := "xor_hint", phases := [{ srcs := [.one .Rs1, .one .Rs2], dsts := [.one .Rd], fn := some fn_RiscVINop }] },
  { name := "sll_hint", phases := [{ srcs := [.one .Rs1, .one .Rs2], dsts := [.one .Rd], fn := some fn_RiscVINop }] },
  { name := "srl_hint", phases := [{ srcs := [.one .Rs1, .one .Rs2], dsts := [.one .Rd], fn := some fn_RiscVINop }] },
  { name := "sub_hint", phases := [{ srcs := [.one .Rs1, .one .Rs2], dsts := [.one .Rd], fn := some fn_RiscVINop }] },
  { name := "sra_hint", phases := [{ srcs := [.one .Rs1, .one .Rs2], dsts := [.one .Rd], fn := some fn_RiscVINop }] },
  { name := "slt_hint", phases := [{ srcs := [.one .Rs1, .one .Rs2], dsts := [.one .Rd], fn := some fn_RiscVINop }] },
  { name := "sltu_hint", phases := [{ srcs := [.one .Rs1, .one .Rs2], dsts := [.one .Rd], fn := some fn_RiscVINop }] },
  { name := "fence_hint1", phases := [{ srcs := [.one .Pred, .one .Succ], dsts := [], fn := some fn_RiscVINop }] },
  { name := "fence_hint2", phases := [{ srcs := [.one .Pred, .one .Succ], dsts := [], fn := some fn_RiscVINop }] },
  { name := "fence_hint3", phases := [{ srcs := [.one .Pred, .one .Succ], dsts := [], fn := some fn_RiscVINop }] },
  { name := "fence_hint4", phases := [{ srcs := [.one .Pred, .one .Succ], dsts := [], fn := some fn_RiscVINop }] },
  { name := "fence_hint5", phases := [{ srcs := [.one .Pred, .one .Succ], dsts := [], fn := some fn_RiscVINop }] },
  { name := "fence_hint6", phases := [{ srcs := [.one .Pred, .one .Succ], dsts := [], fn := some fn_RiscVINop }] },
  { name := "fence_hint7", phases := [{ srcs := [.one .Pred, .one .Succ], dsts := [], fn := some fn_RiscVINop }] }]

/-- Slot `zicsr` (riscv32g.isa:551-622). -/
def slot_zicsr : List Instr := [
  { name := "csrrw", phases := [{ srcs := [.one .Rs1, .one .Csr], dsts := [.one .Rd, .one .Csr], fn := some rv32_RiscVZiCsrrw }] },
  { name := "csrrs", phases := [{ srcs := [.one .Rs1, .one .Csr], dsts := [.one .Rd, .one .Csr], fn := some rv32_RiscVZiCsrrs }] },
  { name := "csrrc", phases := [{ srcs := [.one .Rs1, .one .Csr], dsts := [.one .Rd, .one .Csr], fn := some rv32_RiscVZiCsrrc }] },
  { name := "csrrs_nr", phases := [{ srcs := [.one .Rs1, .one .Csr], dsts := [.one .Rd, .one .Csr], fn := some rv32_RiscVZiCsrrs }] },
  { name := "csrrc_nr", phases := [{ srcs := [.one .Rs1, .one .Csr], dsts := [.one .Rd, .one .Csr], fn := some rv32_RiscVZiCsrrc }] },
  { name := "csrrw_nr", phases := [{ srcs := [.one .Rs1, .one .Csr], dsts := [.one .Csr], fn := some rv32_RiscVZiCsrrwNr }] },
  { name := "csrrs_nw", phases := [{ srcs := [.one .Csr], dsts := [.one .Rd], fn := some rv32_RiscVZiCsrrNw }] },
  { name := "csrrc_nw", phases := [{ srcs := [.one .Csr], dsts := [.one .Rd], fn := some rv32_RiscVZiCsrrNw }] },
  { name := "csrrwi", phases := [{ srcs := [.one .CSRUimm5, .one .Csr], dsts := [.one .Rd, .one .Csr], fn := some rv32_RiscVZiCsrrw }] },
  { name := "csrrsi", phases := [{ srcs := [.one .CSRUimm5, .one .Csr], dsts := [.one .Rd, .one .Csr], fn := some rv32_RiscVZiCsrrs }] },
  { name := "csrrci", phases := [{ srcs := [.one .CSRUimm5, .one .Csr], dsts := [.one .Rd, .one .Csr], fn := some rv32_RiscVZiCsrrc }] },
  { name := "csrrsi_nr", phases := [{ srcs := [.one .CSRUimm5, .one .Csr], dsts := [.one .Rd, .one .Csr], fn := some rv32_RiscVZiCsrrs }] },
  { name := "csrrci_nr", phases := [{ srcs := [.one .CSRUimm5, .one .Csr], dsts := [.one .Rd, .one .Csr], fn := some rv32_RiscVZiCsrrc }] },
  { name := "csrrwi_nr", phases := [{ srcs := [.one .CSRUimm5, .one .Csr], dsts := [.one .Csr], fn := some rv32_RiscVZiCsrrwNr }] },
  { name := "csrrsi_nw", phases := [{ srcs := [.one .Csr], dsts := [.one .Rd], fn := some rv32_RiscVZiCsrrNw }] },
  { name := "csrrci_nw", phases := [{ srcs := [.one .Csr], dsts := [.one .Rd], fn := some rv32_RiscVZiCsrrNw }] },
  { name := "unimp", phases := [{ srcs := [], dsts := [], fn := some fn_RiscVIUnimplemented }] }]

/-- Slot `zfencei` (riscv32g.isa:414-421). -/
def slot_zfencei : List Instr := [
  { name := "fencei", phases := [{ srcs := [.one .IImm12], dsts := [], fn := some fn_RiscVZFencei }] }]

/-- Slot `privileged` (riscv32g.isa:372-405). -/
def slot_privileged : List Instr := [
  { name := "uret", phases := [{ srcs := [], dsts := [.one .NextPc], fn := some rv32_RiscVPrivURet }] },
  { name := "sret", phases := [{ srcs := [], dsts := [.one .NextPc], fn := some rv32_RiscVPrivSRet }] },
  { name := "mret", phases := [{ srcs := [], dsts := [.one .NextPc], fn := some rv32_RiscVPrivMRet }] },
  { name := "wfi", phases := [{ srcs := [], dsts := [], fn := some fn_RiscVPrivWfi }] },
  { name := "sfence_vma_zz", phases := [{ srcs := [.one .Rs1, .one .Rs2], dsts := [], fn := some fn_RiscVPrivSFenceVmaZZ }] },
  { name := "sfence_vma_zn", phases := [{ srcs := [.one .Rs1, .one .Rs2], dsts := [], fn := some fn_RiscVPrivSFenceVmaZN }] },
  { name := "sfence_vma_nz", phases := [{ srcs := [.one .Rs1, .one .Rs2], dsts := [], fn := some fn_RiscVPrivSFenceVmaNZ }] },
  { name := "sfence_vma_nn", phases := [{ srcs := [.one .Rs1, .one .Rs2], dsts := [], fn := some fn_RiscVPrivSFenceVmaNN }] }]

/-- Slot `riscv32g` (riscv32g.isa:1047). -/
def slot_riscv32g : List Instr := slot_riscv32i ++ slot_riscv32c ++ slot_riscv32chints ++ slot_riscv32m ++ slot_riscv32_amo_arithmetic ++ slot_riscv32f ++ slot_riscv32d ++ slot_riscv32_hints ++ slot_zicsr ++ slot_zfencei ++ slot_privileged

/-- Slot `riscv32_zba` (riscv32zb.isa:34-46). -/
def slot_riscv32_zba : List Instr := [
  { name := "sh1add", phases := [{ srcs := [.one .Rs1, .one .Rs2, .one .Const1], dsts := [.one .Rd], fn := some rv32_RiscVShAdd }] },
  { name := "sh2add", phases := [{ srcs := [.one .Rs1, .one .Rs2, .one .Const2], dsts := [.one .Rd], fn := some rv32_RiscVShAdd }] },
  { name := "sh3add", phases := [{ srcs := [.one .Rs1, .one .Rs2, .one .Const3], dsts := [.one .Rd], fn := some rv32_RiscVShAdd }] }]

/-- Slot `riscv32_zbb` (riscv32zb.isa:53-130). -/
def slot_riscv32_zbb : List Instr := [
  { name := "andn", phases := [{ srcs := [.one .Rs1, .one .Rs2], dsts := [.one .Rd], fn := some rv32_RiscVAndn }] },
  { name := "orn", phases := [{ srcs := [.one .Rs1, .one .Rs2], dsts := [.one .Rd], fn := some rv32_RiscVOrn }] },
  { name := "xnor", phases := [{ srcs := [.one .Rs1, .one .Rs2], dsts := [.one .Rd], fn := some rv32_RiscVXnor }] },
  { name := "clz", phases := [{ srcs := [.one .Rs1], dsts := [.one .Rd], fn := some rv32_RiscVClz }] },
  { name := "ctz", phases := [{ srcs := [.one .Rs1], dsts := [.one .Rd], fn := some rv32_RiscVCtz }] },
  { name := "cpop", phases := [{ srcs := [.one .Rs1], dsts := [.one .Rd], fn := some rv32_RiscVCpop }] },
  { name := "max", phases := [{ srcs := [.one .Rs1, .one .Rs2], dsts := [.one .Rd], fn := some rv32_RiscVMax }] },
  { name := "maxu", phases := [{ srcs := [.one .Rs1, .one .Rs2], dsts := [.one .Rd], fn := some rv32_RiscVMaxu }] },
  { name := "min", phases := [{ srcs := [.one .Rs1, .one .Rs2], dsts := [.one .Rd], fn := some rv32_RiscVMin }] },
  { name := "minu", phases := [{ srcs := [.one .Rs1, .one .Rs2], dsts := [.one .Rd], fn := some rv32_RiscVMinu }] },
  { name := "sext_b", phases := [{ srcs := [.one .Rs1], dsts := [.one .Rd], fn := some rv32_RiscVSextB }] },
  { name := "sext_h", phases := [{ srcs := [.one .Rs1], dsts := [.one .Rd], fn := some rv32_RiscVSextH }] },
  { name := "zext_h", phases := [{ srcs := [.one .Rs1], dsts := [.one .Rd], fn := some rv32_RiscVZextH }] },
  { name := "rol", phases := [{ srcs := [.one .Rs1, .one .Rs2], dsts := [.one .Rd], fn := some rv32_RiscVRol }] },
  { name := "ror", phases := [{ srcs := [.one .Rs1, .one .Rs2], dsts := [.one .Rd], fn := some rv32_RiscVRor }] },
  { name := "orcb", phases := [{ srcs := [.one .Rs1], dsts := [.one .Rd], fn := some rv32_RiscVOrcb }] },
  { name := "rev8", phases := [{ srcs := [.one .Rs1], dsts := [.one .Rd], fn := some rv32_RiscVRev8 }] }]

/-- Slot `riscv32_zbb_imm` (riscv32zb.isa:137-142). -/
def slot_riscv32_zbb_imm : List Instr := [
  { name := "rori", phases := [{ srcs := [.one .Rs1, .one .RUimm5], dsts := [.one .Rd], fn := some rv32_RiscVRor }] }]

/-- Slot `riscv32_zbc` (riscv32zb.isa:149-162). -/
def slot_riscv32_zbc : List Instr := [
  { name := "clmul", phases := [{ srcs := [.one .Rs1, .one .Rs2], dsts := [.one .Rd], fn := some rv32_RiscVClmul }] },
  { name := "clmulh", phases := [{ srcs := [.one .Rs1, .one .Rs2], dsts := [.one .Rd], fn := some rv32_RiscVClmulh }] },
  { name := "clmulr", phases := [{ srcs := [.one .Rs1, .one .Rs2], dsts := [.one .Rd], fn := some rv32_RiscVClmulr }] }]

/-- Slot `riscv32_zbs` (riscv32zb.isa:169-187). -/
def slot_riscv32_zbs : List Instr := [
  { name := "bclr", phases := [{ srcs := [.one .Rs1, .one .Rs2], dsts := [.one .Rd], fn := some rv32_RiscVBclr }] },
  { name := "bext", phases := [{ srcs := [.one .Rs1, .one .Rs2], dsts := [.one .Rd], fn := some rv32_RiscVBext }] },
  { name := "binv", phases := [{ srcs := [.one .Rs1, .one .Rs2], dsts := [.one .Rd], fn := some rv32_RiscVBinv }] },
  { name := "bset", phases := [{ srcs := [.one .Rs1, .one .Rs2], dsts := [.one .Rd], fn := some rv32_RiscVBset }] }]

/-- Slot `riscv32_zbs_imm` (riscv32zb.isa:194-211). -/
def slot_riscv32_zbs_imm : List Instr := [
  { name := "bclri", phases := [{ srcs := [.one .Rs1, .one .RUimm5], dsts := [.one .Rd], fn := some rv32_RiscVBclr }] },
  { name := "bexti", phases := [{ srcs := [.one .Rs1, .one .RUimm5], dsts := [.one .Rd], fn := some rv32_RiscVBext }] },
  { name := "binvi", phases := [{ srcs := [.one .Rs1, .one .RUimm5], dsts := [.one .Rd], fn := some rv32_RiscVBinv }] },
  { name := "bseti", phases := [{ srcs := [.one .Rs1, .one .RUimm5], dsts := [.one .Rd], fn := some rv32_RiscVBset }] }]

/-- Slot `riscv32gzb` (riscv32gzb.isa:25). -/
def slot_riscv32gzb : List Instr := slot_riscv32g ++ slot_riscv32_zba ++ slot_riscv32_zbb ++ slot_riscv32_zbb_imm ++ slot_riscv32_zbc ++ slot_riscv32_zbs ++ slot_riscv32_zbs_imm

/-- Slot `riscv_vector` (riscv_vector.isa:20-1399). -/
def slot_riscv_vector : List Instr := [
  { name := "vsetvli_xn", phases := [{ srcs := [.one .Rs1, .one .Zimm11], dsts := [.one .Rd], fn := some fn_Vsetvl, args := [0, 0] }] },
  { name := "vsetvli_nz", phases := [{ srcs := [.one .Rs1, .one .Zimm11], dsts := [.one .Rd], fn := some fn_Vsetvl, args := [0, 1] }] },
  { name := "vsetvli_zz", phases := [{ srcs := [.one .Rs1, .one .Zimm11], dsts := [.one .Rd], fn := some fn_Vsetvl, args := [1, 1] }] },
  { name := "vsetivli", phases := [{ srcs := [.one .Uimm5, .one .Zimm10], dsts := [.one .Rd], fn := some fn_Vsetvl, args := [0, 0] }] },
  { name := "vsetvl_xn", phases := [{ srcs := [.one .Rs1, .one .Rs2], dsts := [.one .Rd], fn := some fn_Vsetvl, args := [0, 0] }] },
  { name := "vsetvl_nz", phases := [{ srcs := [.one .Rs1, .one .Rs2], dsts := [.one .Rd], fn := some fn_Vsetvl, args := [0, 1] }] },
  { name := "vsetvl_zz", phases := [{ srcs := [.one .Rs1, .one .Rs2], dsts := [.one .Rd], fn := some fn_Vsetvl, args := [1, 1] }] },
  { name := "vle8", phases := [{ srcs := [.one .Rs1, .one .Const1, .one .Vmask], dsts := [], fn := some fn_VlStrided, args := [1] }, { srcs := [], dsts := [.one .Vd], fn := some fn_VlChild }] },
  { name := "vle16", phases := [{ srcs := [.one .Rs1, .one .Const2, .one .Vmask], dsts := [], fn := some fn_VlStrided, args := [2] }, { srcs := [], dsts := [.one .Vd], fn := some fn_VlChild }] },
  { name := "vle32", phases := [{ srcs := [.one .Rs1, .one .Const4, .one .Vmask], dsts := [], fn := some fn_VlStrided, args := [4] }, { srcs := [], dsts := [.one .Vd], fn := some fn_VlChild }] },
  { name := "vle64", phases := [{ srcs := [.one .Rs1, .one .Const8, .one .Vmask], dsts := [], fn := some fn_VlStrided, args := [8] }, { srcs := [], dsts := [.one .Vd], fn := some fn_VlChild }] },
  { name := "vle8_vm1", phases := [{ srcs := [.one .Rs1, .one .Const1, .one .VmaskTrue], dsts := [], fn := some fn_VlStrided, args := [1] }, { srcs := [], dsts := [.one .Vd], fn := some fn_VlChild }] },
  { name := "vle16_vm1", phases := [{ srcs := [.one .Rs1, .one .Const2, .one .VmaskTrue], dsts := [], fn := some fn_VlStrided, args := [2] }, { srcs := [], dsts := [.one .Vd], fn := some fn_VlChild }] },
  { name := "vle32_vm1", phases := [{ srcs := [.one .Rs1, .one .Const4, .one .VmaskTrue], dsts := [], fn := some fn_VlStrided, args := [4] }, { srcs := [], dsts := [.one .Vd], fn := some fn_VlChild }] },
  { name := "vle64_vm1", phases := [{ srcs := [.one .Rs1, .one .Const8, .one .VmaskTrue], dsts := [], fn := some fn_VlStrided, args := [8] }, { srcs := [], dsts := [.one .Vd], fn := some fn_VlChild }] },
  { name := "vlse8", phases := [{ srcs := [.one .Rs1, .one .Rs2, .one .Vmask], dsts := [], fn := some fn_VlStrided, args := [1] }, { srcs := [], dsts := [.one .Vd], fn := some fn_VlChild }] },
  { name := "vlse16", phases := [{ srcs := [.one .Rs1, .one .Rs2, .one .Vmask], dsts := [], fn := some fn_VlStrided, args := [2] }, { srcs := [], dsts := [.one .Vd], fn := some fn_VlChild }] },
  { name := "vlse32", phases := [{ srcs := [.one .Rs1, .one .Rs2, .one .Vmask], dsts := [], fn := some fn_VlStrided, args := [4] }, { srcs := [], dsts := [.one .Vd], fn := some fn_VlChild }] },
  { name := "vlse64", phases := [{ srcs := [.one .Rs1, .one .Rs2, .one .Vmask], dsts := [], fn := some fn_VlStrided, args := [8] }, { srcs := [], dsts := [.one .Vd], fn := some fn_VlChild }] },
  { name := "vlm", phases := [{ srcs := [.one .Rs1, .one .Const1, .one .VmaskTrue], dsts := [], fn := some fn_Vlm }, { srcs := [], dsts := [.one .Vd], fn := some fn_VlChild }] },
  { name := "vle8ff", phases := [{ srcs := [.one .Rs1, .one .Const1, .one .Vmask], dsts := [], fn := some fn_VlStrided, args := [1] }, { srcs := [], dsts := [.one .Vd], fn := some fn_VlChild }] },
  { name := "vle16ff", phases := [{ srcs := [.one .Rs1, .one .Const2, .one .Vmask], dsts := [], fn := some fn_VlStrided, args := [2] }, { srcs := [], dsts := [.one .Vd], fn := some fn_VlChild }] },
  { name := "vle32ff", phases := [{ srcs := [.one .Rs1, .one .Const4, .one .Vmask], dsts := [], fn := some fn_VlStrided, args := [4] }, { srcs := [], dsts := [.one .Vd], fn := some fn_VlChild }] },
  { name := "vle64ff", phases := [{ srcs := [.one .Rs1, .one .Const8, .one .Vmask], dsts := [], fn := some fn_VlStrided, args := [8] }, { srcs := [], dsts := [.one .Vd], fn := some fn_VlChild }] },
  { name := "vl1re8", phases := [{ srcs := [.one .Rs1], dsts := [], fn := some fn_VlRegister, args := [1, 1] }, { srcs := [], dsts := [.one .Vd], fn := some fn_VlChild }] },
  { name := "vl1re16", phases := [{ srcs := [.one .Rs1], dsts := [], fn := some fn_VlRegister, args := [1, 2] }, { srcs := [], dsts := [.one .Vd], fn := some fn_VlChild }] },
  { name := "vl1re32", phases := [{ srcs := [.one .Rs1], dsts := [], fn := some fn_VlRegister, args := [1, 4] }, { srcs := [], dsts := [.one .Vd], fn := some fn_VlChild }] },
  { name := "vl1re64", phases := [{ srcs := [.one .Rs1], dsts := [], fn := some fn_VlRegister, args := [1, 8] }, { srcs := [], dsts := [.one .Vd], fn := some fn_VlChild }] },
  { name := "vl2re8", phases := [{ srcs := [.one .Rs1], dsts := [], fn := some fn_VlRegister, args := [2, 1] }, { srcs := [], dsts := [.one .Vd], fn := some fn_VlChild }] },
  { name := "vl2re16", phases := [{ srcs := [.one .Rs1], dsts := [], fn := some fn_VlRegister, args := [2, 2] }, { srcs := [], dsts := [.one .Vd], fn := some fn_VlChild }] },
  { name := "vl2re32", phases := [{ srcs := [.one .Rs1], dsts := [], fn := some fn_VlRegister, args := [2, 4] }, { srcs := [], dsts := [.one .Vd], fn := some fn_VlChild }] },
  { name := "vl2re64", phases := [{ srcs := [.one .Rs1], dsts := [], fn := some fn_VlRegister, args := [2, 8] }, { srcs := [], dsts := [.one .Vd], fn := some fn_VlChild }] },
  { name := "vl4re8", phases := [{ srcs := [.one .Rs1], dsts := [], fn := some fn_VlRegister, args := [4, 1] }, { srcs := [], dsts := [.one .Vd], fn := some fn_VlChild }] },
  { name := "vl4re16", phases := [{ srcs := [.one .Rs1], dsts := [], fn := some fn_VlRegister, args := [4, 2] }, { srcs := [], dsts := [.one .Vd], fn := some fn_VlChild }] },
  { name := "vl4re32", phases := [{ srcs := [.one .Rs1], dsts := [], fn := some fn_VlRegister, args := [4, 4] }, { srcs := [], dsts := [.one .Vd], fn := some fn_VlChild }] },
  { name := "vl4re64", phases := [{ srcs := [.one .Rs1], dsts := [], fn := some fn_VlRegister, args := [4, 8] }, { srcs := [], dsts := [.one .Vd], fn := some fn_VlChild }] },
  { name := "vl8re8", phases := [{ srcs := [.one .Rs1], dsts := [], fn := some fn_VlRegister, args := [8, 1] }, { srcs := [], dsts := [.one .Vd], fn := some fn_VlChild }] },
  { name := "vl8re16", phases := [{ srcs := [.one .Rs1], dsts := [], fn := some fn_VlRegister, args := [8, 2] }, { srcs := [], dsts := [.one .Vd], fn := some fn_VlChild }] },
  { name := "vl8re32", phases := [{ srcs := [.one .Rs1], dsts := [], fn := some fn_VlRegister, args := [8, 4] }, { srcs := [], dsts := [.one .Vd], fn := some fn_VlChild }] },
  { name := "vl8re64", phases := [{ srcs := [.one .Rs1], dsts := [], fn := some fn_VlRegister, args := [8, 8] }, { srcs := [], dsts := [.one .Vd], fn := some fn_VlChild }] },
  { name := "vluxei8", phases := [{ srcs := [.one .Rs1, .one .Vs2, .one .Vmask], dsts := [], fn := some fn_VlIndexed, args := [1] }, { srcs := [], dsts := [.one .Vd], fn := some fn_VlChild }] },
  { name := "vluxei16", phases := [{ srcs := [.one .Rs1, .one .Vs2, .one .Vmask], dsts := [], fn := some fn_VlIndexed, args := [2] }, { srcs := [], dsts := [.one .Vd], fn := some fn_VlChild }] },
  { name := "vluxei32", phases := [{ srcs := [.one .Rs1, .one .Vs2, .one .Vmask], dsts := [], fn := some fn_VlIndexed, args := [4] }, { srcs := [], dsts := [.one .Vd], fn := some fn_VlChild }] },
  { name := "vluxei64", phases := [{ srcs := [.one .Rs1, .one .Vs2, .one .Vmask], dsts := [], fn := some fn_VlIndexed, args := [8] }, { srcs := [], dsts := [.one .Vd], fn := some fn_VlChild }] },
  { name := "vloxei8", phases := [{ srcs := [.one .Rs1, .one .Vs2, .one .Vmask], dsts := [], fn := some fn_VlIndexed, args := [1] }, { srcs := [], dsts := [.one .Vd], fn := some fn_VlChild }] },
  { name := "vloxei16", phases := [{ srcs := [.one .Rs1, .one .Vs2, .one .Vmask], dsts := [], fn := some fn_VlIndexed, args := [2] }, { srcs := [], dsts := [.one .Vd], fn := some fn_VlChild }] },
  { name := "vloxei32", phases := [{ srcs := [.one .Rs1, .one .Vs2, .one .Vmask], dsts := [], fn := some fn_VlIndexed, args := [4] }, { srcs := [], dsts := [.one .Vd], fn := some fn_VlChild }] },
  { name := "vloxei64", phases := [{ srcs := [.one .Rs1, .one .Vs2, .one .Vmask], dsts := [], fn := some fn_VlIndexed, args := [8] }, { srcs := [], dsts := [.one .Vd], fn := some fn_VlChild }] },
  { name := "vlsege8", phases := [{ srcs := [.one .Rs1, .one .Vmask, .one .Nf], dsts := [], fn := some fn_VlSegment, args := [1] }, { srcs := [.one .Nf], dsts := [.one .Vd], fn := some fn_VlSegmentChild, args := [1] }] },
  { name := "vlsege16", phases := [{ srcs := [.one .Rs1, .one .Vmask, .one .Nf], dsts := [], fn := some fn_VlSegment, args := [2] }, { srcs := [.one .Nf], dsts := [.one .Vd], fn := some fn_VlSegmentChild, args := [2] }] },
  { name := "vlsege32", phases := [{ srcs := [.one .Rs1, .one .Vmask, .one .Nf], dsts := [], fn := some fn_VlSegment, args := [4] }, { srcs := [.one .Nf], dsts := [.one .Vd], fn := some fn_VlSegmentChild, args := [4] }] },
  { name := "vlsege64", phases := [{ srcs := [.one .Rs1, .one .Vmask, .one .Nf], dsts := [], fn := some fn_VlSegment, args := [8] }, { srcs := [.one .Nf], dsts := [.one .Vd], fn := some fn_VlSegmentChild, args := [8] }] },
  { name := "vlssege8", phases := [{ srcs := [.one .Rs1, .one .Rs2, .one .Vmask, .one .Nf], dsts := [], fn := some fn_VlSegmentStrided, args := [1] }, { srcs := [.one .Nf], dsts := [.one .Vd], fn := some fn_VlSegmentChild, args := [1] }] },
  { name := "vlssege16", phases := [{ srcs := [.one .Rs1, .one .Rs2, .one .Vmask, .one .Nf], dsts := [], fn := some fn_VlSegmentStrided, args := [2] }, { srcs := [.one .Nf], dsts := [.one .Vd], fn := some fn_VlSegmentChild, args := [2] }] },
  { name := "vlssege32", phases := [{ srcs := [.one .Rs1, .one .Rs2, .one .Vmask, .one .Nf], dsts := [], fn := some fn_VlSegmentStrided, args := [4] }, { srcs := [.one .Nf], dsts := [.one .Vd], fn := some fn_VlSegmentChild, args := [4] }] },
  { name := "vlssege64", phases := [{ srcs := [.one .Rs1, .one .Rs2, .one .Vmask, .one .Nf], dsts := [], fn := some fn_VlSegmentStrided, args := [8] }, { srcs := [.one .Nf], dsts := [.one .Vd], fn := some fn_VlSegmentChild, args := [8] }] },
  { name := "vluxsegei8", phases := [{ srcs := [.one .Rs1, .one .Vs2, .one .Vmask, .one .Nf], dsts := [], fn := some fn_VlSegmentIndexed, args := [1] }, { srcs := [.one .Nf], dsts := [.one .Vd], fn := some fn_VlSegmentChild, args := [1] }] },
  { name := "vluxsegei16", phases := [{ srcs := [.one .Rs1, .one .Vs2, .one .Vmask, .one .Nf], dsts := [], fn := some fn_VlSegmentIndexed, args := [2] }, { srcs := [.one .Nf], dsts := [.one .Vd], fn := some fn_VlSegmentChild, args := [2] }] },
  { name := "vluxsegei32", phases := [{ srcs := [.one .Rs1, .one .Vs2, .one .Vmask, .one .Nf], dsts := [], fn := some fn_VlSegmentIndexed, args := [4] }, { srcs := [.one .Nf], dsts := [.one .Vd], fn := some fn_VlSegmentChild, args := [4] }] },
  { name := "vluxsegei64", phases := [{ srcs := [.one .Rs1, .one .Vs2, .one .Vmask, .one .Nf], dsts := [], fn := some fn_VlSegmentIndexed, args := [8] }, { srcs := [.one .Nf], dsts := [.one .Vd], fn := some fn_VlSegmentChild, args := [8] }] },
  { name := "vloxsegei8", phases := [{ srcs := [.one .Rs1, .one .Vs2, .one .Vmask, .one .Nf], dsts := [], fn := some fn_VlSegmentIndexed, args := [1] }, { srcs := [.one .Nf], dsts := [.one .Vd], fn := some fn_VlSegmentChild, args := [1] }] },
  { name := "vloxsegei16", phases := [{ srcs := [.one .Rs1, .one .Vs2, .one .Vmask, .one .Nf], dsts := [], fn := some fn_VlSegmentIndexed, args := [2] }, { srcs := [.one .Nf], dsts := [.one .Vd], fn := some fn_VlSegmentChild, args := [2] }] },
  { name := "vloxsegei32", phases := [{ srcs := [.one .Rs1, .one .Vs2, .one .Vmask, .one .Nf], dsts := [], fn := some fn_VlSegmentIndexed, args := [4] }, { srcs := [.one .Nf], dsts := [.one .Vd], fn := some fn_VlSegmentChild, args := [4] }] },
  { name := "vloxsegei64", phases := [{ srcs := [.one .Rs1, .one .Vs2, .one .Vmask, .one .Nf], dsts := [], fn := some fn_VlSegmentIndexed, args := [8] }, { srcs := [.one .Nf], dsts := [.one .Vd], fn := some fn_VlSegmentChild, args := [8] }] },
  { name := "vse8", phases := [{ srcs := [.one .Vs3, .one .Rs1, .one .Const1, .one .Vmask], dsts := [], fn := some fn_VsStrided, args := [1] }] },
  { name := "vse16", phases := [{ srcs := [.one .Vs3, .one .Rs1, .one .Const2, .one .Vmask], dsts := [], fn := some fn_VsStrided, args := [2] }] },
  { name := "vse32", phases := [{ srcs := [.one .Vs3, .one .Rs1, .one .Const4, .one .Vmask], dsts := [], fn := some fn_VsStrided, args := [4] }] },
  { name := "vse64", phases := [{ srcs := [.one .Vs3, .one .Rs1, .one .Const8, .one .Vmask], dsts := [], fn := some fn_VsStrided, args := [8] }] },
  { name := "vsm", phases := [{ srcs := [.one .Vs3, .one .Rs1, .one .Const1, .one .VmaskTrue], dsts := [], fn := some fn_Vsm }] },
  { name := "vse8ff", phases := [{ srcs := [.one .Vs3, .one .Rs1, .one .Const1, .one .Vmask], dsts := [], fn := some fn_VsStrided, args := [1] }] },
  { name := "vse16ff", phases := [{ srcs := [.one .Vs3, .one .Rs1, .one .Const2, .one .Vmask], dsts := [], fn := some fn_VsStrided, args := [2] }] },
  { name := "vse32ff", phases := [{ srcs := [.one .Vs3, .one .Rs1, .one .Const4, .one .Vmask], dsts := [], fn := some fn_VsStrided, args := [4] }] },
  { name := "vse64ff", phases := [{ srcs := [.one .Vs3, .one .Rs1, .one .Const8, .one .Vmask], dsts := [], fn := some fn_VsStrided, args := [8] }] },
  { name := "vs1re8", phases := [{ srcs := [.one .Vs3, .one .Rs1], dsts := [], fn := some fn_VsRegister, args := [1] }] },
  { name := "vs1re16", phases := [{ srcs := [.one .Vs3, .one .Rs1], dsts := [], fn := some fn_VsRegister, args := [1] }] },
  { name := "vs1re32", phases := [{ srcs := [.one .Vs3, .one .Rs1], dsts := [], fn := some fn_VsRegister, args := [1] }] },
  { name := "vs1re64", phases := [{ srcs := [.one .Vs3, .one .Rs1], dsts := [], fn := some fn_VsRegister, args := [1] }] },
  { name := "vs2re8", phases := [{ srcs := [.one .Vs3, .one .Rs1], dsts := [], fn := some fn_VsRegister, args := [2] }] },
  { name := "vs2re16", phases := [{ srcs := [.one .Vs3, .one .Rs1], dsts := [], fn := some fn_VsRegister, args := [2] }] },
  { name := "vs2re32", phases := [{ srcs := [.one .Vs3, .one .Rs1], dsts := [], fn := some fn_VsRegister, args := [2] }] },
  { name := "vs2re64", phases := [{ srcs := [.one .Vs3, .one .Rs1], dsts := [], fn := some fn_VsRegister, args := [2] }] },
  { name := "vs4re8", phases := [{ srcs := [.one .Vs3, .one .Rs1], dsts := [], fn := some fn_VsRegister, args := [4] }] },
  { name := "vs4re16", phases := [{ srcs := [.one .Vs3, .one .Rs1], dsts := [], fn := some fn_VsRegister, args := [4] }] },
  { name := "vs4re32", phases := [{ srcs := [.one .Vs3, .one .Rs1], dsts := [], fn := some fn_VsRegister, args := [4] }] },
  { name := "vs4re64", phases := [{ srcs := [.one .Vs3, .one .Rs1], dsts := [], fn := some fn_VsRegister, args := [4] }] },
  { name := "vs8re8", phases := [{ srcs := [.one .Vs3, .one .Rs1], dsts := [], fn := some fn_VsRegister, args := [8] }] },
  { name := "vs8re16", phases := [{ srcs := [.one .Vs3, .one .Rs1], dsts := [], fn := some fn_VsRegister, args := [8] }] },
  { name := "vs8re32", phases := [{ srcs := [.one .Vs3, .one .Rs1], dsts := [], fn := some fn_VsRegister, args := [8] }] },
  { name := "vs8re64", phases := [{ srcs := [.one .Vs3, .one .Rs1], dsts := [], fn := some fn_VsRegister, args := [8] }] },
  { name := "vsse8", phases := [{ srcs := [.one .Vs3, .one .Rs1, .one .Rs2, .one .Vmask], dsts := [], fn := some fn_VsStrided, args := [1] }] },
  { name := "vsse16", phases := [{ srcs := [.one .Vs3, .one .Rs1, .one .Rs2, .one .Vmask], dsts := [], fn := some fn_VsStrided, args := [2] }] },
  { name := "vsse32", phases := [{ srcs := [.one .Vs3, .one .Rs1, .one .Rs2, .one .Vmask], dsts := [], fn := some fn_VsStrided, args := [4] }] },
  { name := "vsse64", phases := [{ srcs := [.one .Vs3, .one .Rs1, .one .Rs2, .one .Vmask], dsts := [], fn := some fn_VsStrided, args := [8] }] },
  { name := "vsuxei8", phases := [{ srcs := [.one .Vs3, .one .Rs1, .one .Vs2, .one .Vmask], dsts := [], fn := some fn_VsIndexed, args := [1] }] },
  { name := "vsuxei16", phases := [{ srcs := [.one .Vs3, .one .Rs1, .one .Vs2, .one .Vmask], dsts := [], fn := some fn_VsIndexed, args := [2] }] },
  { name := "vsuxei32", phases := [{ srcs := [.one .Vs3, .one .Rs1, .one .Vs2, .one .Vmask], dsts := [], fn := some fn_VsIndexed, args := [4] }] },
  { name := "vsuxei64", phases := [{ srcs := [.one .Vs3, .one .Rs1, .one .Vs2, .one .Vmask], dsts := [], fn := some fn_VsIndexed, args := [8] }] },
  { name := "vsoxei8", phases := [{ srcs := [.one .Vs3, .one .Rs1, .one .Vs2, .one .Vmask], dsts := [], fn := some fn_VsIndexed, args := [1] }] },
  { name := "vsoxei16", phases := [{ srcs := [.one .Vs3, .one .Rs1, .one .Vs2, .one .Vmask], dsts := [], fn := some fn_VsIndexed, args := [2] }] },
  { name := "vsoxei32", phases := [{ srcs := [.one .Vs3, .one .Rs1, .one .Vs2, .one .Vmask], dsts := [], fn := some fn_VsIndexed, args := [4] }] },
  { name := "vsoxei64", phases := [{ srcs := [.one .Vs3, .one .Rs1, .one .Vs2, .one .Vmask], dsts := [], fn := some fn_VsIndexed, args := [8] }] },
  { name := "vssege8", phases := [{ srcs := [.one .Vs3, .one .Rs1, .one .Vmask, .one .Nf], dsts := [], fn := some fn_VsSegment, args := [1] }] },
  { name := "vssege16", phases := [{ srcs := [.one .Vs3, .one .Rs1, .one .Vmask, .one .Nf], dsts := [], fn := some fn_VsSegment, args := [2] }] },
  { name := "vssege32", phases := [{ srcs := [.one .Vs3, .one .Rs1, .one .Vmask, .one .Nf], dsts := [], fn := some fn_VsSegment, args := [4] }] },
  { name := "vssege64", phases := [{ srcs := [.one .Vs3, .one .Rs1, .one .Vmask, .one .Nf], dsts := [], fn := some fn_VsSegment, args := [8] }] },
  { name := "vsssege8", phases := [{ srcs := [.one .Vs3, .one .Rs1, .one .Rs2, .one .Vmask, .one .Nf], dsts := [], fn := some fn_VsSegmentStrided, args := [1] }] },
  { name := "vsssege16", phases := [{ srcs := [.one .Vs3, .one .Rs1, .one .Rs2, .one .Vmask, .one .Nf], dsts := [], fn := some fn_VsSegmentStrided, args := [2] }] },
  { name := "vsssege32", phases := [{ srcs := [.one .Vs3, .one .Rs1, .one .Rs2, .one .Vmask, .one .Nf], dsts := [], fn := some fn_VsSegmentStrided, args := [4] }] },
  { name := "vsssege64", phases := [{ srcs := [.one .Vs3, .one .Rs1, .one .Rs2, .one .Vmask, .one .Nf], dsts := [], fn := some fn_VsSegmentStrided, args := [8] }] },
  { name := "vsuxsegei8", phases := [{ srcs := [.one .Vs3, .one .Rs1, .one .Vs2, .one .Vmask, .one .Nf], dsts := [], fn := some fn_VsSegmentStrided, args := [1] }] },
  { name := "vsuxsegei16", phases := [{ srcs := [.one .Vs3, .one .Rs1, .one .Vs2, .one .Vmask, .one .Nf], dsts := [], fn := some fn_VsSegmentStrided, args := [2] }] },
  { name := "vsuxsegei32", phases := [{ srcs := [.one .Vs3, .one .Rs1, .one .Vs2, .one .Vmask, .one .Nf], dsts := [], fn := some fn_VsSegmentStrided, args := [4] }] },
  { name := "vsuxsegei64", phases := [{ srcs := [.one .Vs3, .one .Rs1, .one .Vs2, .one .Vmask, .one .Nf], dsts := [], fn := some fn_VsSegmentStrided, args := [8] }] },
  { name := "vsoxsegei8", phases := [{ srcs := [.one .Vs3, .one .Rs1, .one .Vs2, .one .Vmask, .one .Nf], dsts := [], fn := some fn_VsSegmentIndexed, args := [1] }] },
  { name := "vsoxsegei16", phases := [{ srcs := [.one .Vs3, .one .Rs1, .one .Vs2, .one .Vmask, .one .Nf], dsts := [], fn := some fn_VsSegmentIndexed, args := [2] }] },
  { name := "vsoxsegei32", phases := [{ srcs := [.one .Vs3, .one .Rs1, .one .Vs2, .one .Vmask, .one .Nf], dsts := [], fn := some fn_VsSegmentIndexed, args := [4] }] },
  { name := "vsoxsegei64", phases := [{ srcs := [.one .Vs3, .one .Rs1, .one .Vs2, .one .Vmask, .one .Nf], dsts := [], fn := some fn_VsSegmentIndexed, args := [8] }] },
  { name := "vadd_vv", phases := [{ srcs := [.one .Vs2, .one .Vs1, .one .Vmask], dsts := [.one .Vd], fn := some fn_Vadd }] },
  { name := "vadd_vx", phases := [{ srcs := [.one .Vs2, .one .Rs1, .one .Vmask], dsts := [.one .Vd], fn := some fn_Vadd }] },
  { name := "vadd_vi", phases := [{ srcs := [.one .Vs2, .one .Simm5, .one .Vmask], dsts := [.one .Vd], fn := some fn_Vadd }] },
  { name := "vsub_vv", phases := [{ srcs := [.one .Vs2, .one .Vs1, .one .Vmask], dsts := [.one .Vd], fn := some fn_Vsub }] },
  { name := "vsub_vx", phases := [{ srcs := [.one .Vs2, .one .Rs1, .one .Vmask], dsts := [.one .Vd], fn := some fn_Vsub }] },
  { name := "vrsub_vx", phases := [{ srcs := [.one .Vs2, .one .Rs1, .one .Vmask], dsts := [.one .Vd], fn := some fn_Vrsub }] },
  { name := "vrsub_vi", phases := [{ srcs := [.one .Vs2, .one .Simm5, .one .Vmask], dsts := [.one .Vd], fn := some fn_Vrsub }] },
  { name := "vminu_vv", phases := [{ srcs := [.one .Vs2, .one .Vs1, .one .Vmask], dsts := [.one .Vd], fn := some fn_Vminu }] },
  { name := "vminu_vx", phases := [{ srcs := [.one .Vs2, .one .Rs1, .one .Vmask], dsts := [.one .Vd], fn := some fn_Vminu }] },
  { name := "vmin_vv", phases := [{ srcs := [.one .Vs2, .one .Vs1, .one .Vmask], dsts := [.one .Vd], fn := some fn_Vmin }] },
  { name := "vmin_vx", phases := [{ srcs := [.one .Vs2, .one .Rs1, .one .Vmask], dsts := [.one .Vd], fn := some fn_Vmin }] },
  { name := "vmaxu_vv", phases := [{ srcs := [.one .Vs2, .one .Vs1, .one .Vmask], dsts := [.one .Vd], fn := some fn_Vmaxu }] },
  { name := "vmaxu_vx", phases := [{ srcs := [.one .Vs2, .one .Rs1, .one .Vmask], dsts := [.one .Vd], fn := some fn_Vmaxu }] },
  { name := "vmax_vv", phases := [{ srcs := [.one .Vs2, .one .Vs1, .one .Vmask], dsts := [.one .Vd], fn := some fn_Vmax }] },
  { name := "vmax_vx", phases := [{ srcs := [.one .Vs2, .one .Rs1, .one .Vmask], dsts := [.one .Vd], fn := some fn_Vmax }] },
  { name := "vand_vv", phases := [{ srcs := [.one .Vs2, .one .Vs1, .one .Vmask], dsts := [.one .Vd], fn := some fn_Vand }] },
  { name := "vand_vx", phases := [{ srcs := [.one .Vs2, .one .Rs1, .one .Vmask], dsts := [.one .Vd], fn := some fn_Vand }] },
  { name := "vand_vi", phases := [{ srcs := [.one .Vs2, .one .Simm5, .one .Vmask], dsts := [.one .Vd], fn := some fn_Vand }] },
  { name := "vor_vv", phases := [{ srcs := [.one .Vs2, .one .Vs1, .one .Vmask], dsts := [.one .Vd], fn := some fn_Vor }] },
  { name := "vor_vx", phases := [{ srcs := [.one .Vs2, .one .Rs1, .one .Vmask], dsts := [.one .Vd], fn := some fn_Vor }] },
  { name := "vor_vi", phases := [{ srcs := [.one .Vs2, .one .Simm5, .one .Vmask], dsts := [.one .Vd], fn := some fn_Vor }] },
  { name := "vxor_vv", phases := [{ srcs := [.one .Vs2, .one .Vs1, .one .Vmask], dsts := [.one .Vd], fn := some fn_Vxor }] },
  { name := "vxor_vx", phases := [{ srcs := [.one .Vs2, .one .Rs1, .one .Vmask], dsts := [.one .Vd], fn := some fn_Vxor }] },
  { name := "vxor_vi", phases := [{ srcs := [.one .Vs2, .one .Simm5, .one .Vmask], dsts := [.one .Vd], fn := some fn_Vxor }] },
  { name := "vrgather_vv", phases := [{ srcs := [.one .Vs2, .one .Vs1, .one .Vmask], dsts := [.one .Vd], fn := some fn_Vrgather }] },
  { name := "vrgather_vx", phases := [{ srcs := [.one .Vs2, .one .Rs1, .one .Vmask], dsts := [.one .Vd], fn := some fn_Vrgather }] },
  { name := "vrgather_vi", phases := [{ srcs := [.one .Vs2, .one .Uimm5, .one .Vmask], dsts := [.one .Vd], fn := some fn_Vrgather }] },
  { name := "vrgatherei16_vv", phases := [{ srcs := [.one .Vs2, .one .Vs1, .one .Vmask], dsts := [.one .Vd], fn := some fn_Vrgatherei16 }] },
  { name := "vslideup_vx", phases := [{ srcs := [.one .Vs2, .one .Rs1, .one .Vmask], dsts := [.one .Vd], fn := some fn_Vslideup }] },
  { name := "vslideup_vi", phases := [{ srcs := [.one .Vs2, .one .Uimm5, .one .Vmask], dsts := [.one .Vd], fn := some fn_Vslideup }] },
  { name := "vslidedown_vx", phases := [{ srcs := [.one .Vs2, .one .Rs1, .one .Vmask], dsts := [.one .Vd], fn := some fn_Vslidedown }] },
  { name := "vslidedown_vi", phases := [{ srcs := [.one .Vs2, .one .Uimm5, .one .Vmask], dsts := [.one .Vd], fn := some fn_Vslidedown }] },
  { name := "vadc_vv", phases := [{ srcs := [.one .Vs2, .one .Vs1, .one .Vmask], dsts := [.one .Vd], fn := some fn_Vadc }] },
  { name := "vadc_vx", phases := [{ srcs := [.one .Vs2, .one .Rs1, .one .Vmask], dsts := [.one .Vd], fn := some fn_Vadc }] },
  { name := "vadc_vi", phases := [{ srcs := [.one .Vs2, .one .Simm5, .one .Vmask], dsts := [.one .Vd], fn := some fn_Vadc }] },
  { name := "vmadc_vv", phases := [{ srcs := [.one .Vs2, .one .Vs1, .one .Vmask, .one .Vm], dsts := [.one .Vd], fn := some fn_Vmadc }] },
  { name := "vmadc_vx", phases := [{ srcs := [.one .Vs2, .one .Rs1, .one .Vmask, .one .Vm], dsts := [.one .Vd], fn := some fn_Vmadc }] },
  { name := "vmadc_vi", phases := [{ srcs := [.one .Vs2, .one .Simm5, .one .Vmask, .one .Vm], dsts := [.one .Vd], fn := some fn_Vmadc }] },
  { name := "vsbc_vv", phases := [{ srcs := [.one .Vs2, .one .Vs1, .one .Vmask], dsts := [.one .Vd], fn := some fn_Vsbc }] },
  { name := "vsbc_vx", phases := [{ srcs := [.one .Vs2, .one .Rs1, .one .Vmask], dsts := [.one .Vd], fn := some fn_Vsbc }] },
  { name := "vmsbc_vv", phases := [{ srcs := [.one .Vs2, .one .Vs1, .one .Vmask, .one .Vm], dsts := [.one .Vd], fn := some fn_Vmsbc }] },
  { name := "vmsbc_vx", phases := [{ srcs := [.one .Vs2, .one .Rs1, .one .Vmask, .one .Vm], dsts := [.one .Vd], fn := some fn_Vmsbc }] },
  { name := "vmerge_vv", phases := [{ srcs := [.one .Vs2, .one .Vs1, .one .Vmask], dsts := [.one .Vd], fn := some fn_Vmerge }] },
  { name := "vmerge_vx", phases := [{ srcs := [.one .Vs2, .one .Rs1, .one .Vmask], dsts := [.one .Vd], fn := some fn_Vmerge }] },
  { name := "vmerge_vi", phases := [{ srcs := [.one .Vs2, .one .Simm5, .one .Vmask], dsts := [.one .Vd], fn := some fn_Vmerge }] },
  { name := "vmv_vv", phases := [{ srcs := [.one .Vs2, .one .Vs1, .one .VmaskTrue], dsts := [.one .Vd], fn := some fn_Vmerge }] },
  { name := "vmv_vx", phases := [{ srcs := [.one .Vs2, .one .Rs1, .one .VmaskTrue], dsts := [.one .Vd], fn := some fn_Vmerge }] },
  { name := "vmv_vi", phases := [{ srcs := [.one .Vs2, .one .Simm5, .one .VmaskTrue], dsts := [.one .Vd], fn := some fn_Vmerge }] },
  { name := "vmseq_vv", phases := [{ srcs := [.one .Vs2, .one .Vs1, .one .Vmask], dsts := [.one .Vd], fn := some fn_Vmseq }] },
  { name := "vmseq_vx", phases := [{ srcs := [.one .Vs2, .one .Rs1, .one .Vmask], dsts := [.one .Vd], fn := some fn_Vmseq }] },
  { name := "vmseq_vi", phases := [{ srcs := [.one .Vs2, .one .Simm5, .one .Vmask], dsts := [.one .Vd], fn := some fn_Vmseq }] },
  { name := "vmsne_vv", phases := [{ srcs := [.one .Vs2, .one .Vs1, .one .Vmask], dsts := [.one .Vd], fn := some fn_Vmsne }] },
  { name := "vmsne_vx", phases := [{ srcs := [.one .Vs2, .one .Rs1, .one .Vmask], dsts := [.one .Vd], fn := some fn_Vmsne }] },
  { name := "vmsne_vi", phases := [{ srcs := [.one .Vs2, .one .Simm5, .one .Vmask], dsts := [.one .Vd], fn := some fn_Vmsne }] },
  { name := "vmsltu_vv", phases := [{ srcs := [.one .Vs2, .one .Vs1, .one .Vmask], dsts := [.one .Vd], fn := some fn_Vmsltu }] },
  { name := "vmsltu_vx", phases := [{ srcs := [.one .Vs2, .one .Rs1, .one .Vmask], dsts := [.one .Vd], fn := some fn_Vmsltu }] },
  { name := "vmslt_vv", phases := [{ srcs := [.one .Vs2, .one .Vs1, .one .Vmask], dsts := [.one .Vd], fn := some fn_Vmslt }] },
  { name := "vmslt_vx", phases := [{ srcs := [.one .Vs2, .one .Rs1, .one .Vmask], dsts := [.one .Vd], fn := some fn_Vmslt }] },
  { name := "vmsleu_vv", phases := [{ srcs := [.one .Vs2, .one .Vs1, .one .Vmask], dsts := [.one .Vd], fn := some fn_Vmsleu }] },
  { name := "vmsleu_vx", phases := [{ srcs := [.one .Vs2, .one .Rs1, .one .Vmask], dsts := [.one .Vd], fn := some fn_Vmsleu }] },
  { name := "vmsleu_vi", phases := [{ srcs := [.one .Vs2, .one .Simm5, .one .Vmask], dsts := [.one .Vd], fn := some fn_Vmsleu }] },
  { name := "vmsle_vv", phases := [{ srcs := [.one .Vs2, .one .Vs1, .one .Vmask], dsts := [.one .Vd], fn := some fn_Vmsle }] },
  { name := "vmsle_vx", phases := [{ srcs := [.one .Vs2, .one .Rs1, .one .Vmask], dsts := [.one .Vd], fn := some fn_Vmsle }] },
  { name := "vmsle_vi", phases := [{ srcs := [.one .Vs2, .one .Simm5, .one .Vmask], dsts := [.one .Vd], fn := some fn_Vmsle }] },
  { name := "vmsgtu_vx", phases := [{ srcs := [.one .Vs2, .one .Rs1, .one .Vmask], dsts := [.one .Vd], fn := some fn_Vmsgtu }] },
  { name := "vmsgtu_vi", phases := [{ srcs := [.one .Vs2, .one .Simm5, .one .Vmask], dsts := [.one .Vd], fn := some fn_Vmsgtu }] },
  { name := "vmsgt_vx", phases := [{ srcs := [.one .Vs2, .one .Rs1, .one .Vmask], dsts := [.one .Vd], fn := some fn_Vmsgt }] },
  { name := "vmsgt_vi", phases := [{ srcs := [.one .Vs2, .one .Simm5, .one .Vmask], dsts := [.one .Vd], fn := some fn_Vmsgt }] },
  { name := "vsaddu_vv", phases := [{ srcs := [.one .Vs2, .one .Vs1, .one .Vmask], dsts := [.one .Vd], fn := some fn_Vsaddu }] },
  { name := "vsaddu_vx", phases := [{ srcs := [.one .Vs2, .one .Rs1, .one .Vmask], dsts := [.one .Vd], fn := some fn_Vsaddu }] },
  { name := "vsaddu_vi", phases := [{ srcs := [.one .Vs2, .one .Simm5, .one .Vmask], dsts := [.one .Vd], fn := some fn_Vsaddu }] },
  { name := "vsadd_vv", phases := [{ srcs := [.one .Vs2, .one .Vs1, .one .Vmask], dsts := [.one .Vd], fn := some fn_Vsadd }] },
  { name := "vsadd_vx", phases := [{ srcs := [.one .Vs2, .one .Rs1, .one .Vmask], dsts := [.one .Vd], fn := some fn_Vsadd }] },
  { name := "vsadd_vi", phases := [{ srcs := [.one .Vs2, .one .Simm5, .one .Vmask], dsts := [.one .Vd], fn := some fn_Vsadd }] },
  { name := "vssubu_vv", phases := [{ srcs := [.one .Vs2, .one .Vs1, .one .Vmask], dsts := [.one .Vd], fn := some fn_Vssubu }] },
  { name := "vssubu_vx", phases := [{ srcs := [.one .Vs2, .one .Rs1, .one .Vmask], dsts := [.one .Vd], fn := some fn_Vssubu }] },
  { name := "vssub_vv", phases := [{ srcs := [.one .Vs2, .one .Vs1, .one .Vmask], dsts := [.one .Vd], fn := some fn_Vssub }] },
  { name := "vssub_vx", phases := [{ srcs := [.one .Vs2, .one .Rs1, .one .Vmask], dsts := [.one .Vd], fn := some fn_Vssub }] },
  { name := "vsll_vv", phases := [{ srcs := [.one .Vs2, .one .Vs1, .one .Vmask], dsts := [.one .Vd], fn := some fn_Vsll }] },
  { name := "vsll_vx", phases := [{ srcs := [.one .Vs2, .one .Rs1, .one .Vmask], dsts := [.one .Vd], fn := some fn_Vsll }] },
  { name := "vsll_vi", phases := [{ srcs := [.one .Vs2, .one .Simm5, .one .Vmask], dsts := [.one .Vd], fn := some fn_Vsll }] },
  { name := "vsmul_vv", phases := [{ srcs := [.one .Vs2, .one .Vs1, .one .Vmask], dsts := [.one .Vd], fn := some fn_Vsmul }] },
  { name := "vsmul_vx", phases := [{ srcs := [.one .Vs2, .one .Rs1, .one .Vmask], dsts := [.one .Vd], fn := some fn_Vsmul }] },
  { name := "vmv1r_vi", phases := [{ srcs := [.one .Vs2], dsts := [.one .Vd], fn := some fn_Vmvr, args := [1] }] },
  { name := "vmv2r_vi", phases := [{ srcs := [.one .Vs2], dsts := [.one .Vd], fn := some fn_Vmvr, args := [2] }] },
  { name := "vmv4r_vi", phases := [{ srcs := [.one .Vs2], dsts := [.one .Vd], fn := some fn_Vmvr, args := [4] }] },
  { name := "vmv8r_vi", phases := [{ srcs := [.one .Vs2], dsts := [.one .Vd], fn := some fn_Vmvr, args := [8] }] },
  { name := "vsrl_vv", phases := [{ srcs := [.one .Vs2, .one .Vs1, .one .Vmask], dsts := [.one .Vd], fn := some fn_Vsrl }] },
  { name := "vsrl_vx", phases := [{ srcs := [.one .Vs2, .one .Rs1, .one .Vmask], dsts := [.one .Vd], fn := some fn_Vsrl }] },
  { name := "vsrl_vi", phases := [{ srcs := [.one .Vs2, .one .Simm5, .one .Vmask], dsts := [.one .Vd], fn := some fn_Vsrl }] },
  { name := "vsra_vv", phases := [{ srcs := [.one .Vs2, .one .Vs1, .one .Vmask], dsts := [.one .Vd], fn := some fn_Vsra }] },
  { name := "vsra_vx", phases := [{ srcs := [.one .Vs2, .one .Rs1, .one .Vmask], dsts := [.one .Vd], fn := some fn_Vsra }] },
  { name := "vsra_vi", phases := [{ srcs := [.one .Vs2, .one .Simm5, .one .Vmask], dsts := [.one .Vd], fn := some fn_Vsra }] },
  { name := "vssrl_vv", phases := [{ srcs := [.one .Vs2, .one .Vs1, .one .Vmask], dsts := [.one .Vd], fn := some fn_Vssrl }] },
  { name := "vssrl_vx", phases := [{ srcs := [.one .Vs2, .one .Rs1, .one .Vmask], dsts := [.one .Vd], fn := some fn_Vssrl }] },
  { name := "vssrl_vi", phases := [{ srcs := [.one .Vs2, .one .Uimm5, .one .Vmask], dsts := [.one .Vd], fn := some fn_Vssrl }] },
  { name := "vssra_vv", phases := [{ srcs := [.one .Vs2, .one .Vs1, .one .Vmask], dsts := [.one .Vd], fn := some fn_Vssra }] },
  { name := "vssra_vx", phases := [{ srcs := [.one .Vs2, .one .Rs1, .one .Vmask], dsts := [.one .Vd], fn := some fn_Vssra }] },
  { name := "vssra_vi", phases := [{ srcs := [.one .Vs2, .one .Uimm5, .one .Vmask], dsts := [.one .Vd], fn := some fn_Vssra }] },
  { name := "vnsrl_vv", phases := [{ srcs := [.one .Vs2, .one .Vs1, .one .Vmask], dsts := [.one .Vd], fn := some fn_Vnsrl }] },
  { name := "vnsrl_vx", phases := [{ srcs := [.one .Vs2, .one .Rs1, .one .Vmask], dsts := [.one .Vd], fn := some fn_Vnsrl }] },
  { name := "vnsrl_vi", phases := [{ srcs := [.one .Vs2, .one .Uimm5, .one .Vmask], dsts := [.one .Vd], fn := some fn_Vnsrl }] },
  { name := "vnsra_vv", phases := [{ srcs := [.one .Vs2, .one .Vs1, .one .Vmask], dsts := [.one .Vd], fn := some fn_Vnsra }] },
  { name := "vnsra_vx", phases := [{ srcs := [.one .Vs2, .one .Rs1, .one .Vmask], dsts := [.one .Vd], fn := some fn_Vnsra }] },
  { name := "vnsra_vi", phases := [{ srcs := [.one .Vs2, .one .Uimm5, .one .Vmask], dsts := [.one .Vd], fn := some fn_Vnsra }] },
  { name := "vnclipu_vv", phases := [{ srcs := [.one .Vs2, .one .Vs1, .one .Vmask], dsts := [.one .Vd], fn := some fn_Vnclipu }] },
  { name := "vnclipu_vx", phases := [{ srcs := [.one .Vs2, .one .Rs1, .one .Vmask], dsts := [.one .Vd], fn := some fn_Vnclipu }] },
  { name := "vnclipu_vi", phases := [{ srcs := [.one .Vs2, .one .Uimm5, .one .Vmask], dsts := [.one .Vd], fn := some fn_Vnclipu }] },
  { name := "vnclip_vv", phases := [{ srcs := [.one .Vs2, .one .Vs1, .one .Vmask], dsts := [.one .Vd], fn := some fn_Vnclip }] },
  { name := "vnclip_vx", phases := [{ srcs := [.one .Vs2, .one .Rs1, .one .Vmask], dsts := [.one .Vd], fn := some fn_Vnclip }] },
  { name := "vnclip_vi", phases := [{ srcs := [.one .Vs2, .one .Uimm5, .one .Vmask], dsts := [.one .Vd], fn := some fn_Vnclip }] },
  { name := "vwredsumu_vv", phases := [{ srcs := [.one .Vs2, .one .Vs1, .one .Vmask], dsts := [.one .Vd], fn := some fn_Vwredsumu }] },
  { name := "vwredsum_vv", phases := [{ srcs := [.one .Vs2, .one .Vs1, .one .Vmask], dsts := [.one .Vd], fn := some fn_Vwredsum }] },
  { name := "vredsum_vv", phases := [{ srcs := [.one .Vs2, .one .Vs1, .one .Vmask], dsts := [.one .Vd], fn := some fn_Vredsum }] },
  { name := "vredand_vv", phases := [{ srcs := [.one .Vs2, .one .Vs1, .one .Vmask], dsts := [.one .Vd], fn := some fn_Vredand }] },
  { name := "vredor_vv", phases := [{ srcs := [.one .Vs2, .one .Vs1, .one .Vmask], dsts := [.one .Vd], fn := some fn_Vredor }] },
  { name := "vredxor_vv", phases := [{ srcs := [.one .Vs2, .one .Vs1, .one .Vmask], dsts := [.one .Vd], fn := some fn_Vredxor }] },
  { name := "vredminu_vv", phases := [{ srcs := [.one .Vs2, .one .Vs1, .one .Vmask], dsts := [.one .Vd], fn := some fn_Vredminu }] },
  { name := "vredmin_vv", phases := [{ srcs := [.one .Vs2, .one .Vs1, .one .Vmask], dsts := [.one .Vd], fn := some fn_Vredmin }] },
  { name := "vredmaxu_vv", phases := [{ srcs := [.one .Vs2, .one .Vs1, .one .Vmask], dsts := [.one .Vd], fn := some fn_Vredmaxu }] },
  { name := "vredmax_vv", phases := [{ srcs := [.one .Vs2, .one .Vs1, .one .Vmask], dsts := [.one .Vd], fn := some fn_Vredmax }] },
  { name := "vaaddu_vv", phases := [{ srcs := [.one .Vs2, .one .Vs1, .one .Vmask], dsts := [.one .Vd], fn := some fn_Vaaddu }] },
  { name := "vaaddu_vx", phases := [{ srcs := [.one .Vs2, .one .Rs1, .one .Vmask], dsts := [.one .Vd], fn := some fn_Vaaddu }] },
  { name := "vaadd_vv", phases := [{ srcs := [.one .Vs2, .one .Vs1, .one .Vmask], dsts := [.one .Vd], fn := some fn_Vaadd }] },
  { name := "vaadd_vx", phases := [{ srcs := [.one .Vs2, .one .Rs1, .one .Vmask], dsts := [.one .Vd], fn := some fn_Vaadd }] },
  { name := "vasubu_vv", phases := [{ srcs := [.one .Vs2, .one .Vs1, .one .Vmask], dsts := [.one .Vd], fn := some fn_Vasubu }] },
  { name := "vasubu_vx", phases := [{ srcs := [.one .Vs2, .one .Rs1, .one .Vmask], dsts := [.one .Vd], fn := some fn_Vasubu }] },
  { name := "vasub_vv", phases := [{ srcs := [.one .Vs2, .one .Vs1, .one .Vmask], dsts := [.one .Vd], fn := some fn_Vasub }] },
  { name := "vasub_vx", phases := [{ srcs := [.one .Vs2, .one .Rs1, .one .Vmask], dsts := [.one .Vd], fn := some fn_Vasub }] },
  { name := "vslide1up_vx", phases := [{ srcs := [.one .Vs2, .one .Rs1, .one .Vmask], dsts := [.one .Vd], fn := some fn_Vslide1up }] },
  { name := "vslide1down_vx", phases := [{ srcs := [.one .Vs2, .one .Rs1, .one .Vmask], dsts := [.one .Vd], fn := some fn_Vslide1down }] },
  { name := "vcompress_vv", phases := [{ srcs := [.one .Vs2, .one .Vs1], dsts := [.one .Vd], fn := some fn_Vcompress }] },
  { name := "vmandnot_vv", phases := [{ srcs := [.one .Vs2, .one .Vs1], dsts := [.one .Vd], fn := some fn_Vmandnot }] },
  { name := "vmand_vv", phases := [{ srcs := [.one .Vs2, .one .Vs1], dsts := [.one .Vd], fn := some fn_Vmand }] },
  { name := "vmor_vv", phases := [{ srcs := [.one .Vs2, .one .Vs1], dsts := [.one .Vd], fn := some fn_Vmor }] },
  { name := "vmxor_vv", phases := [{ srcs := [.one .Vs2, .one .Vs1], dsts := [.one .Vd], fn := some fn_Vmxor }] },
  { name := "vmornot_vv", phases := [{ srcs := [.one .Vs2, .one .Vs1], dsts := [.one .Vd], fn := some fn_Vmornot }] },
  { name := "vmnand_vv", phases := [{ srcs := [.one .Vs2, .one .Vs1], dsts := [.one .Vd], fn := some fn_Vmnand }] },
  { name := "vmnor_vv", phases := [{ srcs := [.one .Vs2, .one .Vs1], dsts := [.one .Vd], fn := some fn_Vmnor }] },
  { name := "vmxnor_vv", phases := [{ srcs := [.one .Vs2, .one .Vs1], dsts := [.one .Vd], fn := some fn_Vmxnor }] },
  { name := "vdivu_vv", phases := [{ srcs := [.one .Vs2, .one .Vs1, .one .Vmask], dsts := [.one .Vd], fn := some fn_Vdivu }] },
  { name := "vdivu_vx", phases := [{ srcs := [.one .Vs2, .one .Rs1, .one .Vmask], dsts := [.one .Vd], fn := some fn_Vdivu }] },
  { name := "vdiv_vv", phases := [{ srcs := [.one .Vs2, .one .Vs1, .one .Vmask], dsts := [.one .Vd], fn := some fn_Vdiv }] },
  { name := "vdiv_vx", phases := [{ srcs := [.one .Vs2, .one .Rs1, .one .Vmask], dsts := [.one .Vd], fn := some fn_Vdiv }] },
  { name := "vremu_vv", phases := [{ srcs := [.one .Vs2, .one .Vs1, .one .Vmask], dsts := [.one .Vd], fn := some fn_Vremu }] },
  { name := "vremu_vx", phases := [{ srcs := [.one .Vs2, .one .Rs1, .one .Vmask], dsts := [.one .Vd], fn := some fn_Vremu }] },
  { name := "vrem_vv", phases := [{ srcs := [.one .Vs2, .one .Vs1, .one .Vmask], dsts := [.one .Vd], fn := some fn_Vrem }] },
  { name := "vrem_vx", phases := [{ srcs := [.one .Vs2, .one .Rs1, .one .Vmask], dsts := [.one .Vd], fn := some fn_Vrem }] },
  { name := "vmulhu_vv", phases := [{ srcs := [.one .Vs2, .one .Vs1, .one .Vmask], dsts := [.one .Vd], fn := some fn_Vmulhu }] },
  { name := "vmulhu_vx", phases := [{ srcs := [.one .Vs2, .one .Rs1, .one .Vmask], dsts := [.one .Vd], fn := some fn_Vmulhu }] },
  { name := "vmul_vv", phases := [{ srcs := [.one .Vs2, .one .Vs1, .one .Vmask], dsts := [.one .Vd], fn := some fn_Vmul }] },
  { name := "vmul_vx", phases := [{ srcs := [.one .Vs2, .one .Rs1, .one .Vmask], dsts := [.one .Vd], fn := some fn_Vmul }] },
  { name := "vmulhsu_vv", phases := [{ srcs := [.one .Vs2, .one .Vs1, .one .Vmask], dsts := [.one .Vd], fn := some fn_Vmulhsu }] },
  { name := "vmulhsu_vx", phases := [{ srcs := [.one .Vs2, .one .Rs1, .one .Vmask], dsts := [.one .Vd], fn := some fn_Vmulhsu }] },
  { name := "vmulh_vv", phases := [{ srcs := [.one .Vs2, .one .Vs1, .one .Vmask], dsts := [.one .Vd], fn := some fn_Vmulh }] },
  { name := "vmulh_vx", phases := [{ srcs := [.one .Vs2, .one .Rs1, .one .Vmask], dsts := [.one .Vd], fn := some fn_Vmulh }] },
  { name := "vmadd_vv", phases := [{ srcs := [.one .Vs2, .one .Vs1, .one .Vd, .one .Vmask], dsts := [.one .Vd], fn := some fn_Vmadd }] },
  { name := "vmadd_vx", phases := [{ srcs := [.one .Vs2, .one .Rs1, .one .Vd, .one .Vmask], dsts := [.one .Vd], fn := some fn_Vmadd }] },
  { name := "vnmsub_vv", phases := [{ srcs := [.one .Vs2, .one .Vs1, .one .Vd, .one .Vmask], dsts := [.one .Vd], fn := some fn_Vnmsub }] },
  { name := "vnmsub_vx", phases := [{ srcs := [.one .Vs2, .one .Rs1, .one .Vd, .one .Vmask], dsts := [.one .Vd], fn := some fn_Vnmsub }] },
  { name := "vmacc_vv", phases := [{ srcs := [.one .Vs2, .one .Vs1, .one .Vd, .one .Vmask], dsts := [.one .Vd], fn := some fn_Vmacc }] },
  { name := "vmacc_vx", phases := [{ srcs := [.one .Vs2, .one .Rs1, .one .Vd, .one .Vmask], dsts := [.one .Vd], fn := some fn_Vmacc }] },
  { name := "vnmsac_vv", phases := [{ srcs := [.one .Vs2, .one .Vs1, .one .Vd, .one .Vmask], dsts := [.one .Vd], fn := some fn_Vnmsac }] },
  { name := "vnmsac_vx", phases := [{ srcs := [.one .Vs2, .one .Rs1, .one .Vd, .one .Vmask], dsts := [.one .Vd], fn := some fn_Vnmsac }] },
  { name := "vwaddu_vv", phases := [{ srcs := [.one .Vs2, .one .Vs1, .one .Vmask], dsts := [.one .Vd], fn := some fn_Vwaddu }] },
  { name := "vwaddu_vx", phases := [{ srcs := [.one .Vs2, .one .Rs1, .one .Vmask], dsts := [.one .Vd], fn := some fn_Vwaddu }] },
  { name := "vwadd_vv", phases := [{ srcs := [.one .Vs2, .one .Vs1, .one .Vmask], dsts := [.one .Vd], fn := some fn_Vwadd }] },
  { name := "vwadd_vx", phases := [{ srcs := [.one .Vs2, .one .Rs1, .one .Vmask], dsts := [.one .Vd], fn := some fn_Vwadd }] },
  { name := "vwsubu_vv", phases := [{ srcs := [.one .Vs2, .one .Vs1, .one .Vmask], dsts := [.one .Vd], fn := some fn_Vwsubu }] },
  { name := "vwsubu_vx", phases := [{ srcs := [.one .Vs2, .one .Rs1, .one .Vmask], dsts := [.one .Vd], fn := some fn_Vwsubu }] },
  { name := "vwsub_vv", phases := [{ srcs := [.one .Vs2, .one .Vs1, .one .Vmask], dsts := [.one .Vd], fn := some fn_Vwsub }] },
  { name := "vwsub_vx", phases := [{ srcs := [.one .Vs2, .one .Rs1, .one .Vmask], dsts := [.one .Vd], fn := some fn_Vwsub }] },
  { name := "vwaddu_w_vv", phases := [{ srcs := [.one .Vs2, .one .Vs1, .one .Vmask], dsts := [.one .Vd], fn := some fn_Vwadduw }] },
  { name := "vwaddu_w_vx", phases := [{ srcs := [.one .Vs2, .one .Rs1, .one .Vmask], dsts := [.one .Vd], fn := some fn_Vwadduw }] },
  { name := "vwadd_w_vv", phases := [{ srcs := [.one .Vs2, .one .Vs1, .one .Vmask], dsts := [.one .Vd], fn := some fn_Vwaddw }] },
  { name := "vwadd_w_vx", phases := [{ srcs := [.one .Vs2, .one .Rs1, .one .Vmask], dsts := [.one .Vd], fn := some fn_Vwaddw }] },
  { name := "vwsubu_w_vv", phases := [{ srcs := [.one .Vs2, .one .Vs1, .one .Vmask], dsts := [.one .Vd], fn := some fn_Vwsubuw }] },
  { name := "vwsubu_w_vx", phases := [{ srcs := [.one .Vs2, .one .Rs1, .one .Vmask], dsts := [.one .Vd], fn := some fn_Vwsubuw }] },
  { name := "vwsub_w_vv", phases := [{ srcs := [.one .Vs2, .one .Vs1, .one .Vmask], dsts := [.one .Vd], fn := some fn_Vwsubw }] },
  { name := "vwsub_w_vx", phases := [{ srcs := [.one .Vs2, .one .Rs1, .one .Vmask], dsts := [.one .Vd], fn := some fn_Vwsubw }] },
  { name := "vwmulu_vv", phases := [{ srcs := [.one .Vs2, .one .Vs1, .one .Vmask], dsts := [.one .Vd], fn := some fn_Vwmulu }] },
  { name := "vwmulu_vx", phases := [{ srcs := [.one .Vs2, .one .Rs1, .one .Vmask], dsts := [.one .Vd], fn := some fn_Vwmulu }] },
  { name := "vwmulsu_vv", phases := [{ srcs := [.one .Vs2, .one .Vs1, .one .Vmask], dsts := [.one .Vd], fn := some fn_Vwmulsu }] },
  { name := "vwmulsu_vx", phases := [{ srcs := [.one .Vs2, .one .Rs1, .one .Vmask], dsts := [.one .Vd], fn := some fn_Vwmulsu }] },
  { name := "vwmul_vv", phases := [{ srcs := [.one .Vs2, .one .Vs1, .one .Vmask], dsts := [.one .Vd], fn := some fn_Vwmul }] },
  { name := "vwmul_vx", phases := [{ srcs := [.one .Vs2, .one .Rs1, .one .Vmask], dsts := [.one .Vd], fn := some fn_Vwmul }] },
  { name := "vwmaccu_vv", phases := [{ srcs := [.one .Vs2, .one .Vs1, .one .Vd, .one .Vmask], dsts := [.one .Vd], fn := some fn_Vwmaccu }] },
  { name := "vwmaccu_vx", phases := [{ srcs := [.one .Vs2, .one .Rs1, .one .Vd, .one .Vmask], dsts := [.one .Vd], fn := some fn_Vwmaccu }] },
  { name := "vwmacc_vv", phases := [{ srcs := [.one .Vs2, .one .Vs1, .one .Vd, .one .Vmask], dsts := [.one .Vd], fn := some fn_Vwmacc }] },
  { name := "vwmacc_vx", phases := [{ srcs := [.one .Vs2, .one .Rs1, .one .Vd, .one .Vmask], dsts := [.one .Vd], fn := some fn_Vwmacc }] },
  { name := "vwmaccus_vv", phases := [{ srcs := [.one .Vs2, .one .Vs1, .one .Vd, .one .Vmask], dsts := [.one .Vd], fn := some fn_Vwmaccus }] },
  { name := "vwmaccus_vx", phases := [{ srcs := [.one .Vs2, .one .Rs1, .one .Vd, .one .Vmask], dsts := [.one .Vd], fn := some fn_Vwmaccus }] },
  { name := "vwmaccsu_vv", phases := [{ srcs := [.one .Vs2, .one .Vs1, .one .Vd, .one .Vmask], dsts := [.one .Vd], fn := some fn_Vwmaccsu }] },
  { name := "vwmaccsu_vx", phases := [{ srcs := [.one .Vs2, .one .Rs1, .one .Vd, .one .Vmask], dsts := [.one .Vd], fn := some fn_Vwmaccsu }] },
  { name := "vfadd_vv", phases := [{ srcs := [.one .Vs2, .one .Vs1, .one .Vmask], dsts := [.one .Vd], fn := some fn_Vfadd }] },
  { name := "vfadd_vf", phases := [{ srcs := [.one .Vs2, .one .Fs1, .one .Vmask], dsts := [.one .Vd], fn := some fn_Vfadd }] },
  { name := "vfredusum_vv", phases := [{ srcs := [.one .Vs2, .one .Vs1, .one .Vmask], dsts := [.one .Vd], fn := some fn_Vfredosum }] },
  { name := "vfsub_vv", phases := [{ srcs := [.one .Vs2, .one .Vs1, .one .Vmask], dsts := [.one .Vd], fn := some fn_Vfsub }] },
  { name := "vfsub_vf", phases := [{ srcs := [.one .Vs2, .one .Fs1, .one .Vmask], dsts := [.one .Vd], fn := some fn_Vfsub }] },
  { name := "vfredosum_vv", phases := [{ srcs := [.one .Vs2, .one .Vs1, .one .Vmask], dsts := [.one .Vd], fn := some fn_Vfredosum }] },
  { name := "vfmin_vv", phases := [{ srcs := [.one .Vs2, .one .Vs1, .one .Vmask], dsts := [.one .Vd, .one .Fflags], fn := some fn_Vfmin }] },
  { name := "vfmin_vf", phases := [{ srcs := [.one .Vs2, .one .Fs1, .one .Vmask], dsts := [.one .Vd, .one .Fflags], fn := some fn_Vfmin }] },
  { name := "vfredmin_vv", phases := [{ srcs := [.one .Vs2, .one .Vs1, .one .Vmask], dsts := [.one .Vd], fn := some fn_Vfredmin }] },
  { name := "vfmax_vv", phases := [{ srcs := [.one .Vs2, .one .Vs1, .one .Vmask], dsts := [.one .Vd, .one .Fflags], fn := some fn_Vfmax }] },
  { name := "vfmax_vf", phases := [{ srcs := [.one .Vs2, .one .Fs1, .one .Vmask], dsts := [.one .Vd, .one .Fflags], fn := some fn_Vfmax }] },
  { name := "vfredmax_vv", phases := [{ srcs := [.one .Vs2, .one .Vs1, .one .Vmask], dsts := [.one .Vd], fn := some fn_Vfredmax }] },
  { name := "vfsgnj_vv", phases := [{ srcs := [.one .Vs2, .one .Vs1, .one .Vmask], dsts := [.one .Vd], fn := some fn_Vfsgnj }] },
  { name := "vfsgnj_vf", phases := [{ srcs := [.one .Vs2, .one .Fs1, .one .Vmask], dsts := [.one .Vd], fn := some fn_Vfsgnj }] },
  { name := "vfsgnjn_vv", phases := [{ srcs := [.one .Vs2, .one .Vs1, .one .Vmask], dsts := [.one .Vd], fn := some fn_Vfsgnjn }] },
  { name := "vfsgnjn_vf", phases := [{ srcs := [.one .Vs2, .one .Fs1, .one .Vmask], dsts := [.one .Vd], fn := some fn_Vfsgnjn }] },
  { name := "vfsgnjx_vv", phases := [{ srcs := [.one .Vs2, .one .Vs1, .one .Vmask], dsts := [.one .Vd], fn := some fn_Vfsgnjx }] },
  { name := "vfsgnjx_vf", phases := [{ srcs := [.one .Vs2, .one .Fs1, .one .Vmask], dsts := [.one .Vd], fn := some fn_Vfsgnjx }] },
  { name := "vfslide1up_vf", phases := [{ srcs := [.one .Vs2, .one .Fs1, .one .Vmask], dsts := [.one .Vd], fn := some fn_Vfslide1up }] },
  { name := "vfslide1down_vf", phases := [{ srcs := [.one .Vs2, .one .Fs1, .one .Vmask], dsts := [.one .Vd], fn := some fn_Vfslide1down }] },
  { name := "vfmv_vf", phases := [{ srcs := [.one .Fs1, .one .Vmask], dsts := [.one .Vd], fn := some fn_Vfmvvf }] },
  { name := "vfmerge_vf", phases := [{ srcs := [.one .Vs2, .one .Vs1, .one .Vmask], dsts := [.one .Vd], fn := some fn_Vfmerge }] },
  { name := "vmfeq_vv", phases := [{ srcs := [.one .Vs2, .one .Vs1, .one .Vmask], dsts := [.one .Vd], fn := some fn_Vmfeq }] },
  { name := "vmfeq_vf", phases := [{ srcs := [.one .Vs2, .one .Fs1, .one .Vmask], dsts := [.one .Vd], fn := some fn_Vmfeq }] },
  { name := "vmfle_vv", phases := [{ srcs := [.one .Vs2, .one .Vs1, .one .Vmask], dsts := [.one .Vd], fn := some fn_Vmfle }] },
  { name := "vmfle_vf", phases := [{ srcs := [.one .Vs2, .one .Fs1, .one .Vmask], dsts := [.one .Vd], fn := some fn_Vmfle }] },
  { name := "vmflt_vv", phases := [{ srcs := [.one .Vs2, .one .Vs1, .one .Vmask], dsts := [.one .Vd], fn := some fn_Vmflt }] },
  { name := "vmflt_vf", phases := [{ srcs := [.one .Vs2, .one .Fs1, .one .Vmask], dsts := [.one .Vd], fn := some fn_Vmflt }] },
  { name := "vmfne_vv", phases := [{ srcs := [.one .Vs2, .one .Vs1, .one .Vmask], dsts := [.one .Vd], fn := some fn_Vmfne }] },
  { name := "vmfne_vf", phases := [{ srcs := [.one .Vs2, .one .Fs1, .one .Vmask], dsts := [.one .Vd], fn := some fn_Vmfne }] },
  { name := "vmfgt_vf", phases := [{ srcs := [.one .Vs2, .one .Fs1, .one .Vmask], dsts := [.one .Vd], fn := some fn_Vmfgt }] },
  { name := "vmfge_vf", phases := [{ srcs := [.one .Vs2, .one .Fs1, .one .Vmask], dsts := [.one .Vd], fn := some fn_Vmfge }] },
  { name := "vfdiv_vv", phases := [{ srcs := [.one .Vs2, .one .Vs1, .one .Vmask], dsts := [.one .Vd], fn := some fn_Vfdiv }] },
  { name := "vfdiv_vf", phases := [{ srcs := [.one .Vs2, .one .Fs1, .one .Vmask], dsts := [.one .Vd], fn := some fn_Vfdiv }] },
  { name := "vfrdiv_vf", phases := [{ srcs := [.one .Vs2, .one .Fs1, .one .Vmask], dsts := [.one .Vd], fn := some fn_Vfrdiv }] },
  { name := "vfmul_vv", phases := [{ srcs := [.one .Vs2, .one .Vs1, .one .Vmask], dsts := [.one .Vd], fn := some fn_Vfmul }] },
  { name := "vfmul_vf", phases := [{ srcs := [.one .Vs2, .one .Fs1, .one .Vmask], dsts := [.one .Vd], fn := some fn_Vfmul }] },
  { name := "vfrsub_vf", phases := [{ srcs := [.one .Vs2, .one .Fs1, .one .Vmask], dsts := [.one .Vd], fn := some fn_Vfrsub }] },
  { name := "vfmadd_vv", phases := [{ srcs := [.one .Vs2, .one .Vs1, .one .Vd, .one .Vmask], dsts := [.one .Vd], fn := some fn_Vfmadd }] },
  { name := "vfmadd_vf", phases := [{ srcs := [.one .Vs2, .one .Fs1, .one .Vd, .one .Vmask], dsts := [.one .Vd], fn := some fn_Vfmadd }] },
  { name := "vfnmadd_vv", phases := [{ srcs := [.one .Vs2, .one .Vs1, .one .Vd, .one .Vmask], dsts := [.one .Vd], fn := some fn_Vfnmadd }] },
  { name := "vfnmadd_vf", phases := [{ srcs := [.one .Vs2, .one .Fs1, .one .Vd, .one .Vmask], dsts := [.one .Vd], fn := some fn_Vfnmadd }] },
  { name := "vfmsub_vv", phases := [{ srcs := [.one .Vs2, .one .Vs1, .one .Vd, .one .Vmask], dsts := [.one .Vd], fn := some fn_Vfmsub }] },
  { name := "vfmsub_vf", phases := [{ srcs := [.one .Vs2, .one .Fs1, .one .Vd, .one .Vmask], dsts := [.one .Vd], fn := some fn_Vfmsub }] },
  { name := "vfnmsub_vv", phases := [{ srcs := [.one .Vs2, .one .Vs1, .one .Vd, .one .Vmask], dsts := [.one .Vd], fn := some fn_Vfnmsub }] },
  { name := "vfnmsub_vf", phases := [{ srcs := [.one .Vs2, .one .Fs1, .one .Vd, .one .Vmask], dsts := [.one .Vd], fn := some fn_Vfnmsub }] },
  { name := "vfmacc_vv", phases := [{ srcs := [.one .Vs2, .one .Vs1, .one .Vd, .one .Vmask], dsts := [.one .Vd], fn := some fn_Vfmacc }] },
  { name := "vfmacc_vf", phases := [{ srcs := [.one .Vs2, .one .Fs1, .one .Vd, .one .Vmask], dsts := [.one .Vd], fn := some fn_Vfmacc }] },
  { name := "vfnmacc_vv", phases := [{ srcs := [.one .Vs2, .one .Vs1, .one .Vd, .one .Vmask], dsts := [.one .Vd], fn := some fn_Vfnmacc }] },
  { name := "vfnmacc_vf", phases := [{ srcs := [.one .Vs2, .one .Fs1, .one .Vd, .one .Vmask], dsts := [.one .Vd], fn := some fn_Vfnmacc }] },
  { name := "vfmsac_vv", phases := [{ srcs := [.one .Vs2, .one .Vs1, .one .Vd, .one .Vmask], dsts := [.one .Vd], fn := some fn_Vfmsac }] },
  { name := "vfmsac_vf", phases := [{ srcs := [.one .Vs2, .one .Fs1, .one .Vd, .one .Vmask], dsts := [.one .Vd], fn := some fn_Vfmsac }] },
  { name := "vfnmsac_vv", phases := [{ srcs := [.one .Vs2, .one .Vs1, .one .Vd, .one .Vmask], dsts := [.one .Vd], fn := some fn_Vfnmsac }] },
  { name := "vfnmsac_vf", phases := [{ srcs := [.one .Vs2, .one .Fs1, .one .Vd, .one .Vmask], dsts := [.one .Vd], fn := some fn_Vfnmsac }] },
  { name := "vfwadd_vv", phases := [{ srcs := [.one .Vs2, .one .Vs1, .one .Vmask], dsts := [.one .Vd], fn := some fn_Vfwadd }] },
  { name := "vfwadd_vf", phases := [{ srcs := [.one .Vs2, .one .Fs1, .one .Vmask], dsts := [.one .Vd], fn := some fn_Vfwadd }] },
  { name := "vfwredusum_vv", phases := [{ srcs := [.one .Vs2, .one .Vs1, .one .Vmask], dsts := [.one .Vd], fn := some fn_Vfwredosum }] },
  { name := "vfwsub_vv", phases := [{ srcs := [.one .Vs2, .one .Vs1, .one .Vmask], dsts := [.one .Vd], fn := some fn_Vfwsub }] },
  { name := "vfwsub_vf", phases := [{ srcs := [.one .Vs2, .one .Fs1, .one .Vmask], dsts := [.one .Vd], fn := some fn_Vfwsub }] },
  { name := "vfwredosum_vv", phases := [{ srcs := [.one .Vs2, .one .Vs1, .one .Vmask], dsts := [.one .Vd], fn := none }] },
  { name := "vfwadd_w_vv", phases := [{ srcs := [.one .Vs2, .one .Vs1, .one .Vmask], dsts := [.one .Vd], fn := some fn_Vfwadd }] },
  { name := "vfwadd_w_vf", phases := [{ srcs := [.one .Vs2, .one .Fs1, .one .Vmask], dsts := [.one .Vd], fn := some fn_Vfwadd }] },
  { name := "vfwsub_w_vv", phases := [{ srcs := [.one .Vs2, .one .Vs1, .one .Vmask], dsts := [.one .Vd], fn := some fn_Vfwsub }] },
  { name := "vfwsub_w_vf", phases := [{ srcs := [.one .Vs2, .one .Fs1, .one .Vmask], dsts := [.one .Vd], fn := some fn_Vfwsub }] },
  { name := "vfwmul_vv", phases := [{ srcs := [.one .Vs2, .one .Vs1, .one .Vmask], dsts := [.one .Vd], fn := some fn_Vfwmul }] },
  { name := "vfwmul_vf", phases := [{ srcs := [.one .Vs2, .one .Fs1, .one .Vmask], dsts := [.one .Vd], fn := some fn_Vfwmul }] },
  { name := "vfwmacc_vv", phases := [{ srcs := [.one .Vs2, .one .Vs1, .one .Vd, .one .Vmask], dsts := [.one .Vd], fn := some fn_Vfwmacc }] },
  { name := "vfwmacc_vf", phases := [{ srcs := [.one .Vs2, .one .Fs1, .one .Vd, .one .Vmask], dsts := [.one .Vd], fn := some fn_Vfwmacc }] },
  { name := "vfwnmacc_vv", phases := [{ srcs := [.one .Vs2, .one .Vs1, .one .Vd, .one .Vmask], dsts := [.one .Vd], fn := some fn_Vfwnmacc }] },
  { name := "vfwnmacc_vf", phases := [{ srcs := [.one .Vs2, .one .Fs1, .one .Vd, .one .Vmask], dsts := [.one .Vd], fn := some fn_Vfwnmacc }] },
  { name := "vfwmsac_vv", phases := [{ srcs := [.one .Vs2, .one .Vs1, .one .Vd, .one .Vmask], dsts := [.one .Vd], fn := some fn_Vfwmsac }] },
  { name := "vfwmsac_vf", phases := [{ srcs := [.one .Vs2, .one .Fs1, .one .Vd, .one .Vmask], dsts := [.one .Vd], fn := some fn_Vfwmsac }] },
  { name := "vfwnmsac_vv", phases := [{ srcs := [.one .Vs2, .one .Vs1, .one .Vd, .one .Vmask], dsts := [.one .Vd], fn := some fn_Vfwnmsac }] },
  { name := "vfwnmsac_vf", phases := [{ srcs := [.one .Vs2, .one .Fs1, .one .Vd, .one .Vmask], dsts := [.one .Vd], fn := some fn_Vfwnmsac }] },
  { name := "vmv_x_s", phases := [{ srcs := [.one .Vs2], dsts := [.one .Rd], fn := some fn_VmvToScalar }] },
  { name := "vcpop", phases := [{ srcs := [.one .Vs2, .one .Vmask], dsts := [.one .Rd], fn := some fn_Vcpop }] },
  { name := "vfirst", phases := [{ srcs := [.one .Vs2, .one .Vmask], dsts := [.one .Rd], fn := some fn_Vfirst }] },
  { name := "vmv_s_x", phases := [{ srcs := [.one .Rs1], dsts := [.one .Vd], fn := some fn_VmvFromScalar }] },
  { name := "vzext_vf8", phases := [{ srcs := [.one .Vs2, .one .Vmask], dsts := [.one .Vd], fn := some fn_Vzext8 }] },
  { name := "vsext_vf8", phases := [{ srcs := [.one .Vs2, .one .Vmask], dsts := [.one .Vd], fn := some fn_Vsext8 }] },
  { name := "vzext_vf4", phases := [{ srcs := [.one .Vs2, .one .Vmask], dsts := [.one .Vd], fn := some fn_Vzext4 }] },
  { name := "vsext_vf4", phases := [{ srcs := [.one .Vs2, .one .Vmask], dsts := [.one .Vd], fn := some fn_Vsext4 }] },
  { name := "vzext_vf2", phases := [{ srcs := [.one .Vs2, .one .Vmask], dsts := [.one .Vd], fn := some fn_Vzext2 }] },
  { name := "vsext_vf2", phases := [{ srcs := [.one .Vs2, .one .Vmask], dsts := [.one .Vd], fn := some fn_Vsext2 }] },
  { name := "vfmv_f_s", phases := [{ srcs := [.one .Vs2], dsts := [.one .Fd], fn := some fn_Vfmvfs }] },
  { name := "vfmv_s_f", phases := [{ srcs := [.one .Fs1], dsts := [.one .Vd], fn := some fn_Vfmvsf }] },
  { name := "vfcvt_xu_f_v", phases := [{ srcs := [.one .Vs2, .one .Vmask], dsts := [.one .Vd, .one .Fflags], fn := some fn_Vfcvtxufv }] },
  { name := "vfcvt_x_f_v", phases := [{ srcs := [.one .Vs2, .one .Vmask], dsts := [.one .Vd, .one .Fflags], fn := some fn_Vfcvtxfv }] },
  { name := "vfcvt_f_xu_v", phases := [{ srcs := [.one .Vs2, .one .Vmask], dsts := [.one .Vd], fn := some fn_Vfcvtfxuv }] },
  { name := "vfcvt_f_x_v", phases := [{ srcs := [.one .Vs2, .one .Vmask], dsts := [.one .Vd], fn := some fn_Vfcvtfxv }] },
  { name := "vfcvt_rtz_xu_f_v", phases := [{ srcs := [.one .Vs2, .one .Vmask], dsts := [.one .Vd, .one .Fflags], fn := some fn_Vfcvtrtzxufv }] },
  { name := "vfcvt_rtz_x_f_v", phases := [{ srcs := [.one .Vs2, .one .Vmask], dsts := [.one .Vd, .one .Fflags], fn := some fn_Vfcvtrtzxfv }] },
  { name := "vfwcvt_xu_f_v", phases := [{ srcs := [.one .Vs2, .one .Vmask], dsts := [.one .Vd, .one .Fflags], fn := some fn_Vfwcvtxufv }] },
  { name := "vfwcvt_x_f_v", phases := [{ srcs := [.one .Vs2, .one .Vmask], dsts := [.one .Vd, .one .Fflags], fn := some fn_Vfwcvtxfv }] },
  { name := "vfwcvt_f_xu_v", phases := [{ srcs := [.one .Vs2, .one .Vmask], dsts := [.one .Vd], fn := some fn_Vfwcvtfxuv }] },
  { name := "vfwcvt_f_x_v", phases := [{ srcs := [.one .Vs2, .one .Vmask], dsts := [.one .Vd], fn := some fn_Vfwcvtfxv }] },
  { name := "vfwcvt_f_f_v", phases := [{ srcs := [.one .Vs2, .one .Vmask], dsts := [.one .Vd], fn := some fn_Vfwcvtffv }] },
  { name := "vfwcvt_rtz_xu_f_v", phases := [{ srcs := [.one .Vs2, .one .Vmask], dsts := [.one .Vd, .one .Fflags], fn := some fn_Vfwcvtrtzxufv }] },
  { name := "vfwcvt_rtz_x_f_v", phases := [{ srcs := [.one .Vs2, .one .Vmask], dsts := [.one .Vd, .one .Fflags], fn := some fn_Vfwcvtrtzxfv }] },
  { name := "vfncvt_xu_f_w", phases := [{ srcs := [.one .Vs2, .one .Vmask], dsts := [.one .Vd, .one .Fflags], fn := some fn_Vfncvtxufw }] },
  { name := "vfncvt_x_f_w", phases := [{ srcs := [.one .Vs2, .one .Vmask], dsts := [.one .Vd, .one .Fflags], fn := some fn_Vfncvtxfw }] },
  { name := "vfncvt_f_xu_w", phases := [{ srcs := [.one .Vs2, .one .Vmask], dsts := [.one .Vd], fn := some fn_Vfncvtfxuw }] },
  { name := "vfncvt_f_x_w", phases := [{ srcs := [.one .Vs2, .one .Vmask], dsts := [.one .Vd], fn := some fn_Vfncvtfxw }] },
  { name := "vfncvt_f_f_w", phases := [{ srcs := [.one .Vs2, .one .Vmask], dsts := [.one .Vd], fn := some fn_Vfncvtffw }] },
  { name := "vfncvt_rod_f_f_w", phases := [{ srcs := [.one .Vs2, .one .Vmask], dsts := [.one .Vd], fn := some fn_Vfncvtrodffw }] },
  { name := "vfncvt_rtz_xu_f_w", phases := [{ srcs := [.one .Vs2, .one .Vmask], dsts := [.one .Vd, .one .Fflags], fn := some fn_Vfncvtrtzxufw }] },
  { name := "vfncvt_rtz_x_f_w", phases := [{ srcs := [.one .Vs2, .one .Vmask], dsts := [.one .Vd, .one .Fflags], fn := some fn_Vfncvtrtzxfw }] },
  { name := "vfsqrt_v", phases := [{ srcs := [.one .Vs2, .one .Vmask], dsts := [.one .Vd, .one .Fflags], fn := some fn_Vfsqrtv }] },
  { name := "vfrsqrt7_v", phases := [{ srcs := [.one .Vs2, .one .Vmask], dsts := [.one .Vd, .one .Fflags], fn := some fn_Vfrsqrt7v }] },
  { name := "vfrec7_v", phases := [{ srcs := [.one .Vs2, .one .Vmask], dsts := [.one .Vd], fn := some fn_Vfrec7v }] },
  { name := "vfclass_v", phases := [{ srcs := [.one .Vs2, .one .Vmask], dsts := [.one .Vd], fn := some fn_Vfclassv }] },
  { name := "vmsbf", phases := [{ srcs := [.one .Vs2, .one .Vmask], dsts := [.one .Vd], fn := some fn_Vmsbf }] },
  { name := "vmsof", phases := [{ srcs := [.one .Vs2, .one .Vmask], dsts := [.one .Vd], fn := some fn_Vmsof }] },
  { name := "vmsif", phases := [{ srcs := [.one .Vs2, .one .Vmask], dsts := [.one .Vd], fn := some fn_Vmsif }] },
  { name := "viota", phases := [{ srcs := [.one .Vs2, .one .Vmask], dsts := [.one .Vd], fn := some fn_Viota }] },
  { name := "vid", phases := [{ srcs := [.one .Vmask], dsts := [.one .Vd], fn := some fn_Vid }] }]

/-- Slot `riscv32gv` (riscv32v.isa:35). -/
def slot_riscv32gv : List Instr := slot_riscv32g ++ slot_riscv_vector

/-- Slot `riscv32gvzb` (riscv32v.isa:42). -/
def slot_riscv32gvzb : List Instr := slot_riscv32gzb ++ slot_riscv_vector

/-- Slot `riscv64i` (riscv64g.isa:51-282). -/
def slot_riscv64i : List Instr := [
  { name := "addi", phases := [{ srcs := [.one .Rs1, .one .IImm12], dsts := [.one .Rd], fn := some rv64_RiscVIAdd }] },
  { name := "nop", phases := [{ srcs := [], dsts := [], fn := some fn_RiscVINop }] },
  { name := "addiw", phases := [{ srcs := [.one .Rs1, .one .IImm12], dsts := [.one .Rd], fn := some rv64_RiscVIAddw }] },
  { name := "slti", phases := [{ srcs := [.one .Rs1, .one .IImm12], dsts := [.one .Rd], fn := some rv64_RiscVISlt }] },
  { name := "sltiu", phases := [{ srcs := [.one .Rs1, .one .IImm12], dsts := [.one .Rd], fn := some rv64_RiscVISltu }] },
  { name := "andi", phases := [{ srcs := [.one .Rs1, .one .IImm12], dsts := [.one .Rd], fn := some rv64_RiscVIAnd }] },
  { name := "ori", phases := [{ srcs := [.one .Rs1, .one .IImm12], dsts := [.one .Rd], fn := some rv64_RiscVIOr }] },
  { name := "xori", phases := [{ srcs := [.one .Rs1, .one .IImm12], dsts := [.one .Rd], fn := some rv64_RiscVIXor }] },
  { name := "slli", phases := [{ srcs := [.one .Rs1, .one .IUimm6], dsts := [.one .Rd], fn := some rv64_RiscVISll }] },
  { name := "srli", phases := [{ srcs := [.one .Rs1, .one .IUimm6], dsts := [.one .Rd], fn := some rv64_RiscVISrl }] },
  { name := "srai", phases := [{ srcs := [.one .Rs1, .one .IUimm6], dsts := [.one .Rd], fn := some rv64_RiscVISra }] },
  { name := "slliw", phases := [{ srcs := [.one .Rs1, .one .IUimm5], dsts := [.one .Rd], fn := some rv64_RiscVISllw }] },
  { name := "srliw", phases := [{ srcs := [.one .Rs1, .one .IUimm5], dsts := [.one .Rd], fn := some rv64_RiscVISrlw }] },
  { name := "sraiw", phases := [{ srcs := [.one .Rs1, .one .IUimm5], dsts := [.one .Rd], fn := some rv64_RiscVISraw }] },
  { name := "lui", phases := [{ srcs := [.one .UImm20], dsts := [.one .Rd], fn := some rv64_RiscVILui }] },
  { name := "auipc", phases := [{ srcs := [.one .UImm20], dsts := [.one .Rd], fn := some rv64_RiscVIAuipc }] },
  { name := "add", phases := [{ srcs := [.one .Rs1, .one .Rs2], dsts := [.one .Rd], fn := some rv64_RiscVIAdd }] },
  { name := "addw", phases := [{ srcs := [.one .Rs1, .one .Rs2], dsts := [.one .Rd], fn := some rv64_RiscVIAddw }] },
  { name := "slt", phases := [{ srcs := [.one .Rs1, .one .Rs2], dsts := [.one .Rd], fn := some rv64_RiscVISlt }] },
  { name := "sltu", phases := [{ srcs := [.one .Rs1, .one .Rs2], dsts := [.one .Rd], fn := some rv64_RiscVISltu }] },
  { name := "and", phases := [{ srcs := [.one .Rs1, .one .Rs2], dsts := [.one .Rd], fn := some rv64_RiscVIAnd }] },
  { name := "or", phases := [{ srcs := [.one .Rs1, .one .Rs2], dsts := [.one .Rd], fn := some rv64_RiscVIOr }] },
  { name := "xor", phases := [{ srcs := [.one .Rs1, .one .Rs2], dsts := [.one .Rd], fn := some rv64_RiscVIXor }] },
  { name := "sll", phases := [{ srcs := [.one .Rs1, .one .Rs2], dsts := [.one .Rd], fn := some rv64_RiscVISll }] },
  { name := "srl", phases := [{ srcs := [.one .Rs1, .one .Rs2], dsts := [.one .Rd], fn := some rv64_RiscVISrl }] },
  { name := "sub", phases := [{ srcs := [.one .Rs1, .one .Rs2], dsts := [.one .Rd], fn := some rv64_RiscVISub }] },
  { name := "sra", phases := [{ srcs := [.one .Rs1, .one .Rs2], dsts := [.one .Rd], fn := some rv64_RiscVISra }] },
  { name := "sllw", phases := [{ srcs := [.one .Rs1, .one .Rs2], dsts := [.one .Rd], fn := some rv64_RiscVISllw }] },
  { name := "srlw", phases := [{ srcs := [.one .Rs1, .one .Rs2], dsts := [.one .Rd], fn := some rv64_RiscVISrlw }] },
  { name := "subw", phases := [{ srcs := [.one .Rs1, .one .Rs2], dsts := [.one .Rd], fn := some rv64_RiscVISubw }] },
  { name := "sraw", phases := [{ srcs := [.one .Rs1, .one .Rs2], dsts := [.one .Rd], fn := some rv64_RiscVISraw }] },
  { name := "hint", phases := [{ srcs := [], dsts := [], fn := some fn_RiscVINop }] },
  { name := "jal", phases := [{ srcs := [.one .JImm20], dsts := [.one .NextPc, .one .Rd], fn := some rv64_RiscVIJal }] },
  { name := "jalr", phases := [{ srcs := [.one .Rs1, .one .JImm12], dsts := [.one .NextPc, .one .Rd], fn := some rv64_RiscVIJalr }] },
  { name := "j", phases := [{ srcs := [.one .JImm20], dsts := [.one .NextPc, .one .Rd], fn := some rv64_RiscVIJal }] },
  { name := "jr", phases := [{ srcs := [.one .Rs1, .one .JImm12], dsts := [.one .NextPc, .one .Rd], fn := some rv64_RiscVIJalr }] },
  { name := "beq", phases := [{ srcs := [.one .Rs1, .one .Rs2, .one .BImm12], dsts := [.one .NextPc], fn := some rv64_RiscVIBeq }] },
  { name := "bne", phases := [{ srcs := [.one .Rs1, .one .Rs2, .one .BImm12], dsts := [.one .NextPc], fn := some rv64_RiscVIBne }] },
  { name := "blt", phases := [{ srcs := [.one .Rs1, .one .Rs2, .one .BImm12], dsts := [.one .NextPc], fn := some rv64_RiscVIBlt }] },
  { name := "bltu", phases := [{ srcs := [.one .Rs1, .one .Rs2, .one .BImm12], dsts := [.one .NextPc], fn := some rv64_RiscVIBltu }] },
  { name := "bge", phases := [{ srcs := [.one .Rs1, .one .Rs2, .one .BImm12], dsts := [.one .NextPc], fn := some rv64_RiscVIBge }] },
  { name := "bgeu", phases := [{ srcs := [.one .Rs1, .one .Rs2, .one .BImm12], dsts := [.one .NextPc], fn := some rv64_RiscVIBgeu }] },
  { name := "ld", phases := [{ srcs := [.one .Rs1, .one .IImm12], dsts := [], fn := some rv64_RiscVILd }, { srcs := [], dsts := [.one .Rd], fn := some rv64_RiscVILdChild }] },
  { name := "lw", phases := [{ srcs := [.one .Rs1, .one .IImm12], dsts := [], fn := some rv64_RiscVILw }, { srcs := [], dsts := [.one .Rd], fn := some rv64_RiscVILwChild }] },
  { name := "lwu", phases := [{ srcs := [.one .Rs1, .one .IImm12], dsts := [], fn := some rv64_RiscVILw }, { srcs := [], dsts := [.one .Rd], fn := some rv64_RiscVILwuChild }] },
  { name := "lh", phases := [{ srcs := [.one .Rs1, .one .IImm12], dsts := [], fn := some rv64_RiscVILh }, { srcs := [], dsts := [.one .Rd], fn := some rv64_RiscVILhChild }] },
  { name := "lhu", phases := [{ srcs := [.one .Rs1, .one .IImm12], dsts := [], fn := some rv64_RiscVILhu }, { srcs := [], dsts := [.one .Rd], fn := some rv64_RiscVILhuChild }] },
  { name := "lb", phases := [{ srcs := [.one .Rs1, .one .IImm12], dsts := [], fn := some rv64_RiscVILb }, { srcs := [], dsts := [.one .Rd], fn := some rv64_RiscVILbChild }] },
  { name := "lbu", phases := [{ srcs := [.one .Rs1, .one .IImm12], dsts := [], fn := some rv64_RiscVILbu }, { srcs := [], dsts := [.one .Rd], fn := some rv64_RiscVILbuChild }] },
  { name := "sd", phases := [{ srcs := [.one .Rs1, .one .SImm12, .one .Rs2], dsts := [], fn := some rv64_RiscVISd }] },
  { name := "sw", phases := [{ srcs := [.one .Rs1, .one .SImm12, .one .Rs2], dsts := [], fn := some rv64_RiscVISw }] },
  { name := "sh", phases := [{ srcs := [.one .Rs1, .one .SImm12, .one .Rs2], dsts := [], fn := some rv64_RiscVISh }] },
  { name := "sb", phases := [{ srcs := [.one .Rs1, .one .SImm12, .one .Rs2], dsts := [], fn := some rv64_RiscVISb }] },
  { name := "fence", phases := [{ srcs := [.one .Pred, .one .Succ], dsts := [], fn := some fn_RiscVIFence }] },
  { name := "fence_tso", phases := [{ srcs := [], dsts := [], fn := some fn_RiscVIFenceTso }] },
  { name := "ecall", phases := [{ srcs := [], dsts := [], fn := some fn_RiscVIEcall }] },
  { name := "ebreak", phases := [{ srcs := [], dsts := [], fn := some fn_RiscVIEbreak }] },
  { name := "unimp", phases := [{ srcs := [], dsts := [], fn := some fn_RiscVIUnimplemented }] }]

/-- Slot `riscv64c` (riscv64g.isa:1038-1190). -/
def slot_riscv64c : List Instr := [
  { name := "clwsp", phases := [{ srcs := [.one .X2, .one .ICiUimm6x4], dsts := [], fn := some rv64_RiscVILw }, { srcs := [], dsts := [.one .Rd], fn := some rv64_RiscVILwChild }] },
  { name := "cldsp", phases := [{ srcs := [.one .X2, .one .ICiUimm6x8], dsts := [], fn := some rv64_RiscVILd }, { srcs := [], dsts := [.one .Rd], fn := some rv64_RiscVILdChild }] },
  { name := "cfldsp", phases := [{ srcs := [.one .X2, .one .ICiUimm6x8], dsts := [], fn := some rv64_RiscVILd }, { srcs := [], dsts := [.one .Drd], fn := some rv64_RiscVILdChild }] },
  { name := "cswsp", phases := [{ srcs := [.one .X2, .one .ICssUimm6x4, .one .Crs2], dsts := [], fn := some rv64_RiscVISw }] },
  { name := "csdsp", phases := [{ srcs := [.one .X2, .one .ICssUimm6x8, .one .Crs2], dsts := [], fn := some rv64_RiscVISd }] },
  { name := "cfsdsp", phases := [{ srcs := [.one .X2, .one .ICssUimm6x8, .one .Cdrs2], dsts := [], fn := some rv64_RiscVISd }] },
  { name := "clw", phases := [{ srcs := [.one .C3rs1, .one .IClUimm5x4], dsts := [], fn := some rv64_RiscVILw }, { srcs := [], dsts := [.one .C3rd], fn := some rv64_RiscVILwChild }] },
  { name := "cld", phases := [{ srcs := [.one .C3rs1, .one .IClUimm5x8], dsts := [], fn := some rv64_RiscVILd }, { srcs := [], dsts := [.one .C3rd], fn := some rv64_RiscVILdChild }] },
  { name := "cfld", phases := [{ srcs := [.one .C3rs1, .one .IClUimm5x8], dsts := [], fn := some rv64_RiscVILd }, { srcs := [], dsts := [.one .C3drd], fn := some rv64_RiscVILdChild }] },
  { name := "csw", phases := [{ srcs := [.one .C3rs1, .one .IClUimm5x4, .one .C3rs2], dsts := [], fn := some rv64_RiscVISw }] },
  { name := "csd", phases := [{ srcs := [.one .C3rs1, .one .IClUimm5x8, .one .C3rs2], dsts := [], fn := some rv64_RiscVISd }] },
  { name := "cfsd", phases := [{ srcs := [.one .C3rs1, .one .IClUimm5x8, .one .C3drs2], dsts := [], fn := some rv64_RiscVISd }] },
  { name := "cj", phases := [{ srcs := [.one .ICjImm11, .one .X0], dsts := [.one .NextPc, .one .X0], fn := some rv64_RiscVIJal }] },
  { name := "cjr", phases := [{ srcs := [.one .Crs1, .one .X0], dsts := [.one .NextPc, .one .X0], fn := some rv64_RiscVIJalr }] },
  { name := "cjalr", phases := [{ srcs := [.one .Crs1, .one .X0], dsts := [.one .NextPc, .one .X1], fn := some rv64_RiscVIJalr }] },
  { name := "cbeqz", phases := [{ srcs := [.one .C3rs1, .one .X0, .one .ICbImm8], dsts := [.one .NextPc], fn := some rv64_RiscVIBeq }] },
  { name := "cbnez", phases := [{ srcs := [.one .C3rs1, .one .X0, .one .ICbImm8], dsts := [.one .NextPc], fn := some rv64_RiscVIBne }] },
  { name := "cli", phases := [{ srcs := [.one .X0, .one .ICiImm6], dsts := [.one .Rd], fn := some rv64_RiscVIAdd }] },
  { name := "clui", phases := [{ srcs := [.one .ICiImm612], dsts := [.one .Rd], fn := some rv64_RiscVILui }] },
  { name := "caddi", phases := [{ srcs := [.one .Rd, .one .ICiImm6], dsts := [.one .Rd], fn := some rv64_RiscVIAdd }] },
  { name := "caddiw", phases := [{ srcs := [.one .Rd, .one .ICiImm6], dsts := [.one .Rd], fn := some rv64_RiscVIAddw }] },
  { name := "caddi16sp", phases := [{ srcs := [.one .X2, .one .ICiImm6x16], dsts := [.one .X2], fn := some rv64_RiscVIAdd }] },
  { name := "caddi4spn", phases := [{ srcs := [.one .X2, .one .ICiwUimm8x4], dsts := [.one .C3rd], fn := some rv64_RiscVIAdd }] },
  { name := "cslli", phases := [{ srcs := [.one .Rd, .one .ICiUimm6], dsts := [.one .Rd], fn := some rv64_RiscVISll }] },
  { name := "csrli", phases := [{ srcs := [.one .C3rs1, .one .ICiUimm6], dsts := [.one .C3rs1], fn := some rv64_RiscVISrl }] },
  { name := "csrai", phases := [{ srcs := [.one .C3rs1, .one .ICiUimm6], dsts := [.one .C3rs1], fn := some rv64_RiscVISra }] },
  { name := "candi", phases := [{ srcs := [.one .C3rs1, .one .ICiImm6], dsts := [.one .C3rs1], fn := some rv64_RiscVIAnd }] },
  { name := "cmv", phases := [{ srcs := [.one .Crs2, .one .X0], dsts := [.one .Rd], fn := some rv64_RiscVIAdd }] },
  { name := "cadd", phases := [{ srcs := [.one .Crs2, .one .Rd], dsts := [.one .Rd], fn := some rv64_RiscVIAdd }] },
  { name := "cand", phases := [{ srcs := [.one .C3rs1, .one .C3rs2], dsts := [.one .C3rs1], fn := some rv64_RiscVIAnd }] },
  { name := "cor", phases := [{ srcs := [.one .C3rs1, .one .C3rs2], dsts := [.one .C3rs1], fn := some rv64_RiscVIOr }] },
  { name := "cxor", phases := [{ srcs := [.one .C3rs1, .one .C3rs2], dsts := [.one .C3rs1], fn := some rv64_RiscVIXor }] },
  { name := "csub", phases := [{ srcs := [.one .C3rs1, .one .C3rs2], dsts := [.one .C3rs1], fn := some rv64_RiscVISub }] },
  { name := "caddw", phases := [{ srcs := [.one .C3rs1, .one .C3rs2], dsts := [.one .C3rs1], fn := some rv64_RiscVIAddw }] },
  { name := "csubw", phases := [{ srcs := [.one .C3rs1, .one .C3rs2], dsts := [.one .C3rs1], fn := some rv64_RiscVISubw }] },
  { name := "cnop", phases := [{ srcs := [], dsts := [], fn := some fn_RiscVINop }] },
  { name := "cebreak", phases := [{ srcs := [], dsts := [], fn := some fn_RiscVIEbreak }] },
  { name := "cunimp", phases := [{ srcs := [], dsts := [], fn := some fn_RiscVIUnimplemented }] }]

/-- Slot `riscv64chints` (riscv64g.isa:1199-1221). -/
def slot_riscv64chints : List Instr := [
  { name := "cnop_hint", phases := [{ srcs := [], dsts := [], fn := some fn_RiscVINop }] },
  { name := "cli_hint", phases := [{ srcs := [.one .X0, .one .ICiImm6], dsts := [.one .Rd], fn := some fn_RiscVINop }] },
  { name := "clui_hint", phases := [{ srcs := [.one .ICiImm612], dsts := [.one .Rd], fn := some fn_RiscVINop }] },
  { name := "cmv_hint", phases := [{ srcs := [.one .Crs2, .one .X0], dsts := [.one .Rd], fn := some fn_RiscVINop }] },
  { name := "caddi_hint", phases := [{ srcs := [.one .Rd, .one .ICiImm6], dsts := [.one .Rd], fn := some fn_RiscVINop }] },
  { name := "cslli_hint", phases := [{ srcs := [.one .Rd, .one .ICiUimm6], dsts := [.one .Rd], fn := some fn_RiscVINop }] },
  { name := "cadd_hint", phases := [{ srcs := [.one .Crs2, .one .Rd], dsts := [.one .Rd], fn := some fn_RiscVINop }] }]

/-- Slot `riscv64m` (riscv64g.isa:492-548). -/
def slot_riscv64m : List Instr := [
  { name := "mul", phases := [{ srcs := [.one .Rs1, .one .Rs2], dsts := [.one .Rd], fn := some rv64_MMul }] },
  { name := "mulw", phases := [{ srcs := [.one .Rs1, .one .Rs2], dsts := [.one .Rd], fn := some rv64_MMulw }] },
  { name := "mulh", phases := [{ srcs := [.one .Rs1, .one .Rs2], dsts := [.one .Rd], fn := some rv64_MMulh }] },
  { name := "mulhu", phases := [{ srcs := [.one .Rs1, .one .Rs2], dsts := [.one .Rd], fn := some rv64_MMulhu }] },
  { name := "mulhsu", phases := [{ srcs := [.one .Rs1, .one .Rs2], dsts := [.one .Rd], fn := some rv64_MMulhsu }] },
  { name := "div", phases := [{ srcs := [.one .Rs1, .one .Rs2], dsts := [.one .Rd], fn := some rv64_MDiv }] },
  { name := "divu", phases := [{ srcs := [.one .Rs1, .one .Rs2], dsts := [.one .Rd], fn := some rv64_MDivu }] },
  { name := "rem", phases := [{ srcs := [.one .Rs1, .one .Rs2], dsts := [.one .Rd], fn := some rv64_MRem }] },
  { name := "remu", phases := [{ srcs := [.one .Rs1, .one .Rs2], dsts := [.one .Rd], fn := some rv64_MRemu }] },
  { name := "divw", phases := [{ srcs := [.one .Rs1, .one .Rs2], dsts := [.one .Rd], fn := some rv64_MDivw }] },
  { name := "divuw", phases := [{ srcs := [.one .Rs1, .one .Rs2], dsts := [.one .Rd], fn := some rv64_MDivuw }] },
  { name := "remw", phases := [{ srcs := [.one .Rs1, .one .Rs2], dsts := [.one .Rd], fn := some rv64_MRemw }] },
  { name := "remuw", phases := [{ srcs := [.one .Rs1, .one .Rs2], dsts := [.one .Rd], fn := some rv64_MRemuw }] }]

/-- Slot `riscv64_hints` (riscv64g.isa:290-429). -/
def slot_riscv64_hints : List Instr := [
  { name := "addi_hint1", phases := [{ srcs := [.one .Rs1, .one .IImm12], dsts := [.one .Rd], fn := some fn_RiscVINop }] },
  { name := "addi_hint2", phases := [{ srcs := [.one .Rs1, .one .IImm12], dsts := [.one .Rd], fn := some fn_RiscVINop }] },
  { name := "slti_hint", phases := [{ srcs := [.one .Rs1, .one .IImm12], dsts := [.one .Rd], fn := some fn_RiscVINop }] },
  { name := "sltiu_hint", phases := [{ srcs := [.one .Rs1, .one .IImm12], dsts := [.one .Rd], fn := some fn_RiscVINop }] },
  { name := "andi_hint", phases := [{ srcs := [.one .Rs1, .one .IImm12], dsts := [.one .Rd], fn := some fn_RiscVINop }] },
  { name := "ori_hint", phases := [{ srcs := [.one .Rs1, .one .IImm12], dsts := [.one .Rd], fn := some fn_RiscVINop }] },
  { name := "xori_hint", phases := [{ srcs := [.one .Rs1, .one .IImm12], dsts := [.one .Rd], fn := some fn_RiscVINop }] },
  { name := "slli_semihost", phases := [{ srcs := [.one .Rs1, .one .IUimm5], dsts := [.one .Rd], fn := some fn_RiscVINop }] },
  { name := "slli_hint1", phases := [{ srcs := [.one .Rs1, .one .IUimm5], dsts := [.one .Rd], fn := some fn_RiscVINop }] },
  { name := "slli_hint2", phases := [{ srcs := [.one .Rs1, .one .IUimm5], dsts := [.one .Rd], fn := some fn_RiscVINop }] },
  { name := "srli_hint", phases := [{ srcs := [.one .Rs1, .one .IUimm5], dsts := [.one .Rd], fn := some fn_RiscVINop }] },
  { name := "srai_semihost", phases := [{ srcs := [.one .Rs1, .one .IUimm5], dsts := [.one .Rd], fn := some fn_RiscVINop }] },
  { name := "srai_hint1", phases := [{ srcs := [.one .Rs1, .one .IUimm5], dsts := [.one .Rd], fn := some fn_RiscVINop }] },
  { name := "srai_hint2", phases := [{ srcs := [.one .Rs1, .one .IUimm5], dsts := [.one .Rd], fn := some fn_RiscVINop }] },
  { name := "lui_hint", phases := [{ srcs := [.one .UImm20], dsts := [.one .Rd], fn := some fn_RiscVINop }] },
  { name := "auipc_hint", phases := [{ srcs := [.one .UImm20], dsts := [.one .Rd], fn := some fn_RiscVINop }] },
  { name := "add_hint1", phases := [{ srcs := [.one .Rs1, .one .Rs2], dsts := [.one .Rd], fn := some fn_RiscVINop }] },
  { name := "add_hint2", phases := [{ srcs := [.one .Rs1, .one .Rs2], dsts := [.one .Rd], fn := some fn_RiscVINop }] },
  { name := "add_hint3", phases := [{ srcs := [.one .Rs1, .one .Rs2], dsts := [.one .Rd], fn := some fn_RiscVINop }] },
  { name := "and_hint", phases := [{ srcs := [.one .Rs1, .one .Rs2], dsts := [.one .Rd], fn := some fn_RiscVINop }] },
  { name := "or_hint", phases := [{ srcs := [.one .Rs1, .one .Rs2], dsts := [.one .Rd], fn := some fn_RiscVINop }] },
  { name := "xor_hint", phases := [{ srcs := [.one .Rs1, .one .Rs2], dsts := [.one .Rd], fn := some fn_RiscVINop }] },
  { name := "sll_hint", phases := [{ srcs := [.one .Rs1, .one .Rs2], dsts := [.one .Rd], fn := some fn_RiscVINop }] },
  { name := "srl_hint", phases := [{ srcs := [.one .Rs1, .one .Rs2], dsts := [.one .Rd], fn := some fn_RiscVINop }] },
  { name := "sub_hint", phases := [{ srcs := [.one .Rs1, .one .Rs2], dsts := [.one .Rd], fn := some fn_RiscVINop }] },
  { name := "sra_hint", phases := [{ srcs := [.one .Rs1, .one .Rs2], dsts := [.one .Rd], fn := some fn_RiscVINop }] },
  { name := "slt_hint", phases := [{ srcs := [.one .Rs1, .one .Rs2], dsts := [.one .Rd], fn := some fn_RiscVINop }] },
  { name := "sltu_hint", phases := [{ srcs := [.one .Rs1, .one .Rs2], dsts := [.one .Rd], fn := some fn_RiscVINop }] },
  { name := "fence_hint1", phases := [{ srcs := [.one .Pred, .one .Succ], dsts := [], fn := some fn_RiscVINop }] },
  { name := "fence_hint2", phases := [{ srcs := [.one .Pred, .one .Succ], dsts := [], fn := some fn_RiscVINop }] },
  { name := "fence_hint3", phases := [{ srcs := [.one .Pred, .one .Succ], dsts := [], fn := some fn_RiscVINop }] },
  { name := "fence_hint4", phases := [{ srcs := [.one .Pred, .one .Succ], dsts := [], fn := some fn_RiscVINop }] },
  { name := "fence_hint5", phases := [{ srcs := [.one .Pred, .one .Succ], dsts := [], fn := some fn_RiscVINop }] },
  { name := "fence_hint6", phases := [{ srcs := [.one .Pred, .one .Succ], dsts := [], fn := some fn_RiscVINop }] },
  { name := "fence_hint7", phases := [{ srcs := [.one .Pred, .one .Succ], dsts := [], fn := some fn_RiscVINop }] }]

/-- Slot `riscv64_amo_arithmetic` (riscv64g.isa:640-682). Inherited instructions are listed with the overrides applied. -/
def slot_riscv64_amo_arithmetic : List Instr := [
  { name := "lrw", phases := [{ srcs := [.one .Rs1, .one .AAq, .one .ARl], dsts := [], fn := some fn_ALrw }, { srcs := [], dsts := [.one .Rd], fn := some rv64_RiscVILwChild }] },
  { name := "lrd", phases := [{ srcs := [.one .Rs1, .one .AAq, .one .ARl], dsts := [], fn := some fn_ALrd }, { srcs := [], dsts := [.one .Rd], fn := some rv64_RiscVILdChild }] },
  { name := "scw", phases := [{ srcs := [.one .Rs1, .one .Rs2, .one .AAq, .one .ARl], dsts := [], fn := some fn_AScw }, { srcs := [], dsts := [.one .Rd], fn := some rv64_RiscVILwChild }] },
  { name := "scd", phases := [{ srcs := [.one .Rs1, .one .Rs2, .one .AAq, .one .ARl], dsts := [], fn := some fn_AScd }, { srcs := [], dsts := [.one .Rd], fn := some rv64_RiscVILdChild }] },
  { name := "amoswapw", phases := [{ srcs := [.one .Rs1, .one .Rs2, .one .AAq, .one .ARl], dsts := [], fn := some fn_AAmoswapw }, { srcs := [], dsts := [.one .Rd], fn := some rv64_RiscVILwChild }] },
  { name := "amoswapd", phases := [{ srcs := [.one .Rs1, .one .Rs2, .one .AAq, .one .ARl], dsts := [], fn := some fn_AAmoswapd }, { srcs := [], dsts := [.one .Rd], fn := some rv64_RiscVILdChild }] },
  { name := "amoandw", phases := [{ srcs := [.one .Rs1, .one .Rs2, .one .AAq, .one .ARl], dsts := [], fn := some fn_AAmoandw }, { srcs := [], dsts := [.one .Rd], fn := some rv64_RiscVILwChild }] },
  { name := "amoandd", phases := [{ srcs := [.one .Rs1, .one .Rs2, .one .AAq, .one .ARl], dsts := [], fn := some fn_AAmoandd }, { srcs := [], dsts := [.one .Rd], fn := some rv64_RiscVILdChild }] },
  { name := "amoorw", phases := [{ srcs := [.one .Rs1, .one .Rs2, .one .AAq, .one .ARl], dsts := [], fn := some fn_AAmoorw }, { srcs := [], dsts := [.one .Rd], fn := some rv64_RiscVILwChild }] },
  { name := "amoord", phases := [{ srcs := [.one .Rs1, .one .Rs2, .one .AAq, .one .ARl], dsts := [], fn := some fn_AAmoord }, { srcs := [], dsts := [.one .Rd], fn := some rv64_RiscVILdChild }] },
  { name := "amoxorw", phases := [{ srcs := [.one .Rs1, .one .Rs2, .one .AAq, .one .ARl], dsts := [], fn := some fn_AAmoxorw }, { srcs := [], dsts := [.one .Rd], fn := some rv64_RiscVILwChild }] },
  { name := "amoxord", phases := [{ srcs := [.one .Rs1, .one .Rs2, .one .AAq, .one .ARl], dsts := [], fn := some fn_AAmoxord }, { srcs := [], dsts := [.one .Rd], fn := some rv64_RiscVILdChild }] },
  { name := "amoaddw", phases := [{ srcs := [.one .Rs1, .one .Rs2, .one .AAq, .one .ARl], dsts := [], fn := some fn_AAmoaddw }, { srcs := [], dsts := [.one .Rd], fn := some rv64_RiscVILwChild }] },
  { name := "amoaddd", phases := [{ srcs := [.one .Rs1, .one .Rs2, .one .AAq, .one .ARl], dsts := [], fn := some fn_AAmoaddd }, { srcs := [], dsts := [.one .Rd], fn := some rv64_RiscVILdChild }] },
  { name := "amomaxw", phases := [{ srcs := [.one .Rs1, .one .Rs2, .one .AAq, .one .ARl], dsts := [], fn := some fn_AAmomaxw }, { srcs := [], dsts := [.one .Rd], fn := some rv64_RiscVILwChild }] },
  { name := "amomaxd", phases := [{ srcs := [.one .Rs1, .one .Rs2, .one .AAq, .one .ARl], dsts := [], fn := some fn_AAmomaxd }, { srcs := [], dsts := [.one .Rd], fn := some rv64_RiscVILdChild }] },
  { name := "amomaxuw", phases := [{ srcs := [.one .Rs1, .one .Rs2, .one .AAq, .one .ARl], dsts := [], fn := some fn_AAmomaxuw }, { srcs := [], dsts := [.one .Rd], fn := some rv64_RiscVILwChild }] },
  { name := "amomaxud", phases := [{ srcs := [.one .Rs1, .one .Rs2, .one .AAq, .one .ARl], dsts := [], fn := some fn_AAmomaxud }, { srcs := [], dsts := [.one .Rd], fn := some rv64_RiscVILdChild }] },
  { name := "amominw", phases := [{ srcs := [.one .Rs1, .one .Rs2, .one .AAq, .one .ARl], dsts := [], fn := some fn_AAmominw }, { srcs := [], dsts := [.one .Rd], fn := some rv64_RiscVILwChild }] },
  { name := "amomind", phases := [{ srcs := [.one .Rs1, .one .Rs2, .one .AAq, .one .ARl], dsts := [], fn := some fn_AAmomind }, { srcs := [], dsts := [.one .Rd], fn := some rv64_RiscVILdChild }] },
  { name := "amominuw", phases := [{ srcs := [.one .Rs1, .one .Rs2, .one .AAq, .one .ARl], dsts := [], fn := some fn_AAmominuw }, { srcs := [], dsts := [.one .Rd], fn := some rv64_RiscVILwChild }] },
  { name := "amominud", phases := [{ srcs := [.one .Rs1, .one .Rs2, .one .AAq, .one .ARl], dsts := [], fn := some fn_AAmominud }, { srcs := [], dsts := [.one .Rd], fn := some rv64_RiscVILdChild }] }]

/-- Slot `riscv64f` (riscv64g.isa:765-891). -/
def slot_riscv64f : List Instr := [
  { name := "flw", phases := [{ srcs := [.one .Rs1, .one .IImm12], dsts := [], fn := some rv64_RiscVILw }, { srcs := [], dsts := [.one .Frd], fn := some fn_RiscVIFlwChild }] },
  { name := "fsw", phases := [{ srcs := [.one .Rs1, .one .SImm12, .one .Frs2], dsts := [], fn := some rv64_RiscVFSw }] },
  { name := "fadd_s", phases := [{ srcs := [.one .Frs1, .one .Frs2, .one .Rm], dsts := [.one .Frd], fn := some fn_RiscVFAdd }] },
  { name := "fsub_s", phases := [{ srcs := [.one .Frs1, .one .Frs2, .one .Rm], dsts := [.one .Frd], fn := some fn_RiscVFSub }] },
  { name := "fmul_s", phases := [{ srcs := [.one .Frs1, .one .Frs2, .one .Rm], dsts := [.one .Frd], fn := some fn_RiscVFMul }] },
  { name := "fdiv_s", phases := [{ srcs := [.one .Frs1, .one .Frs2, .one .Rm], dsts := [.one .Frd], fn := some fn_RiscVFDiv }] },
  { name := "fsqrt_s", phases := [{ srcs := [.one .Frs1, .one .Rm], dsts := [.one .Frd, .one .Fflags], fn := some fn_RiscVFSqrt }] },
  { name := "fmin_s", phases := [{ srcs := [.one .Frs1, .one .Frs2], dsts := [.one .Frd, .one .Fflags], fn := some fn_RiscVFMin }] },
  { name := "fmax_s", phases := [{ srcs := [.one .Frs1, .one .Frs2], dsts := [.one .Frd, .one .Fflags], fn := some fn_RiscVFMax }] },
  { name := "fmadd_s", phases := [{ srcs := [.one .Frs1, .one .Frs2, .one .Frs3, .one .Rm], dsts := [.one .Frd, .one .Fflags], fn := some fn_RiscVFMadd }] },
  { name := "fmsub_s", phases := [{ srcs := [.one .Frs1, .one .Frs2, .one .Frs3, .one .Rm], dsts := [.one .Frd, .one .Fflags], fn := some fn_RiscVFMsub }] },
  { name := "fnmadd_s", phases := [{ srcs := [.one .Frs1, .one .Frs2, .one .Frs3, .one .Rm], dsts := [.one .Frd, .one .Fflags], fn := some fn_RiscVFNmadd }] },
  { name := "fnmsub_s", phases := [{ srcs := [.one .Frs1, .one .Frs2, .one .Frs3, .one .Rm], dsts := [.one .Frd, .one .Fflags], fn := some fn_RiscVFNmsub }] },
  { name := "fcvt_ws", phases := [{ srcs := [.one .Frs1, .one .Rm], dsts := [.one .Rd, .one .Fflags], fn := some rv64_RiscVFCvtWs }] },
  { name := "fcvt_ls", phases := [{ srcs := [.one .Frs1, .one .Rm], dsts := [.one .Rd, .one .Fflags], fn := some rv64_RiscVFCvtLs }] },
  { name := "fcvt_sw", phases := [{ srcs := [.one .Rs1, .one .Rm], dsts := [.one .Frd], fn := some fn_RiscVFCvtSw }] },
  { name := "fcvt_sl", phases := [{ srcs := [.one .Rs1, .one .Rm], dsts := [.one .Frd], fn := some fn_RiscVFCvtSl }] },
  { name := "fcvt_wus", phases := [{ srcs := [.one .Frs1, .one .Rm], dsts := [.one .Rd, .one .Fflags], fn := some rv64_RiscVFCvtWus }] },
  { name := "fcvt_lus", phases := [{ srcs := [.one .Frs1, .one .Rm], dsts := [.one .Rd, .one .Fflags], fn := some rv64_RiscVFCvtLus }] },
  { name := "fcvt_swu", phases := [{ srcs := [.one .Rs1, .one .Rm], dsts := [.one .Frd], fn := some fn_RiscVFCvtSwu }] },
  { name := "fcvt_slu", phases := [{ srcs := [.one .Rs1, .one .Rm], dsts := [.one .Frd], fn := some fn_RiscVFCvtSlu }] },
  { name := "fsgnj_s", phases := [{ srcs := [.one .Frs1, .one .Frs2], dsts := [.one .Frd], fn := some fn_RiscVFSgnj }] },
  { name := "fsgnjn_s", phases := [{ srcs := [.one .Frs1, .one .Frs2], dsts := [.one .Frd], fn := some fn_RiscVFSgnjn }] },
  { name := "fsgnjx_s", phases := [{ srcs := [.one .Frs1, .one .Frs2], dsts := [.one .Frd], fn := some fn_RiscVFSgnjx }] },
  { name := "fmv_xw", phases := [{ srcs := [.one .Frs1], dsts := [.one .Rd], fn := some rv64_RiscVFMvxw }] },
  { name := "fmv_wx", phases := [{ srcs := [.one .Rs1], dsts := [.one .Frd], fn := some fn_RiscVFMvwx }] },
  { name := "fcmpeq_s", phases := [{ srcs := [.one .Frs1, .one .Frs2], dsts := [.one .Rd, .one .Fflags], fn := some rv64_RiscVFCmpeq }] },
  { name := "fcmplt_s", phases := [{ srcs := [.one .Frs1, .one .Frs2], dsts := [.one .Rd, .one .Fflags], fn := some rv64_RiscVFCmplt }] },
  { name := "fcmple_s", phases := [{ srcs := [.one .Frs1, .one .Frs2], dsts := [.one .Rd, .one .Fflags], fn := some rv64_RiscVFCmple }] },
  { name := "fclass_s", phases := [{ srcs := [.one .Frs1], dsts := [.one .Rd], fn := some rv64_RiscVFClass }] }]

/-- Slot `riscv64d` (riscv64g.isa:899-1030). -/
def slot_riscv64d : List Instr := [
  { name := "fld", phases := [{ srcs := [.one .Rs1, .one .IImm12], dsts := [], fn := some rv64_RiscVILd }, { srcs := [], dsts := [.one .Drd], fn := some rv64_RiscVILdChild }] },
  { name := "fsd", phases := [{ srcs := [.one .Rs1, .one .SImm12, .one .Drs2], dsts := [], fn := some rv64_RiscVDSd }] },
  { name := "fadd_d", phases := [{ srcs := [.one .Drs1, .one .Drs2, .one .Rm], dsts := [.one .Drd], fn := some fn_RiscVDAdd }] },
  { name := "fsub_d", phases := [{ srcs := [.one .Drs1, .one .Drs2, .one .Rm], dsts := [.one .Drd], fn := some fn_RiscVDSub }] },
  { name := "fmul_d", phases := [{ srcs := [.one .Drs1, .one .Drs2, .one .Rm], dsts := [.one .Drd], fn := some fn_RiscVDMul }] },
  { name := "fdiv_d", phases := [{ srcs := [.one .Drs1, .one .Drs2, .one .Rm], dsts := [.one .Drd], fn := some fn_RiscVDDiv }] },
  { name := "fsqrt_d", phases := [{ srcs := [.one .Drs1, .one .Rm], dsts := [.one .Drd, .one .Fflags], fn := some fn_RiscVDSqrt }] },
  { name := "fmin_d", phases := [{ srcs := [.one .Drs1, .one .Drs2], dsts := [.one .Drd, .one .Fflags], fn := some fn_RiscVDMin }] },
  { name := "fmax_d", phases := [{ srcs := [.one .Drs1, .one .Drs2], dsts := [.one .Drd, .one .Fflags], fn := some fn_RiscVDMax }] },
  { name := "fmadd_d", phases := [{ srcs := [.one .Drs1, .one .Drs2, .one .Drs3, .one .Rm], dsts := [.one .Drd, .one .Fflags], fn := some fn_RiscVDMadd }] },
  { name := "fmsub_d", phases := [{ srcs := [.one .Drs1, .one .Drs2, .one .Drs3, .one .Rm], dsts := [.one .Drd, .one .Fflags], fn := some fn_RiscVDMsub }] },
  { name := "fnmadd_d", phases := [{ srcs := [.one .Drs1, .one .Drs2, .one .Drs3, .one .Rm], dsts := [.one .Drd, .one .Fflags], fn := some fn_RiscVDNmadd }] },
  { name := "fnmsub_d", phases := [{ srcs := [.one .Drs1, .one .Drs2, .one .Drs3, .one .Rm], dsts := [.one .Drd, .one .Fflags], fn := some fn_RiscVDNmsub }] },
  { name := "fcvt_wd", phases := [{ srcs := [.one .Drs1, .one .Rm], dsts := [.one .Rd, .one .Fflags], fn := some rv64_RiscVDCvtWd }] },
  { name := "fcvt_ld", phases := [{ srcs := [.one .Drs1, .one .Rm], dsts := [.one .Rd, .one .Fflags], fn := some rv64_RiscVDCvtLd }] },
  { name := "fcvt_dw", phases := [{ srcs := [.one .Rs1, .one .Rm], dsts := [.one .Drd], fn := some fn_RiscVDCvtDw }] },
  { name := "fcvt_dl", phases := [{ srcs := [.one .Rs1, .one .Rm], dsts := [.one .Drd], fn := some rv64_RiscVDCvtDl }] },
  { name := "fcvt_wud", phases := [{ srcs := [.one .Drs1, .one .Rm], dsts := [.one .Rd, .one .Fflags], fn := some rv64_RiscVDCvtWud }] },
  { name := "fcvt_lud", phases := [{ srcs := [.one .Drs1, .one .Rm], dsts := [.one .Rd, .one .Fflags], fn := some rv64_RiscVDCvtLud }] },
  { name := "fcvt_dwu", phases := [{ srcs := [.one .Rs1, .one .Rm], dsts := [.one .Drd], fn := some fn_RiscVDCvtDwu }] },
  { name := "fcvt_dlu", phases := [{ srcs := [.one .Rs1, .one .Rm], dsts := [.one .Drd], fn := some rv64_RiscVDCvtDlu }] },
  { name := "fcvt_sd", phases := [{ srcs := [.one .Drs1, .one .Rm], dsts := [.one .Drd], fn := some fn_RiscVDCvtSd }] },
  { name := "fcvt_ds", phases := [{ srcs := [.one .Drs1, .one .Rm], dsts := [.one .Drd], fn := some fn_RiscVDCvtDs }] },
  { name := "fsgnj_d", phases := [{ srcs := [.one .Drs1, .one .Drs2], dsts := [.one .Drd], fn := some fn_RiscVDSgnj }] },
  { name := "fsgnjn_d", phases := [{ srcs := [.one .Drs1, .one .Drs2], dsts := [.one .Drd], fn := some fn_RiscVDSgnjn }] },
  { name := "fsgnjx_d", phases := [{ srcs := [.one .Drs1, .one .Drs2], dsts := [.one .Drd], fn := some fn_RiscVDSgnjx }] },
  { name := "fcmpeq_d", phases := [{ srcs := [.one .Drs1, .one .Drs2], dsts := [.one .Rd, .one .Fflags], fn := some rv64_RiscVDCmpeq }] },
  { name := "fcmplt_d", phases := [{ srcs := [.one .Drs1, .one .Drs2], dsts := [.one .Rd, .one .Fflags], fn := some rv64_RiscVDCmplt }] },
  { name := "fcmple_d", phases := [{ srcs := [.one .Drs1, .one .Drs2], dsts := [.one .Rd, .one .Fflags], fn := some rv64_RiscVDCmple }] },
  { name := "fclass_d", phases := [{ srcs := [.one .Drs1], dsts := [.one .Rd], fn := some rv64_RiscVDClass }] },
  { name := "fmv_dx", phases := [{ srcs := [.one .Rs1], dsts := [.one .Frd], fn := some rv64_RiscVDMvdx }] },
  { name := "fmv_xd", phases := [{ srcs := [.one .Frs1], dsts := [.one .Rd], fn := some rv64_RiscVDMvxd }] }]

/-- Slot `zicsr` (riscv64g.isa:690-757). -/
def slot_zicsr64 : List Instr := [
  { name := "csrrw", phases := [{ srcs := [.one .Rs1, .one .Csr], dsts := [.one .Rd, .one .Csr], fn := some rv64_RiscVZiCsrrw }] },
  { name := "csrrs", phases := [{ srcs := [.one .Rs1, .one .Csr], dsts := [.one .Rd, .one .Csr], fn := some rv64_RiscVZiCsrrs }] },
  { name := "csrrc", phases := [{ srcs := [.one .Rs1, .one .Csr], dsts := [.one .Rd, .one .Csr], fn := some rv64_RiscVZiCsrrc }] },
  { name := "csrrs_nr", phases := [{ srcs := [.one .Rs1, .one .Csr], dsts := [.one .Rd, .one .Csr], fn := some rv64_RiscVZiCsrrs }] },
  { name := "csrrc_nr", phases := [{ srcs := [.one .Rs1, .one .Csr], dsts := [.one .Rd, .one .Csr], fn := some rv64_RiscVZiCsrrc }] },
  { name := "csrrw_nr", phases := [{ srcs := [.one .Rs1, .one .Csr], dsts := [.one .Csr], fn := some rv64_RiscVZiCsrrwNr }] },
  { name := "csrrs_nw", phases := [{ srcs := [.one .Csr], dsts := [.one .Rd], fn := some rv64_RiscVZiCsrrNw }] },
  { name := "csrrc_nw", phases := [{ srcs := [.one .Csr], dsts := [.one .Rd], fn := some rv64_RiscVZiCsrrNw }] },
  { name := "csrrwi", phases := [{ srcs := [.one .CSRUimm5, .one .Csr], dsts := [.one .Rd, .one .Csr], fn := some rv64_RiscVZiCsrrw }] },
  { name := "csrrsi", phases := [{ srcs := [.one .CSRUimm5, .one .Csr], dsts := [.one .Rd, .one .Csr], fn := some rv64_RiscVZiCsrrs }] },
  { name := "csrrci", phases := [{ srcs := [.one .CSRUimm5, .one .Csr], dsts := [.one .Rd, .one .Csr], fn := some rv64_RiscVZiCsrrc }] },
  { name := "csrrsi_nr", phases := [{ srcs := [.one .CSRUimm5, .one .Csr], dsts := [.one .Rd, .one .Csr], fn := some rv64_RiscVZiCsrrs }] },
  { name := "csrrci_nr", phases := [{ srcs := [.one .CSRUimm5, .one .Csr], dsts := [.one .Rd, .one .Csr], fn := some rv64_RiscVZiCsrrc }] },
  { name := "csrrwi_nr", phases := [{ srcs := [.one .CSRUimm5, .one .Csr], dsts := [.one .Csr], fn := some rv64_RiscVZiCsrrwNr }] },
  { name := "csrrsi_nw", phases := [{ srcs := [.one .Csr], dsts := [.one .Rd], fn := some rv64_RiscVZiCsrrNw }] },
  { name := "csrrci_nw", phases := [{ srcs := [.one .Csr], dsts := [.one .Rd], fn := some rv64_RiscVZiCsrrNw }] }]

/-- Slot `zfencei` (riscv64g.isa:478-485). -/
def slot_zfencei64 : List Instr := [
  { name := "fencei", phases := [{ srcs := [.one .IImm12], dsts := [], fn := some fn_RiscVZFencei }] }]

/-- Slot `privileged` (riscv64g.isa:436-469). -/
def slot_privileged64 : List Instr := [
  { name := "uret", phases := [{ srcs := [], dsts := [.one .NextPc], fn := some rv64_RiscVPrivURet }] },
  { name := "sret", phases := [{ srcs := [], dsts := [.one .NextPc], fn := some rv64_RiscVPrivSRet }] },
  { name := "mret", phases := [{ srcs := [], dsts := [.one .NextPc], fn := some rv64_RiscVPrivMRet }] },
  { name := "wfi", phases := [{ srcs := [], dsts := [], fn := some fn_RiscVPrivWfi }] },
  { name := "sfence_vma_zz", phases := [{ srcs := [.one .Rs1, .one .Rs2], dsts := [], fn := some fn_RiscVPrivSFenceVmaZZ }] },
  { name := "sfence_vma_zn", phases := [{ srcs := [.one .Rs1, .one .Rs2], dsts := [], fn := some fn_RiscVPrivSFenceVmaZN }] },
  { name := "sfence_vma_nz", phases := [{ srcs := [.one .Rs1, .one .Rs2], dsts := [], fn := some fn_RiscVPrivSFenceVmaNZ }] },
  { name := "sfence_vma_nn", phases := [{ srcs := [.one .Rs1, .one .Rs2], dsts := [], fn := some fn_RiscVPrivSFenceVmaNN }] }]

/-- Slot `riscv64g` (riscv64g.isa:43). -/
def slot_riscv64g : List Instr := slot_riscv64i ++ slot_riscv64c ++ slot_riscv64chints ++ slot_riscv64m ++ slot_riscv64_hints ++ slot_riscv64_amo_arithmetic ++ slot_riscv64f ++ slot_riscv64d ++ slot_zicsr64 ++ slot_zfencei64 ++ slot_privileged64

/-- Slot `riscv64_zba` (riscv64zb.isa:35-63). Inherited instructions are listed with the overrides applied. -/
def slot_riscv64_zba : List Instr := [
  { name := "sh1add", phases := [{ srcs := [.one .Rs1, .one .Rs2, .one .Const1], dsts := [.one .Rd], fn := some rv64_RiscVShAdd }] },
  { name := "sh2add", phases := [{ srcs := [.one .Rs1, .one .Rs2, .one .Const2], dsts := [.one .Rd], fn := some rv64_RiscVShAdd }] },
  { name := "sh3add", phases := [{ srcs := [.one .Rs1, .one .Rs2, .one .Const3], dsts := [.one .Rd], fn := some rv64_RiscVShAdd }] },
  { name := "add_uw", phases := [{ srcs := [.one .Rs1, .one .Rs2], dsts := [.one .Rd], fn := some rv64_RiscVAddUw }] },
  { name := "sh1add_uw", phases := [{ srcs := [.one .Rs1, .one .Rs2, .one .Const1], dsts := [.one .Rd], fn := some rv64_RiscVShAddUw }] },
  { name := "sh2add_uw", phases := [{ srcs := [.one .Rs1, .one .Rs2, .one .Const2], dsts := [.one .Rd], fn := some rv64_RiscVShAddUw }] },
  { name := "sh3add_uw", phases := [{ srcs := [.one .Rs1, .one .Rs2, .one .Const3], dsts := [.one .Rd], fn := some rv64_RiscVShAddUw }] },
  { name := "slli_uw", phases := [{ srcs := [.one .Rs1, .one .RUimm6], dsts := [.one .Rd], fn := some rv64_RiscVSlliUw }] }]

/-- Slot `riscv64_zbb` (riscv64zb.isa:70-124). Inherited instructions are listed with the overrides applied. -/
def slot_riscv64_zbb : List Instr := [
  { name := "andn", phases := [{ srcs := [.one .Rs1, .one .Rs2], dsts := [.one .Rd], fn := some rv64_RiscVAndn }] },
  { name := "orn", phases := [{ srcs := [.one .Rs1, .one .Rs2], dsts := [.one .Rd], fn := some rv64_RiscVOrn }] },
  { name := "xnor", phases := [{ srcs := [.one .Rs1, .one .Rs2], dsts := [.one .Rd], fn := some rv64_RiscVXnor }] },
  { name := "clz", phases := [{ srcs := [.one .Rs1], dsts := [.one .Rd], fn := some rv64_RiscVClz }] },
  { name := "ctz", phases := [{ srcs := [.one .Rs1], dsts := [.one .Rd], fn := some rv64_RiscVCtz }] },
  { name := "cpop", phases := [{ srcs := [.one .Rs1], dsts := [.one .Rd], fn := some rv64_RiscVCpop }] },
  { name := "max", phases := [{ srcs := [.one .Rs1, .one .Rs2], dsts := [.one .Rd], fn := some rv64_RiscVMax }] },
  { name := "maxu", phases := [{ srcs := [.one .Rs1, .one .Rs2], dsts := [.one .Rd], fn := some rv64_RiscVMaxu }] },
  { name := "min", phases := [{ srcs := [.one .Rs1, .one .Rs2], dsts := [.one .Rd], fn := some rv64_RiscVMin }] },
  { name := "minu", phases := [{ srcs := [.one .Rs1, .one .Rs2], dsts := [.one .Rd], fn := some rv64_RiscVMinu }] },
  { name := "sext_b", phases := [{ srcs := [.one .Rs1], dsts := [.one .Rd], fn := some rv64_RiscVSextB }] },
  { name := "sext_h", phases := [{ srcs := [.one .Rs1], dsts := [.one .Rd], fn := some rv64_RiscVSextH }] },
  { name := "zext_h", phases := [{ srcs := [.one .Rs1], dsts := [.one .Rd], fn := some rv64_RiscVZextH }] },
  { name := "rol", phases := [{ srcs := [.one .Rs1, .one .Rs2], dsts := [.one .Rd], fn := some rv64_RiscVRol }] },
  { name := "ror", phases := [{ srcs := [.one .Rs1, .one .Rs2], dsts := [.one .Rd], fn := some rv64_RiscVRor }] },
  { name := "orcb", phases := [{ srcs := [.one .Rs1], dsts := [.one .Rd], fn := some rv64_RiscVOrcb }] },
  { name := "rev8", phases := [{ srcs := [.one .Rs1], dsts := [.one .Rd], fn := some rv64_RiscVRev8 }] },
  { name := "clzw", phases := [{ srcs := [.one .Rs1], dsts := [.one .Rd], fn := some rv64_RiscVClzw }] },
  { name := "ctzw", phases := [{ srcs := [.one .Rs1], dsts := [.one .Rd], fn := some rv64_RiscVCtzw }] },
  { name := "cpopw", phases := [{ srcs := [.one .Rs1], dsts := [.one .Rd], fn := some rv64_RiscVCpopw }] },
  { name := "rolw", phases := [{ srcs := [.one .Rs1, .one .Rs2], dsts := [.one .Rd], fn := some rv64_RiscVRolw }] },
  { name := "roriw", phases := [{ srcs := [.one .Rs1, .one .RUimm6], dsts := [.one .Rd], fn := some rv64_RiscVRorw }] },
  { name := "rorw", phases := [{ srcs := [.one .Rs1, .one .Rs2], dsts := [.one .Rd], fn := some rv64_RiscVRorw }] }]

/-- Slot `riscv64_zbb_imm` (riscv64zb.isa:131-139). -/
def slot_riscv64_zbb_imm : List Instr := [
  { name := "rori", phases := [{ srcs := [.one .Rs1, .one .RUimm6], dsts := [.one .Rd], fn := some rv64_RiscVRor }] }]

/-- Slot `riscv64_zbc` (riscv64zb.isa:146-156). Inherited instructions are listed with the overrides applied. -/
def slot_riscv64_zbc : List Instr := [
  { name := "clmul", phases := [{ srcs := [.one .Rs1, .one .Rs2], dsts := [.one .Rd], fn := some rv64_RiscVClmul }] },
  { name := "clmulh", phases := [{ srcs := [.one .Rs1, .one .Rs2], dsts := [.one .Rd], fn := some rv64_RiscVClmulh }] },
  { name := "clmulr", phases := [{ srcs := [.one .Rs1, .one .Rs2], dsts := [.one .Rd], fn := some rv64_RiscVClmulr }] }]

/-- Slot `riscv64_zbs` (riscv64zb.isa:160-171). Inherited instructions are listed with the overrides applied. -/
def slot_riscv64_zbs : List Instr := [
  { name := "bclr", phases := [{ srcs := [.one .Rs1, .one .Rs2], dsts := [.one .Rd], fn := some rv64_RiscVBclr }] },
  { name := "bext", phases := [{ srcs := [.one .Rs1, .one .Rs2], dsts := [.one .Rd], fn := some rv64_RiscVBext }] },
  { name := "binv", phases := [{ srcs := [.one .Rs1, .one .Rs2], dsts := [.one .Rd], fn := some rv64_RiscVBinv }] },
  { name := "bset", phases := [{ srcs := [.one .Rs1, .one .Rs2], dsts := [.one .Rd], fn := some rv64_RiscVBset }] }]

/-- Slot `riscv64_zbs_imm` (riscv64zb.isa:175-195). -/
def slot_riscv64_zbs_imm : List Instr := [
  { name := "bclri", phases := [{ srcs := [.one .Rs1, .one .RUimm6], dsts := [.one .Rd], fn := some rv64_RiscVBclr }] },
  { name := "bexti", phases := [{ srcs := [.one .Rs1, .one .RUimm6], dsts := [.one .Rd], fn := some rv64_RiscVBext }] },
  { name := "binvi", phases := [{ srcs := [.one .Rs1, .one .RUimm6], dsts := [.one .Rd], fn := some rv64_RiscVBinv }] },
  { name := "bseti", phases := [{ srcs := [.one .Rs1, .one .RUimm6], dsts := [.one .Rd], fn := some rv64_RiscVBset }] }]

/-- Slot `riscv64gzb` (riscv64gzb.isa:25). -/
def slot_riscv64gzb : List Instr := slot_riscv64g ++ slot_riscv64_zba ++ slot_riscv64_zbb ++ slot_riscv64_zbb_imm ++ slot_riscv64_zbc ++ slot_riscv64_zbs ++ slot_riscv64_zbs_imm

/-- Slot `riscv64gv` (riscv64v.isa:36). -/
def slot_riscv64gv : List Instr := slot_riscv64g ++ slot_riscv_vector

/-- Slot `riscv64gvzb` (riscv64v.isa:44). -/
def slot_riscv64gvzb : List Instr := slot_riscv64gzb ++ slot_riscv_vector

/-- Slot `riscv32_zfh` (riscv_zfh.isa:201-231). Inherited instructions are listed with the overrides applied. -/
def slot_riscv32_zfh : List Instr := [
  { name := "fcvt_sh", phases := [{ srcs := [.one .Frs1, .one .Rm], dsts := [.one .Frd, .one .Fflags], fn := some fn_RiscVZfhCvtSh }] },
  { name := "fcvt_hs", phases := [{ srcs := [.one .Frs1, .one .Rm], dsts := [.one .Frd, .one .Fflags], fn := some fn_RiscVZfhCvtHs }] },
  { name := "fcvt_dh", phases := [{ srcs := [.one .Frs1, .one .Rm], dsts := [.one .Frd, .one .Fflags], fn := some fn_RiscVZfhCvtDh }] },
  { name := "fcvt_hd", phases := [{ srcs := [.one .Frs1, .one .Rm], dsts := [.one .Frd, .one .Fflags], fn := some fn_RiscVZfhCvtHd }] },
  { name := "flh", phases := [{ srcs := [.one .Rs1, .one .IImm12], dsts := [], fn := some rv32_RiscVILhu }, { srcs := [], dsts := [.one .Frd], fn := some fn_RiscVZfhFlhChild }] },
  { name := "fsh", phases := [{ srcs := [.one .Rs1, .one .SImm12, .one .Frs2], dsts := [], fn := some rv32_RiscVISh }] },
  { name := "fmv_xh", phases := [{ srcs := [.one .Frs1], dsts := [.one .Rd], fn := some rv32_RiscVZfhFMvxh }] },
  { name := "fmv_hx", phases := [{ srcs := [.one .Rs1], dsts := [.one .Frd], fn := some rv32_RiscVZfhFMvhx }] },
  { name := "fcvt_hw", phases := [{ srcs := [.one .Rs1, .one .Rm], dsts := [.one .Frd, .one .Fflags], fn := some fn_RiscVZfhCvtHw }] },
  { name := "fcvt_hwu", phases := [{ srcs := [.one .Rs1, .one .Rm], dsts := [.one .Frd, .one .Fflags], fn := some fn_RiscVZfhCvtHwu }] },
  { name := "fadd_h", phases := [{ srcs := [.one .Frs1, .one .Frs2, .one .Rm], dsts := [.one .Frd, .one .Fflags], fn := some fn_RiscVZfhFadd }] },
  { name := "fsub_h", phases := [{ srcs := [.one .Frs1, .one .Frs2, .one .Rm], dsts := [.one .Frd, .one .Fflags], fn := some fn_RiscVZfhFsub }] },
  { name := "fmul_h", phases := [{ srcs := [.one .Frs1, .one .Frs2, .one .Rm], dsts := [.one .Frd, .one .Fflags], fn := some fn_RiscVZfhFmul }] },
  { name := "fdiv_h", phases := [{ srcs := [.one .Frs1, .one .Frs2, .one .Rm], dsts := [.one .Frd, .one .Fflags], fn := some fn_RiscVZfhFdiv }] },
  { name := "fmin_h", phases := [{ srcs := [.one .Frs1, .one .Frs2], dsts := [.one .Frd, .one .Fflags], fn := some fn_RiscVZfhFmin }] },
  { name := "fmax_h", phases := [{ srcs := [.one .Frs1, .one .Frs2], dsts := [.one .Frd, .one .Fflags], fn := some fn_RiscVZfhFmax }] },
  { name := "fsqrt_h", phases := [{ srcs := [.one .Frs1, .one .Rm], dsts := [.one .Frd, .one .Fflags], fn := some fn_RiscVZfhFsqrt }] },
  { name := "fsgnj_h", phases := [{ srcs := [.one .Frs1, .one .Frs2], dsts := [.one .Frd], fn := some fn_RiscVZfhFsgnj }] },
  { name := "fsgnjn_h", phases := [{ srcs := [.one .Frs1, .one .Frs2], dsts := [.one .Frd], fn := some fn_RiscVZfhFsgnjn }] },
  { name := "fsgnjx_h", phases := [{ srcs := [.one .Frs1, .one .Frs2], dsts := [.one .Frd], fn := some fn_RiscVZfhFsgnjx }] },
  { name := "fmadd_h", phases := [{ srcs := [.one .Frs1, .one .Frs2, .one .Frs3, .one .Rm], dsts := [.one .Frd, .one .Fflags], fn := some fn_RiscVZfhFmadd }] },
  { name := "fmsub_h", phases := [{ srcs := [.one .Frs1, .one .Frs2, .one .Frs3, .one .Rm], dsts := [.one .Frd, .one .Fflags], fn := some fn_RiscVZfhFmsub }] },
  { name := "fnmadd_h", phases := [{ srcs := [.one .Frs1, .one .Frs2, .one .Frs3, .one .Rm], dsts := [.one .Frd, .one .Fflags], fn := some fn_RiscVZfhFnmadd }] },
  { name := "fnmsub_h", phases := [{ srcs := [.one .Frs1, .one .Frs2, .one .Frs3, .one .Rm], dsts := [.one .Frd, .one .Fflags], fn := some fn_RiscVZfhFnmsub }] },
  { name := "fcvt_wh", phases := [{ srcs := [.one .Frs1, .one .Rm], dsts := [.one .Rd, .one .Fflags], fn := some rv32_RiscVZfhCvtWh }] },
  { name := "fcvt_wuh", phases := [{ srcs := [.one .Frs1, .one .Rm], dsts := [.one .Rd, .one .Fflags], fn := some rv32_RiscVZfhCvtWuh }] },
  { name := "fcmpeq_h", phases := [{ srcs := [.one .Frs1, .one .Frs2], dsts := [.one .Rd, .one .Fflags], fn := some rv32_RiscVZfhFcmpeq }] },
  { name := "fcmplt_h", phases := [{ srcs := [.one .Frs1, .one .Frs2], dsts := [.one .Rd, .one .Fflags], fn := some rv32_RiscVZfhFcmplt }] },
  { name := "fcmple_h", phases := [{ srcs := [.one .Frs1, .one .Frs2], dsts := [.one .Rd, .one .Fflags], fn := some rv32_RiscVZfhFcmple }] },
  { name := "fclass_h", phases := [{ srcs := [.one .Frs1], dsts := [.one .Rd], fn := some rv32_RiscVZfhFclass }] }]

/-- Slot `riscv64_zfh` (riscv_zfh.isa:238-284). Inherited instructions are listed with the overrides applied. -/
def slot_riscv64_zfh : List Instr := [
  { name := "fcvt_sh", phases := [{ srcs := [.one .Frs1, .one .Rm], dsts := [.one .Frd, .one .Fflags], fn := some fn_RiscVZfhCvtSh }] },
  { name := "fcvt_hs", phases := [{ srcs := [.one .Frs1, .one .Rm], dsts := [.one .Frd, .one .Fflags], fn := some fn_RiscVZfhCvtHs }] },
  { name := "fcvt_dh", phases := [{ srcs := [.one .Frs1, .one .Rm], dsts := [.one .Frd, .one .Fflags], fn := some fn_RiscVZfhCvtDh }] },
  { name := "fcvt_hd", phases := [{ srcs := [.one .Frs1, .one .Rm], dsts := [.one .Frd, .one .Fflags], fn := some fn_RiscVZfhCvtHd }] },
  { name := "flh", phases := [{ srcs := [.one .Rs1, .one .IImm12], dsts := [], fn := some rv64_RiscVILhu }, { srcs := [], dsts := [.one .Frd], fn := some fn_RiscVZfhFlhChild }] },
  { name := "fsh", phases := [{ srcs := [.one .Rs1, .one .SImm12, .one .Frs2], dsts := [], fn := some rv64_RiscVISh }] },
  { name := "fmv_xh", phases := [{ srcs := [.one .Frs1], dsts := [.one .Rd], fn := some rv64_RiscVZfhFMvxh }] },
  { name := "fmv_hx", phases := [{ srcs := [.one .Rs1], dsts := [.one .Frd], fn := some rv64_RiscVZfhFMvhx }] },
  { name := "fcvt_hw", phases := [{ srcs := [.one .Rs1, .one .Rm], dsts := [.one .Frd, .one .Fflags], fn := some fn_RiscVZfhCvtHw }] },
  { name := "fcvt_hwu", phases := [{ srcs := [.one .Rs1, .one .Rm], dsts := [.one .Frd, .one .Fflags], fn := some fn_RiscVZfhCvtHwu }] },
  { name := "fadd_h", phases := [{ srcs := [.one .Frs1, .one .Frs2, .one .Rm], dsts := [.one .Frd, .one .Fflags], fn := some fn_RiscVZfhFadd }] },
  { name := "fsub_h", phases := [{ srcs := [.one .Frs1, .one .Frs2, .one .Rm], dsts := [.one .Frd, .one .Fflags], fn := some fn_RiscVZfhFsub }] },
  { name := "fmul_h", phases := [{ srcs := [.one .Frs1, .one .Frs2, .one .Rm], dsts := [.one .Frd, .one .Fflags], fn := some fn_RiscVZfhFmul }] },
  { name := "fdiv_h", phases := [{ srcs := [.one .Frs1, .one .Frs2, .one .Rm], dsts := [.one .Frd, .one .Fflags], fn := some fn_RiscVZfhFdiv }] },
  { name := "fmin_h", phases := [{ srcs := [.one .Frs1, .one .Frs2], dsts := [.one .Frd, .one .Fflags], fn := some fn_RiscVZfhFmin }] },
  { name := "fmax_h", phases := [{ srcs := [.one .Frs1, .one .Frs2], dsts := [.one .Frd, .one .Fflags], fn := some fn_RiscVZfhFmax }] },
  { name := "fsqrt_h", phases := [{ srcs := [.one .Frs1, .one .Rm], dsts := [.one .Frd, .one .Fflags], fn := some fn_RiscVZfhFsqrt }] },
  { name := "fsgnj_h", phases := [{ srcs := [.one .Frs1, .one .Frs2], dsts := [.one .Frd], fn := some fn_RiscVZfhFsgnj }] },
  { name := "fsgnjn_h", phases := [{ srcs := [.one .Frs1, .one .Frs2], dsts := [.one .Frd], fn := some fn_RiscVZfhFsgnjn }] },
  { name := "fsgnjx_h", phases := [{ srcs := [.one .Frs1, .one .Frs2], dsts := [.one .Frd], fn := some fn_RiscVZfhFsgnjx }] },
  { name := "fmadd_h", phases := [{ srcs := [.one .Frs1, .one .Frs2, .one .Frs3, .one .Rm], dsts := [.one .Frd, .one .Fflags], fn := some fn_RiscVZfhFmadd }] },
  { name := "fmsub_h", phases := [{ srcs := [.one .Frs1, .one .Frs2, .one .Frs3, .one .Rm], dsts := [.one .Frd, .one .Fflags], fn := some fn_RiscVZfhFmsub }] },
  { name := "fnmadd_h", phases := [{ srcs := [.one .Frs1, .one .Frs2, .one .Frs3, .one .Rm], dsts := [.one .Frd, .one .Fflags], fn := some fn_RiscVZfhFnmadd }] },
  { name := "fnmsub_h", phases := [{ srcs := [.one .Frs1, .one .Frs2, .one .Frs3, .one .Rm], dsts := [.one .Frd, .one .Fflags], fn := some fn_RiscVZfhFnmsub }] },
  { name := "fcvt_wh", phases := [{ srcs := [.one .Frs1, .one .Rm], dsts := [.one .Rd, .one .Fflags], fn := some rv64_RiscVZfhCvtWh }] },
  { name := "fcvt_wuh", phases := [{ srcs := [.one .Frs1, .one .Rm], dsts := [.one .Rd, .one .Fflags], fn := some rv64_RiscVZfhCvtWuh }] },
  { name := "fcmpeq_h", phases := [{ srcs := [.one .Frs1, .one .Frs2], dsts := [.one .Rd, .one .Fflags], fn := some rv64_RiscVZfhFcmpeq }] },
  { name := "fcmplt_h", phases := [{ srcs := [.one .Frs1, .one .Frs2], dsts := [.one .Rd, .one .Fflags], fn := some rv64_RiscVZfhFcmplt }] },
  { name := "fcmple_h", phases := [{ srcs := [.one .Frs1, .one .Frs2], dsts := [.one .Rd, .one .Fflags], fn := some rv64_RiscVZfhFcmple }] },
  { name := "fclass_h", phases := [{ srcs := [.one .Frs1], dsts := [.one .Rd], fn := some rv64_RiscVZfhFclass }] },
  { name := "fcvt_lh", phases := [{ srcs := [.one .Frs1, .one .Rm], dsts := [.one .Rd, .one .Fflags], fn := some rv64_RiscVZfhCvtLh }] },
  { name := "fcvt_luh", phases := [{ srcs := [.one .Frs1, .one .Rm], dsts := [.one .Rd, .one .Fflags], fn := some rv64_RiscVZfhCvtLuh }] },
  { name := "fcvt_hl", phases := [{ srcs := [.one .Rs1, .one .Rm], dsts := [.one .Frd, .one .Fflags], fn := some rv64_RiscVZfhCvtHl }] },
  { name := "fcvt_hlu", phases := [{ srcs := [.one .Rs1, .one .Rm], dsts := [.one .Frd, .one .Fflags], fn := some rv64_RiscVZfhCvtHlu }] }]

/-- Slot `riscv_zvbb` (riscv_zvbb.isa:70-98). Inherited instructions are listed with the overrides applied. -/
def slot_riscv_zvbb : List Instr := [
  { name := "vandn_vv", phases := [{ srcs := [.one .Vs2, .one .Vs1, .one .Vmask], dsts := [.one .Vd], fn := some fn_Vandn }] },
  { name := "vandn_vx", phases := [{ srcs := [.one .Vs2, .one .Rs1, .one .Vmask], dsts := [.one .Vd], fn := some fn_Vandn }] },
  { name := "vbrev8_v", phases := [{ srcs := [.one .Vs2, .one .Vmask], dsts := [.one .Vd], fn := some fn_Vbrev8 }] },
  { name := "vrev8_v", phases := [{ srcs := [.one .Vs2, .one .Vmask], dsts := [.one .Vd], fn := some fn_Vrev8 }] },
  { name := "vrol_vv", phases := [{ srcs := [.one .Vs2, .one .Vs1, .one .Vmask], dsts := [.one .Vd], fn := some fn_Vrol }] },
  { name := "vrol_vx", phases := [{ srcs := [.one .Vs2, .one .Rs1, .one .Vmask], dsts := [.one .Vd], fn := some fn_Vrol }] },
  { name := "vror_vv", phases := [{ srcs := [.one .Vs2, .one .Vs1, .one .Vmask], dsts := [.one .Vd], fn := some fn_Vror }] },
  { name := "vror_vx", phases := [{ srcs := [.one .Vs2, .one .Rs1, .one .Vmask], dsts := [.one .Vd], fn := some fn_Vror }] },
  { name := "vror_vi", phases := [{ srcs := [.one .Vs2, .one .Uimm6, .one .Vmask], dsts := [.one .Vd], fn := some fn_Vror }] },
  { name := "vbrev_v", phases := [{ srcs := [.one .Vs2, .one .Vmask], dsts := [.one .Vd], fn := some fn_Vbrev }] },
  { name := "vclz_v", phases := [{ srcs := [.one .Vs2, .one .Vmask], dsts := [.one .Vd], fn := some fn_Vclz }] },
  { name := "vctz_v", phases := [{ srcs := [.one .Vs2, .one .Vmask], dsts := [.one .Vd], fn := some fn_Vctz }] },
  { name := "vcpop_v", phases := [{ srcs := [.one .Vs2, .one .Vmask], dsts := [.one .Vd], fn := some fn_VectorVcpop }] },
  { name := "vwsll_vv", phases := [{ srcs := [.one .Vs2, .one .Vs1, .one .Vmask], dsts := [.one .Vd], fn := some fn_Vwsll }] },
  { name := "vwsll_vx", phases := [{ srcs := [.one .Vs2, .one .Rs1, .one .Vmask], dsts := [.one .Vd], fn := some fn_Vwsll }] },
  { name := "vwsll_vi", phases := [{ srcs := [.one .Vs2, .one .Uimm5, .one .Vmask], dsts := [.one .Vd], fn := some fn_Vwsll }] }]

/-- Slot `riscv32_zb` (riscv32zb.isa:25). -/
def slot_riscv32_zb : List Instr := slot_riscv32_zba ++ slot_riscv32_zbb ++ slot_riscv32_zbb_imm ++ slot_riscv32_zbc ++ slot_riscv32_zbs ++ slot_riscv32_zbs_imm

/-- Slot `riscv32_zicond` (riscv_zicond.isa:24-35). -/
def slot_riscv32_zicond : List Instr := [
  { name := "czero_eqz", phases := [{ srcs := [.one .Rs1, .one .Rs2], dsts := [.one .Rd], fn := some rv32_RiscVCzeroEqz }] },
  { name := "czero_nez", phases := [{ srcs := [.one .Rs1, .one .Rs2], dsts := [.one .Rd], fn := some rv32_RiscVCzeroNez }] }]

/-- Slot `riscv32_zimop` (riscv_zimop.isa:26-185). -/
def slot_riscv32_zimop : List Instr := [
  { name := "mop_r_0", phases := [{ srcs := [.one .Rs1], dsts := [.one .Rd], fn := some rv32_RiscVMop }] },
  { name := "mop_r_1", phases := [{ srcs := [.one .Rs1], dsts := [.one .Rd], fn := some rv32_RiscVMop }] },
  { name := "mop_r_2", phases := [{ srcs := [.one .Rs1], dsts := [.one .Rd], fn := some rv32_RiscVMop }] },
  { name := "mop_r_3", phases := [{ srcs := [.one .Rs1], dsts := [.one .Rd], fn := some rv32_RiscVMop }] },
  { name := "mop_r_4", phases := [{ srcs := [.one .Rs1], dsts := [.one .Rd], fn := some rv32_RiscVMop }] },
  { name := "mop_r_5", phases := [{ srcs := [.one .Rs1], dsts := [.one .Rd], fn := some rv32_RiscVMop }] },
  { name := "mop_r_6", phases := [{ srcs := [.one .Rs1], dsts := [.one .Rd], fn := some rv32_RiscVMop }] },
  { name := "mop_r_7", phases := [{ srcs := [.one .Rs1], dsts := [.one .Rd], fn := some rv32_RiscVMop }] },
  { name := "mop_r_8", phases := [{ srcs := [.one .Rs1], dsts := [.one .Rd], fn := some rv32_RiscVMop }] },
  { name := "mop_r_9", phases := [{ srcs := [.one .Rs1], dsts := [.one .Rd], fn := some rv32_RiscVMop }] },
  { name := "mop_r_10", phases := [{ srcs := [.one .Rs1], dsts := [.one .Rd], fn := some rv32_RiscVMop }] },
  { name := "mop_r_11", phases := [{ srcs := [.one .Rs1], dsts := [.one .Rd], fn := some rv32_RiscVMop }] },
  { name := "mop_r_12", phases := [{ srcs := [.one .Rs1], dsts := [.one .Rd], fn := some rv32_RiscVMop }] },
  { name := "mop_r_13", phases := [{ srcs := [.one .Rs1], dsts := [.one .Rd], fn := some rv32_RiscVMop }] },
  { name := "mop_r_14", phases := [{ srcs := [.one .Rs1], dsts := [.one .Rd], fn := some rv32_RiscVMop }] },
  { name := "mop_r_15", phases := [{ srcs := [.one .Rs1], dsts := [.one .Rd], fn := some rv32_RiscVMop }] },
  { name := "mop_r_16", phases := [{ srcs := [.one .Rs1], dsts := [.one .Rd], fn := some rv32_RiscVMop }] },
  { name := "mop_r_17", phases := [{ srcs := [.one .Rs1], dsts := [.one .Rd], fn := some rv32_RiscVMop }] },
  { name := "mop_r_18", phases := [{ srcs := [.one .Rs1], dsts := [.one .Rd], fn := some rv32_RiscVMop }] },
  { name := "mop_r_19", phases := [{ srcs := [.one .Rs1], dsts := [.one .Rd], fn := some rv32_RiscVMop }] },
  { name := "mop_r_20", phases := [{ srcs := [.one .Rs1], dsts := [.one .Rd], fn := some rv32_RiscVMop }] },
  { name := "mop_r_21", phases := [{ srcs := [.one .Rs1], dsts := [.one .Rd], fn := some rv32_RiscVMop }] },
  { name := "mop_r_22", phases := [{ srcs := [.one .Rs1], dsts := [.one .Rd], fn := some rv32_RiscVMop }] },
  { name := "mop_r_23", phases := [{ srcs := [.one .Rs1], dsts := [.one .Rd], fn := some rv32_RiscVMop }] },
  { name := "mop_r_24", phases := [{ srcs := [.one .Rs1], dsts := [.one .Rd], fn := some rv32_RiscVMop }] },
  { name := "mop_r_25", phases := [{ srcs := [.one .Rs1], dsts := [.one .Rd], fn := some rv32_RiscVMop }] },
  { name := "mop_r_26", phases := [{ srcs := [.one .Rs1], dsts := [.one .Rd], fn := some rv32_RiscVMop }] },
  { name := "mop_r_27", phases := [{ srcs := [.one .Rs1], dsts := [.one .Rd], fn := some rv32_RiscVMop }] },
  { name := "mop_r_28", phases := [{ srcs := [.one .Rs1], dsts := [.one .Rd], fn := some rv32_RiscVMop }] },
  { name := "mop_r_29", phases := [{ srcs := [.one .Rs1], dsts := [.one .Rd], fn := some rv32_RiscVMop }] },
  { name := "mop_r_30", phases := [{ srcs := [.one .Rs1], dsts := [.one .Rd], fn := some rv32_RiscVMop }] },
  { name := "mop_r_31", phases := [{ srcs := [.one .Rs1], dsts := [.one .Rd], fn := some rv32_RiscVMop }] },
  { name := "mop_rr_0", phases := [{ srcs := [.one .Rs1, .one .Rs2], dsts := [.one .Rd], fn := some rv32_RiscVMop }] },
  { name := "mop_rr_1", phases := [{ srcs := [.one .Rs1, .one .Rs2], dsts := [.one .Rd], fn := some rv32_RiscVMop }] },
  { name := "mop_rr_2", phases := [{ srcs := [.one .Rs1, .one .Rs2], dsts := [.one .Rd], fn := some rv32_RiscVMop }] },
  { name := "mop_rr_3", phases := [{ srcs := [.one .Rs1, .one .Rs2], dsts := [.one .Rd], fn := some rv32_RiscVMop }] },
  { name := "mop_rr_4", phases := [{ srcs := [.one .Rs1, .one .Rs2], dsts := [.one .Rd], fn := some rv32_RiscVMop }] },
  { name := "mop_rr_5", phases := [{ srcs := [.one .Rs1, .one .Rs2], dsts := [.one .Rd], fn := some rv32_RiscVMop }] },
  { name := "mop_rr_6", phases := [{ srcs := [.one .Rs1, .one .Rs2], dsts := [.one .Rd], fn := some rv32_RiscVMop }] },
  { name := "mop_rr_7", phases := [{ srcs := [.one .Rs1, .one .Rs2], dsts := [.one .Rd], fn := some rv32_RiscVMop }] }]

/-- Slot `riscv_zcmop` (riscv_zimop.isa:239-262). -/
def slot_riscv_zcmop : List Instr := [
  { name := "c_mop_1", phases := [{ srcs := [], dsts := [], fn := some fn_RiscVINop }] },
  { name := "c_mop_3", phases := [{ srcs := [], dsts := [], fn := some fn_RiscVINop }] },
  { name := "c_mop_5", phases := [{ srcs := [], dsts := [], fn := some fn_RiscVINop }] },
  { name := "c_mop_7", phases := [{ srcs := [], dsts := [], fn := some fn_RiscVINop }] },
  { name := "c_mop_9", phases := [{ srcs := [], dsts := [], fn := some fn_RiscVINop }] },
  { name := "c_mop_11", phases := [{ srcs := [], dsts := [], fn := some fn_RiscVINop }] },
  { name := "c_mop_13", phases := [{ srcs := [], dsts := [], fn := some fn_RiscVINop }] },
  { name := "c_mop_15", phases := [{ srcs := [], dsts := [], fn := some fn_RiscVINop }] }]

/-- Slot `riscv_zhintpause` (riscv_zhintpause.isa:21-24). -/
def slot_riscv_zhintpause : List Instr := [
  { name := "pause", phases := [{ srcs := [], dsts := [], fn := some fn_RiscVPause }] }]

/-- Slot `riscv_zihintntl` (riscv_zihintntl.isa:21-33). -/
def slot_riscv_zihintntl : List Instr := [
  { name := "ntl_p1", phases := [{ srcs := [], dsts := [], fn := some fn_RiscVNtlP1 }] },
  { name := "ntl_pall", phases := [{ srcs := [], dsts := [], fn := some fn_RiscVNtlPall }] },
  { name := "ntl_s1", phases := [{ srcs := [], dsts := [], fn := some fn_RiscVNtlS1 }] },
  { name := "ntl_all", phases := [{ srcs := [], dsts := [], fn := some fn_RiscVNtlAll }] }]

/-- Slot `riscv_czihintntl` (riscv_zihintntl.isa:39-51). -/
def slot_riscv_czihintntl : List Instr := [
  { name := "c_ntl_p1", phases := [{ srcs := [], dsts := [], fn := some fn_RiscVNtlP1 }] },
  { name := "c_ntl_pall", phases := [{ srcs := [], dsts := [], fn := some fn_RiscVNtlPall }] },
  { name := "c_ntl_s1", phases := [{ srcs := [], dsts := [], fn := some fn_RiscVNtlS1 }] },
  { name := "c_ntl_all", phases := [{ srcs := [], dsts := [], fn := some fn_RiscVNtlAll }] }]

/-- Slot `riscv_zca32` (riscv_zc.isa:20-130). -/
def slot_riscv_zca32 : List Instr := [
  { name := "clwsp", phases := [{ srcs := [.one .X2, .one .ICiUimm6x4], dsts := [], fn := some rv32_RiscVILw }, { srcs := [], dsts := [.one .Rd], fn := some rv32_RiscVILwChild }] },
  { name := "cswsp", phases := [{ srcs := [.one .X2, .one .ICssUimm6x4, .one .Crs2], dsts := [], fn := some rv32_RiscVISw }] },
  { name := "clw", phases := [{ srcs := [.one .C3rs1, .one .IClUimm5x4], dsts := [], fn := some rv32_RiscVILw }, { srcs := [], dsts := [.one .C3rd], fn := some rv32_RiscVILwChild }] },
  { name := "csw", phases := [{ srcs := [.one .C3rs1, .one .IClUimm5x4, .one .C3rs2], dsts := [], fn := some rv32_RiscVISw }] },
  { name := "cj", phases := [{ srcs := [.one .ICjImm11, .one .X0], dsts := [.one .NextPc, .one .X0], fn := some rv32_RiscVIJal }] },
  { name := "cjal", phases := [{ srcs := [.one .ICjImm11, .one .X0], dsts := [.one .NextPc, .one .X1], fn := some rv32_RiscVIJal }] },
  { name := "cjr", phases := [{ srcs := [.one .Crs1, .one .X0], dsts := [.one .NextPc, .one .X0], fn := some rv32_RiscVIJalr }] },
  { name := "cjalr", phases := [{ srcs := [.one .Crs1, .one .X0], dsts := [.one .NextPc, .one .X1], fn := some rv32_RiscVIJalr }] },
  { name := "cbeqz", phases := [{ srcs := [.one .C3rs1, .one .X0, .one .ICbImm8], dsts := [.one .NextPc], fn := some rv32_RiscVIBeq }] },
  { name := "cbnez", phases := [{ srcs := [.one .C3rs1, .one .X0, .one .ICbImm8], dsts := [.one .NextPc], fn := some rv32_RiscVIBne }] },
  { name := "cli", phases := [{ srcs := [.one .X0, .one .ICiImm6], dsts := [.one .Rd], fn := some rv32_RiscVIAdd }] },
  { name := "clui", phases := [{ srcs := [.one .ICiImm612], dsts := [.one .Rd], fn := some rv32_RiscVILui }] },
  { name := "caddi", phases := [{ srcs := [.one .Rd, .one .ICiImm6], dsts := [.one .Rd], fn := some rv32_RiscVIAdd }] },
  { name := "caddi16sp", phases := [{ srcs := [.one .X2, .one .ICiImm6x16], dsts := [.one .X2], fn := some rv32_RiscVIAdd }] },
  { name := "caddi4spn", phases := [{ srcs := [.one .X2, .one .ICiwUimm8x4], dsts := [.one .C3rd], fn := some rv32_RiscVIAdd }] },
  { name := "cslli", phases := [{ srcs := [.one .Rd, .one .ICiUimm6], dsts := [.one .Rd], fn := some rv32_RiscVISll }] },
  { name := "csrli", phases := [{ srcs := [.one .C3rs1, .one .ICiUimm6], dsts := [.one .C3rs1], fn := some rv32_RiscVISrl }] },
  { name := "csrai", phases := [{ srcs := [.one .C3rs1, .one .ICiUimm6], dsts := [.one .C3rs1], fn := some rv32_RiscVISra }] },
  { name := "candi", phases := [{ srcs := [.one .C3rs1, .one .ICiImm6], dsts := [.one .C3rs1], fn := some rv32_RiscVIAnd }] },
  { name := "cmv", phases := [{ srcs := [.one .Crs2, .one .X0], dsts := [.one .Crd], fn := some rv32_RiscVIAdd }] },
  { name := "cadd", phases := [{ srcs := [.one .Crs2, .one .Crd], dsts := [.one .Crd], fn := some rv32_RiscVIAdd }] },
  { name := "cand", phases := [{ srcs := [.one .C3rs1, .one .C3rs2], dsts := [.one .C3rs1], fn := some rv32_RiscVIAnd }] },
  { name := "cor", phases := [{ srcs := [.one .C3rs1, .one .C3rs2], dsts := [.one .C3rs1], fn := some rv32_RiscVIOr }] },
  { name := "cxor", phases := [{ srcs := [.one .C3rs1, .one .C3rs2], dsts := [.one .C3rs1], fn := some rv32_RiscVIXor }] },
  { name := "csub", phases := [{ srcs := [.one .C3rs1, .one .C3rs2], dsts := [.one .C3rs1], fn := some rv32_RiscVISub }] },
  { name := "cnop", phases := [{ srcs := [], dsts := [], fn := some fn_RiscVINop }] },
  { name := "cebreak", phases := [{ srcs := [], dsts := [], fn := some fn_RiscVIEbreak }] }]

/-- Slot `riscv_zcb32` (riscv_zc.isa:247-293). -/
def slot_riscv_zcb32 : List Instr := [
  { name := "c_lbu", phases := [{ srcs := [.one .C3rs1, .one .Uimm2b], dsts := [], fn := some rv32_RiscVILbu }, { srcs := [], dsts := [.one .C3rs2], fn := some rv32_RiscVILbuChild }] },
  { name := "c_lhu", phases := [{ srcs := [.one .C3rs1, .one .Uimm2h], dsts := [], fn := some rv32_RiscVILhu }, { srcs := [], dsts := [.one .C3rs2], fn := some rv32_RiscVILhuChild }] },
  { name := "c_lh", phases := [{ srcs := [.one .C3rs1, .one .Uimm2h], dsts := [], fn := some rv32_RiscVILh }, { srcs := [], dsts := [.one .C3rs2], fn := some rv32_RiscVILhChild }] },
  { name := "c_sb", phases := [{ srcs := [.one .C3rs1, .one .Uimm2b, .one .C3rs2], dsts := [], fn := some rv32_RiscVISb }] },
  { name := "c_sh", phases := [{ srcs := [.one .C3rs1, .one .Uimm2h, .one .C3rs2], dsts := [], fn := some rv32_RiscVISh }] },
  { name := "c_zext_b", phases := [{ srcs := [.one .C3rs1], dsts := [.one .C3rd], fn := some rv32_RiscVZextB }] },
  { name := "c_sext_b", phases := [{ srcs := [.one .C3rs1], dsts := [.one .C3rd], fn := some rv32_RiscVSextB }] },
  { name := "c_zext_h", phases := [{ srcs := [.one .C3rs1], dsts := [.one .C3rd], fn := some rv32_RiscVZextH }] },
  { name := "c_sext_h", phases := [{ srcs := [.one .C3rs1], dsts := [.one .C3rd], fn := some rv32_RiscVSextH }] },
  { name := "c_not", phases := [{ srcs := [.one .C3rs1], dsts := [.one .C3rd], fn := some rv32_RiscVNot }] },
  { name := "c_mul", phases := [{ srcs := [.one .C3rs1, .one .C3rs2], dsts := [.one .C3rd], fn := some rv32_MMul }] }]

/-- Slot `riscv_zcf32` (riscv_zc.isa:171-189). -/
def slot_riscv_zcf32 : List Instr := [
  { name := "cflwsp", phases := [{ srcs := [.one .X2, .one .ICiUimm6x4], dsts := [], fn := some rv32_RiscVILw }, { srcs := [], dsts := [.one .Frd], fn := some rv32_RiscVILwChild }] },
  { name := "cfswsp", phases := [{ srcs := [.one .X2, .one .ICssUimm6x4, .one .Cfrs2], dsts := [], fn := some rv32_RiscVISw }] },
  { name := "cflw", phases := [{ srcs := [.one .C3rs1, .one .IClUimm5x4], dsts := [], fn := some rv32_RiscVILw }, { srcs := [], dsts := [.one .C3frd], fn := some rv32_RiscVILwChild }] },
  { name := "cfsw", phases := [{ srcs := [.one .C3rs1, .one .IClUimm5x4, .one .C3frs2], dsts := [], fn := some rv32_RiscVISw }] }]

/-- Slot `riscv_zcmp32` (riscv_zc.isa:324-350). -/
def slot_riscv_zcmp32 : List Instr := [
  { name := "cm_push", phases := [{ srcs := [.one .X2, .other "spimm6", .one .Rlist, .regs], dsts := [.one .X2], fn := some rv32_RiscVZCmpPush }] },
  { name := "cm_pop", phases := [{ srcs := [.one .X2, .other "spimm6", .one .Rlist], dsts := [.one .X2, .regs], fn := some rv32_RiscVZCmpPop }] },
  { name := "cm_popret", phases := [{ srcs := [.one .X2, .other "spimm6", .one .Rlist], dsts := [.one .X2, .regs], fn := some rv32_RiscVZCmpPopRet }] },
  { name := "cm_popretz", phases := [{ srcs := [.one .X2, .other "spimm6", .one .Rlist], dsts := [.one .X2, .regs], fn := some rv32_RiscVZCmpPopRetz }] },
  { name := "cm_mvsa01", phases := [{ srcs := [.one .X10, .one .X11], dsts := [.one .Sreg1, .one .Sreg2], fn := some rv32_RiscVZCmpMvTwoRegs }] },
  { name := "cm_mva01s", phases := [{ srcs := [.one .Sreg1, .one .Sreg2], dsts := [.one .X10, .one .X11], fn := some rv32_RiscVZCmpMvTwoRegs }] }]

/-- Slot `riscv_zcmt32` (riscv_zc.isa:390-400). -/
def slot_riscv_zcmt32 : List Instr := [
  { name := "cm_jt", phases := [{ srcs := [.other "index"], dsts := [.one .NextPc], fn := some rv32_RiscVZCmtJt }] },
  { name := "cm_jalt", phases := [{ srcs := [.other "index"], dsts := [.one .NextPc, .one .X1], fn := some rv32_RiscVZCmtJalt }] }]

/-- Slot `riscv_zicbop32` (riscv_zicbop.isa:17-31). -/
def slot_riscv_zicbop32 : List Instr := [
  { name := "prefetch_i", phases := [{ srcs := [.one .Rs1, .other "bop_uimm12"], dsts := [], fn := some rv32_RiscVPrefetchI }] },
  { name := "prefetch_r", phases := [{ srcs := [.one .Rs1, .other "bop_uimm12"], dsts := [], fn := some rv32_RiscVPrefetchR }] },
  { name := "prefetch_w", phases := [{ srcs := [.one .Rs1, .other "bop_uimm12"], dsts := [], fn := some rv32_RiscVPrefetchW }] }]

/-- Slot `rvm23` (rvm23.isa:32). -/
def slot_rvm23 : List Instr := slot_riscv32i ++ slot_riscv32m ++ slot_riscv32_amo_arithmetic ++ slot_riscv32f ++ slot_riscv32d ++ slot_riscv32_hints ++ slot_zicsr ++ slot_zfencei ++ slot_privileged ++ slot_riscv_vector ++ slot_riscv32_zb ++ slot_riscv32_zicond ++ slot_riscv32_zimop ++ slot_riscv_zcmop ++ slot_riscv_zhintpause ++ slot_riscv_zihintntl ++ slot_riscv_czihintntl ++ slot_riscv_zca32 ++ slot_riscv_zcb32 ++ slot_riscv_zcf32 ++ slot_riscv_zcmp32 ++ slot_riscv_zcmt32 ++ slot_riscv_zicbop32

/-- Slot `riscv_zcmp64` (riscv_zc.isa:357-383). -/
def slot_riscv_zcmp64 : List Instr := [
  { name := "cm_push", phases := [{ srcs := [.one .X2, .other "spimm6", .one .Rlist, .regs], dsts := [.one .X2], fn := some rv64_RiscVZCmpPush }] },
  { name := "cm_pop", phases := [{ srcs := [.one .X2, .other "spimm6", .one .Rlist], dsts := [.regs, .one .X2], fn := some rv64_RiscVZCmpPop }] },
  { name := "cm_popret", phases := [{ srcs := [.one .X2, .other "spimm6", .one .Rlist, .one .X1], dsts := [.regs, .one .X2, .one .NextPc], fn := some rv64_RiscVZCmpPopRet }] },
  { name := "cm_popretz", phases := [{ srcs := [.one .X2, .other "spimm6", .one .Rlist, .one .X1], dsts := [.regs, .one .X2, .one .X10, .one .NextPc], fn := some rv64_RiscVZCmpPopRetz }] },
  { name := "cm_mvsa01", phases := [{ srcs := [.one .X10, .one .X11], dsts := [.one .Sreg1, .one .Sreg2], fn := some rv64_RiscVZCmpMvTwoRegs }] },
  { name := "cm_mva01s", phases := [{ srcs := [.one .Sreg1, .one .Sreg2], dsts := [.one .X10, .one .X11], fn := some rv64_RiscVZCmpMvTwoRegs }] }]

/-- Slot `riscv_zca64` (riscv_zc.isa:137-167). Inherited instructions are listed with the overrides applied. -/
def slot_riscv_zca64 : List Instr := [
  { name := "clwsp", phases := [{ srcs := [.one .X2, .one .ICiUimm6x4], dsts := [], fn := some rv64_RiscVILw }, { srcs := [], dsts := [.one .Rd], fn := some rv64_RiscVILwChild }] },
  { name := "cswsp", phases := [{ srcs := [.one .X2, .one .ICssUimm6x4, .one .Crs2], dsts := [], fn := some rv64_RiscVISw }] },
  { name := "clw", phases := [{ srcs := [.one .C3rs1, .one .IClUimm5x4], dsts := [], fn := some rv64_RiscVILw }, { srcs := [], dsts := [.one .C3rd], fn := some rv64_RiscVILwChild }] },
  { name := "csw", phases := [{ srcs := [.one .C3rs1, .one .IClUimm5x4, .one .C3rs2], dsts := [], fn := some rv64_RiscVISw }] },
  { name := "cj", phases := [{ srcs := [.one .ICjImm11, .one .X0], dsts := [.one .NextPc, .one .X0], fn := some rv64_RiscVIJal }] },
  { name := "cjal", phases := [{ srcs := [.one .ICjImm11, .one .X0], dsts := [.one .NextPc, .one .X1], fn := some rv64_RiscVIJal }] },
  { name := "cjr", phases := [{ srcs := [.one .Crs1, .one .X0], dsts := [.one .NextPc, .one .X0], fn := some rv64_RiscVIJalr }] },
  { name := "cjalr", phases := [{ srcs := [.one .Crs1, .one .X0], dsts := [.one .NextPc, .one .X1], fn := some rv64_RiscVIJalr }] },
  { name := "cbeqz", phases := [{ srcs := [.one .C3rs1, .one .X0, .one .ICbImm8], dsts := [.one .NextPc], fn := some rv64_RiscVIBeq }] },
  { name := "cbnez", phases := [{ srcs := [.one .C3rs1, .one .X0, .one .ICbImm8], dsts := [.one .NextPc], fn := some rv64_RiscVIBne }] },
  { name := "cli", phases := [{ srcs := [.one .X0, .one .ICiImm6], dsts := [.one .Rd], fn := some rv64_RiscVIAdd }] },
  { name := "clui", phases := [{ srcs := [.one .ICiImm612], dsts := [.one .Rd], fn := some rv64_RiscVILui }] },
  { name := "caddi", phases := [{ srcs := [.one .Rd, .one .ICiImm6], dsts := [.one .Rd], fn := some rv64_RiscVIAdd }] },
  { name := "caddi16sp", phases := [{ srcs := [.one .X2, .one .ICiImm6x16], dsts := [.one .X2], fn := some rv64_RiscVIAdd }] },
  { name := "caddi4spn", phases := [{ srcs := [.one .X2, .one .ICiwUimm8x4], dsts := [.one .C3rd], fn := some rv64_RiscVIAdd }] },
  { name := "cslli", phases := [{ srcs := [.one .Rd, .one .ICiUimm6], dsts := [.one .Rd], fn := some rv64_RiscVISll }] },
  { name := "csrli", phases := [{ srcs := [.one .C3rs1, .one .ICiUimm6], dsts := [.one .C3rs1], fn := some rv64_RiscVISrl }] },
  { name := "csrai", phases := [{ srcs := [.one .C3rs1, .one .ICiUimm6], dsts := [.one .C3rs1], fn := some rv64_RiscVISra }] },
  { name := "candi", phases := [{ srcs := [.one .C3rs1, .one .ICiImm6], dsts := [.one .C3rs1], fn := some rv64_RiscVIAnd }] },
  { name := "cmv", phases := [{ srcs := [.one .Crs2, .one .X0], dsts := [.one .Crd], fn := some rv64_RiscVIAdd }] },
  { name := "cadd", phases := [{ srcs := [.one .Crs2, .one .Crd], dsts := [.one .Crd], fn := some rv64_RiscVIAdd }] },
  { name := "cand", phases := [{ srcs := [.one .C3rs1, .one .C3rs2], dsts := [.one .C3rs1], fn := some rv64_RiscVIAnd }] },
  { name := "cor", phases := [{ srcs := [.one .C3rs1, .one .C3rs2], dsts := [.one .C3rs1], fn := some rv64_RiscVIOr }] },
  { name := "cxor", phases := [{ srcs := [.one .C3rs1, .one .C3rs2], dsts := [.one .C3rs1], fn := some rv64_RiscVIXor }] },
  { name := "csub", phases := [{ srcs := [.one .C3rs1, .one .C3rs2], dsts := [.one .C3rs1], fn := some rv64_RiscVISub }] },
  { name := "cnop", phases := [{ srcs := [], dsts := [], fn := some fn_RiscVINop }] },
  { name := "cebreak", phases := [{ srcs := [], dsts := [], fn := some fn_RiscVIEbreak }] }]

/-- Slot `riscv_zcd32` (riscv_zc.isa:209-227). -/
def slot_riscv_zcd32 : List Instr := [
  { name := "cfldsp", phases := [{ srcs := [.one .X2, .one .ICiUimm6x8], dsts := [], fn := some rv64_RiscVILd }, { srcs := [], dsts := [.one .Drd], fn := some rv64_RiscVILdChild }] },
  { name := "cfsdsp", phases := [{ srcs := [.one .X2, .one .ICssUimm6x8, .one .Cdrs2], dsts := [], fn := some rv64_RiscVISd }] },
  { name := "cfld", phases := [{ srcs := [.one .C3rs1, .one .IClUimm5x8], dsts := [], fn := some rv64_RiscVILd }, { srcs := [], dsts := [.one .C3drd], fn := some rv64_RiscVILdChild }] },
  { name := "cfsd", phases := [{ srcs := [.one .C3rs1, .one .IClUimm5x8, .one .C3drs2], dsts := [], fn := some rv32_RiscVDSd }] }]

/-- Slot `riscv_zve32x` (riscv_vector.isa:1405-2418). -/
def slot_riscv_zve32x : List Instr := [
  { name := "vsetvli_xn", phases := [{ srcs := [.one .Rs1, .one .Zimm11], dsts := [.one .Rd], fn := some fn_Vsetvl, args := [0, 0] }] },
  { name := "vsetvli_nz", phases := [{ srcs := [.one .Rs1, .one .Zimm11], dsts := [.one .Rd], fn := some fn_Vsetvl, args := [0, 1] }] },
  { name := "vsetvli_zz", phases := [{ srcs := [.one .Rs1, .one .Zimm11], dsts := [.one .Rd], fn := some fn_Vsetvl, args := [1, 1] }] },
  { name := "vsetivli", phases := [{ srcs := [.one .Uimm5, .one .Zimm10], dsts := [.one .Rd], fn := some fn_Vsetvl, args := [0, 0] }] },
  { name := "vsetvl_xn", phases := [{ srcs := [.one .Rs1, .one .Rs2], dsts := [.one .Rd], fn := some fn_Vsetvl, args := [0, 0] }] },
  { name := "vsetvl_nz", phases := [{ srcs := [.one .Rs1, .one .Rs2], dsts := [.one .Rd], fn := some fn_Vsetvl, args := [0, 1] }] },
  { name := "vsetvl_zz", phases := [{ srcs := [.one .Rs1, .one .Rs2], dsts := [.one .Rd], fn := some fn_Vsetvl, args := [1, 1] }] },
  { name := "vle8", phases := [{ srcs := [.one .Rs1, .one .Const1, .one .Vmask], dsts := [], fn := some fn_VlStrided, args := [1] }, { srcs := [], dsts := [.one .Vd], fn := some fn_VlChild }] },
  { name := "vle16", phases := [{ srcs := [.one .Rs1, .one .Const2, .one .Vmask], dsts := [], fn := some fn_VlStrided, args := [2] }, { srcs := [], dsts := [.one .Vd], fn := some fn_VlChild }] },
  { name := "vle32", phases := [{ srcs := [.one .Rs1, .one .Const4, .one .Vmask], dsts := [], fn := some fn_VlStrided, args := [4] }, { srcs := [], dsts := [.one .Vd], fn := some fn_VlChild }] },
  { name := "vle8_vm1", phases := [{ srcs := [.one .Rs1, .one .Const1, .one .VmaskTrue], dsts := [], fn := some fn_VlStrided, args := [1] }, { srcs := [], dsts := [.one .Vd], fn := some fn_VlChild }] },
  { name := "vle16_vm1", phases := [{ srcs := [.one .Rs1, .one .Const2, .one .VmaskTrue], dsts := [], fn := some fn_VlStrided, args := [2] }, { srcs := [], dsts := [.one .Vd], fn := some fn_VlChild }] },
  { name := "vle32_vm1", phases := [{ srcs := [.one .Rs1, .one .Const4, .one .VmaskTrue], dsts := [], fn := some fn_VlStrided, args := [4] }, { srcs := [], dsts := [.one .Vd], fn := some fn_VlChild }] },
  { name := "vlse8", phases := [{ srcs := [.one .Rs1, .one .Rs2, .one .Vmask], dsts := [], fn := some fn_VlStrided, args := [1] }, { srcs := [], dsts := [.one .Vd], fn := some fn_VlChild }] },
  { name := "vlse16", phases := [{ srcs := [.one .Rs1, .one .Rs2, .one .Vmask], dsts := [], fn := some fn_VlStrided, args := [2] }, { srcs := [], dsts := [.one .Vd], fn := some fn_VlChild }] },
  { name := "vlse32", phases := [{ srcs := [.one .Rs1, .one .Rs2, .one .Vmask], dsts := [], fn := some fn_VlStrided, args := [4] }, { srcs := [], dsts := [.one .Vd], fn := some fn_VlChild }] },
  { name := "vlm", phases := [{ srcs := [.one .Rs1, .one .Const1, .one .VmaskTrue], dsts := [], fn := some fn_Vlm }, { srcs := [], dsts := [.one .Vd], fn := some fn_VlChild }] },
  { name := "vle8ff", phases := [{ srcs := [.one .Rs1, .one .Const1, .one .Vmask], dsts := [], fn := some fn_VlStrided, args := [1] }, { srcs := [], dsts := [.one .Vd], fn := some fn_VlChild }] },
  { name := "vle16ff", phases := [{ srcs := [.one .Rs1, .one .Const2, .one .Vmask], dsts := [], fn := some fn_VlStrided, args := [2] }, { srcs := [], dsts := [.one .Vd], fn := some fn_VlChild }] },
  { name := "vle32ff", phases := [{ srcs := [.one .Rs1, .one .Const4, .one .Vmask], dsts := [], fn := some fn_VlStrided, args := [4] }, { srcs := [], dsts := [.one .Vd], fn := some fn_VlChild }] },
  { name := "vl1re8", phases := [{ srcs := [.one .Rs1], dsts := [], fn := some fn_VlRegister, args := [1, 1] }, { srcs := [], dsts := [.one .Vd], fn := some fn_VlChild }] },
  { name := "vl1re16", phases := [{ srcs := [.one .Rs1], dsts := [], fn := some fn_VlRegister, args := [1, 2] }, { srcs := [], dsts := [.one .Vd], fn := some fn_VlChild }] },
  { name := "vl1re32", phases := [{ srcs := [.one .Rs1], dsts := [], fn := some fn_VlRegister, args := [1, 4] }, { srcs := [], dsts := [.one .Vd], fn := some fn_VlChild }] },
  { name := "vl2re8", phases := [{ srcs := [.one .Rs1], dsts := [], fn := some fn_VlRegister, args := [2, 1] }, { srcs := [], dsts := [.one .Vd], fn := some fn_VlChild }] },
  { name := "vl2re16", phases := [{ srcs := [.one .Rs1], dsts := [], fn := some fn_VlRegister, args := [2, 2] }, { srcs := [], dsts := [.one .Vd], fn := some fn_VlChild }] },
  { name := "vl2re32", phases := [{ srcs := [.one .Rs1], dsts := [], fn := some fn_VlRegister, args := [2, 4] }, { srcs := [], dsts := [.one .Vd], fn := some fn_VlChild }] },
  { name := "vl4re8", phases := [{ srcs := [.one .Rs1], dsts := [], fn := some fn_VlRegister, args := [4, 1] }, { srcs := [], dsts := [.one .Vd], fn := some fn_VlChild }] },
  { name := "vl4re16", phases := [{ srcs := [.one .Rs1], dsts := [], fn := some fn_VlRegister, args := [4, 2] }, { srcs := [], dsts := [.one .Vd], fn := some fn_VlChild }] },
  { name := "vl4re32", phases := [{ srcs := [.one .Rs1], dsts := [], fn := some fn_VlRegister, args := [4, 4] }, { srcs := [], dsts := [.one .Vd], fn := some fn_VlChild }] },
  { name := "vl8re8", phases := [{ srcs := [.one .Rs1], dsts := [], fn := some fn_VlRegister, args := [8, 1] }, { srcs := [], dsts := [.one .Vd], fn := some fn_VlChild }] },
  { name := "vl8re16", phases := [{ srcs := [.one .Rs1], dsts := [], fn := some fn_VlRegister, args := [8, 2] }, { srcs := [], dsts := [.one .Vd], fn := some fn_VlChild }] },
  { name := "vl8re32", phases := [{ srcs := [.one .Rs1], dsts := [], fn := some fn_VlRegister, args := [8, 4] }, { srcs := [], dsts := [.one .Vd], fn := some fn_VlChild }] },
  { name := "vluxei8", phases := [{ srcs := [.one .Rs1, .one .Vs2, .one .Vmask], dsts := [], fn := some fn_VlIndexed, args := [1] }, { srcs := [], dsts := [.one .Vd], fn := some fn_VlChild }] },
  { name := "vluxei16", phases := [{ srcs := [.one .Rs1, .one .Vs2, .one .Vmask], dsts := [], fn := some fn_VlIndexed, args := [2] }, { srcs := [], dsts := [.one .Vd], fn := some fn_VlChild }] },
  { name := "vluxei32", phases := [{ srcs := [.one .Rs1, .one .Vs2, .one .Vmask], dsts := [], fn := some fn_VlIndexed, args := [4] }, { srcs := [], dsts := [.one .Vd], fn := some fn_VlChild }] },
  { name := "vloxei8", phases := [{ srcs := [.one .Rs1, .one .Vs2, .one .Vmask], dsts := [], fn := some fn_VlIndexed, args := [1] }, { srcs := [], dsts := [.one .Vd], fn := some fn_VlChild }] },
  { name := "vloxei16", phases := [{ srcs := [.one .Rs1, .one .Vs2, .one .Vmask], dsts := [], fn := some fn_VlIndexed, args := [2] }, { srcs := [], dsts := [.one .Vd], fn := some fn_VlChild }] },
  { name := "vloxei32", phases := [{ srcs := [.one .Rs1, .one .Vs2, .one .Vmask], dsts := [], fn := some fn_VlIndexed, args := [4] }, { srcs := [], dsts := [.one .Vd], fn := some fn_VlChild }] },
  { name := "vlsege8", phases := [{ srcs := [.one .Rs1, .one .Vmask, .one .Nf], dsts := [], fn := some fn_VlSegment, args := [1] }, { srcs := [.one .Nf], dsts := [.one .Vd], fn := some fn_VlSegmentChild, args := [1] }] },
  { name := "vlsege16", phases := [{ srcs := [.one .Rs1, .one .Vmask, .one .Nf], dsts := [], fn := some fn_VlSegment, args := [2] }, { srcs := [.one .Nf], dsts := [.one .Vd], fn := some fn_VlSegmentChild, args := [2] }] },
  { name := "vlsege32", phases := [{ srcs := [.one .Rs1, .one .Vmask, .one .Nf], dsts := [], fn := some fn_VlSegment, args := [4] }, { srcs := [.one .Nf], dsts := [.one .Vd], fn := some fn_VlSegmentChild, args := [4] }] },
  { name := "vlssege8", phases := [{ srcs := [.one .Rs1, .one .Rs2, .one .Vmask, .one .Nf], dsts := [], fn := some fn_VlSegmentStrided, args := [1] }, { srcs := [.one .Nf], dsts := [.one .Vd], fn := some fn_VlSegmentChild, args := [1] }] },
  { name := "vlssege16", phases := [{ srcs := [.one .Rs1, .one .Rs2, .one .Vmask, .one .Nf], dsts := [], fn := some fn_VlSegmentStrided, args := [2] }, { srcs := [.one .Nf], dsts := [.one .Vd], fn := some fn_VlSegmentChild, args := [2] }] },
  { name := "vlssege32", phases := [{ srcs := [.one .Rs1, .one .Rs2, .one .Vmask, .one .Nf], dsts := [], fn := some fn_VlSegmentStrided, args := [4] }, { srcs := [.one .Nf], dsts := [.one .Vd], fn := some fn_VlSegmentChild, args := [4] }] },
  { name := "vluxsegei8", phases := [{ srcs := [.one .Rs1, .one .Vs2, .one .Vmask, .one .Nf], dsts := [], fn := some fn_VlSegmentIndexed, args := [1] }, { srcs := [.one .Nf], dsts := [.one .Vd], fn := some fn_VlSegmentChild, args := [1] }] },
  { name := "vluxsegei16", phases := [{ srcs := [.one .Rs1, .one .Vs2, .one .Vmask, .one .Nf], dsts := [], fn := some fn_VlSegmentIndexed, args := [2] }, { srcs := [.one .Nf], dsts := [.one .Vd], fn := some fn_VlSegmentChild, args := [2] }] },
  { name := "vluxsegei32", phases := [{ srcs := [.one .Rs1, .one .Vs2, .one .Vmask, .one .Nf], dsts := [], fn := some fn_VlSegmentIndexed, args := [4] }, { srcs := [.one .Nf], dsts := [.one .Vd], fn := some fn_VlSegmentChild, args := [4] }] },
  { name := "vloxsegei8", phases := [{ srcs := [.one .Rs1, .one .Vs2, .one .Vmask, .one .Nf], dsts := [], fn := some fn_VlSegmentIndexed, args := [1] }, { srcs := [.one .Nf], dsts := [.one .Vd], fn := some fn_VlSegmentChild, args := [1] }] },
  { name := "vloxsegei16", phases := [{ srcs := [.one .Rs1, .one .Vs2, .one .Vmask, .one .Nf], dsts := [], fn := some fn_VlSegmentIndexed, args := [2] }, { srcs := [.one .Nf], dsts := [.one .Vd], fn := some fn_VlSegmentChild, args := [2] }] },
  { name := "vloxsegei32", phases := [{ srcs := [.one .Rs1, .one .Vs2, .one .Vmask, .one .Nf], dsts := [], fn := some fn_VlSegmentIndexed, args := [4] }, { srcs := [.one .Nf], dsts := [.one .Vd], fn := some fn_VlSegmentChild, args := [4] }] },
  { name := "vse8", phases := [{ srcs := [.one .Vs3, .one .Rs1, .one .Const1, .one .Vmask], dsts := [], fn := some fn_VsStrided, args := [1] }] },
  { name := "vse16", phases := [{ srcs := [.one .Vs3, .one .Rs1, .one .Const2, .one .Vmask], dsts := [], fn := some fn_VsStrided, args := [2] }] },
  { name := "vse32", phases := [{ srcs := [.one .Vs3, .one .Rs1, .one .Const4, .one .Vmask], dsts := [], fn := some fn_VsStrided, args := [4] }] },
  { name := "vsm", phases := [{ srcs := [.one .Vs3, .one .Rs1, .one .Const1, .one .VmaskTrue], dsts := [], fn := some fn_Vsm }] },
  { name := "vse8ff", phases := [{ srcs := [.one .Vs3, .one .Rs1, .one .Const1, .one .Vmask], dsts := [], fn := some fn_VsStrided, args := [1] }] },
  { name := "vse16ff", phases := [{ srcs := [.one .Vs3, .one .Rs1, .one .Const2, .one .Vmask], dsts := [], fn := some fn_VsStrided, args := [2] }] },
  { name := "vse32ff", phases := [{ srcs := [.one .Vs3, .one .Rs1, .one .Const4, .one .Vmask], dsts := [], fn := some fn_VsStrided, args := [4] }] },
  { name := "vs1re8", phases := [{ srcs := [.one .Vs3, .one .Rs1], dsts := [], fn := some fn_VsRegister, args := [1] }] },
  { name := "vs1re16", phases := [{ srcs := [.one .Vs3, .one .Rs1], dsts := [], fn := some fn_VsRegister, args := [1] }] },
  { name := "vs1re32", phases := [{ srcs := [.one .Vs3, .one .Rs1], dsts := [], fn := some fn_VsRegister, args := [1] }] },
  { name := "vs2re8", phases := [{ srcs := [.one .Vs3, .one .Rs1], dsts := [], fn := some fn_VsRegister, args := [2] }] },
  { name := "vs2re16", phases := [{ srcs := [.one .Vs3, .one .Rs1], dsts := [], fn := some fn_VsRegister, args := [2] }] },
  { name := "vs2re32", phases := [{ srcs := [.one .Vs3, .one .Rs1], dsts := [], fn := some fn_VsRegister, args := [2] }] },
  { name := "vs4re8", phases := [{ srcs := [.one .Vs3, .one .Rs1], dsts := [], fn := some fn_VsRegister, args := [4] }] },
  { name := "vs4re16", phases := [{ srcs := [.one .Vs3, .one .Rs1], dsts := [], fn := some fn_VsRegister, args := [4] }] },
  { name := "vs4re32", phases := [{ srcs := [.one .Vs3, .one .Rs1], dsts := [], fn := some fn_VsRegister, args := [4] }] },
  { name := "vs8re8", phases := [{ srcs := [.one .Vs3, .one .Rs1], dsts := [], fn := some fn_VsRegister, args := [8] }] },
  { name := "vs8re16", phases := [{ srcs := [.one .Vs3, .one .Rs1], dsts := [], fn := some fn_VsRegister, args := [8] }] },
  { name := "vs8re32", phases := [{ srcs := [.one .Vs3, .one .Rs1], dsts := [], fn := some fn_VsRegister, args := [8] }] },
  { name := "vsse8", phases := [{ srcs := [.one .Vs3, .one .Rs1, .one .Rs2, .one .Vmask], dsts := [], fn := some fn_VsStrided, args := [1] }] },
  { name := "vsse16", phases := [{ srcs := [.one .Vs3, .one .Rs1, .one .Rs2, .one .Vmask], dsts := [], fn := some fn_VsStrided, args := [2] }] },
  { name := "vsse32", phases := [{ srcs := [.one .Vs3, .one .Rs1, .one .Rs2, .one .Vmask], dsts := [], fn := some fn_VsStrided, args := [4] }] },
  { name := "vsuxei8", phases := [{ srcs := [.one .Vs3, .one .Rs1, .one .Vs2, .one .Vmask], dsts := [], fn := some fn_VsIndexed, args := [1] }] },
  { name := "vsuxei16", phases := [{ srcs := [.one .Vs3, .one .Rs1, .one .Vs2, .one .Vmask], dsts := [], fn := some fn_VsIndexed, args := [2] }] },
  { name := "vsuxei32", phases := [{ srcs := [.one .Vs3, .one .Rs1, .one .Vs2, .one .Vmask], dsts := [], fn := some fn_VsIndexed, args := [4] }] },
  { name := "vsoxei8", phases := [{ srcs := [.one .Vs3, .one .Rs1, .one .Vs2, .one .Vmask], dsts := [], fn := some fn_VsIndexed, args := [1] }] },
  { name := "vsoxei16", phases := [{ srcs := [.one .Vs3, .one .Rs1, .one .Vs2, .one .Vmask], dsts := [], fn := some fn_VsIndexed, args := [2] }] },
  { name := "vsoxei32", phases := [{ srcs := [.one .Vs3, .one .Rs1, .one .Vs2, .one .Vmask], dsts := [], fn := some fn_VsIndexed, args := [4] }] },
  { name := "vssege8", phases := [{ srcs := [.one .Vs3, .one .Rs1, .one .Vmask, .one .Nf], dsts := [], fn := some fn_VsSegment, args := [1] }] },
  { name := "vssege16", phases := [{ srcs := [.one .Vs3, .one .Rs1, .one .Vmask, .one .Nf], dsts := [], fn := some fn_VsSegment, args := [2] }] },
  { name := "vssege32", phases := [{ srcs := [.one .Vs3, .one .Rs1, .one .Vmask, .one .Nf], dsts := [], fn := some fn_VsSegment, args := [4] }] },
  { name := "vsssege8", phases := [{ srcs := [.one .Vs3, .one .Rs1, .one .Rs2, .one .Vmask, .one .Nf], dsts := [], fn := some fn_VsSegmentStrided, args := [1] }] },
  { name := "vsssege16", phases := [{ srcs := [.one .Vs3, .one .Rs1, .one .Rs2, .one .Vmask, .one .Nf], dsts := [], fn := some fn_VsSegmentStrided, args := [2] }] },
  { name := "vsssege32", phases := [{ srcs := [.one .Vs3, .one .Rs1, .one .Rs2, .one .Vmask, .one .Nf], dsts := [], fn := some fn_VsSegmentStrided, args := [4] }] },
  { name := "vsuxsegei8", phases := [{ srcs := [.one .Vs3, .one .Rs1, .one .Vs2, .one .Vmask, .one .Nf], dsts := [], fn := some fn_VsSegmentStrided, args := [1] }] },
  { name := "vsuxsegei16", phases := [{ srcs := [.one .Vs3, .one .Rs1, .one .Vs2, .one .Vmask, .one .Nf], dsts := [], fn := some fn_VsSegmentStrided, args := [2] }] },
  { name := "vsuxsegei32", phases := [{ srcs := [.one .Vs3, .one .Rs1, .one .Vs2, .one .Vmask, .one .Nf], dsts := [], fn := some fn_VsSegmentStrided, args := [4] }] },
  { name := "vsoxsegei8", phases := [{ srcs := [.one .Vs3, .one .Rs1, .one .Vs2, .one .Vmask, .one .Nf], dsts := [], fn := some fn_VsSegmentIndexed, args := [1] }] },
  { name := "vsoxsegei16", phases := [{ srcs := [.one .Vs3, .one .Rs1, .one .Vs2, .one .Vmask, .one .Nf], dsts := [], fn := some fn_VsSegmentIndexed, args := [2] }] },
  { name := "vsoxsegei32", phases := [{ srcs := [.one .Vs3, .one .Rs1, .one .Vs2, .one .Vmask, .one .Nf], dsts := [], fn := some fn_VsSegmentIndexed, args := [4] }] },
  { name := "vadd_vv", phases := [{ srcs := [.one .Vs2, .one .Vs1, .one .Vmask], dsts := [.one .Vd], fn := some fn_Vadd }] },
  { name := "vadd_vx", phases := [{ srcs := [.one .Vs2, .one .Rs1, .one .Vmask], dsts := [.one .Vd], fn := some fn_Vadd }] },
  { name := "vadd_vi", phases := [{ srcs := [.one .Vs2, .one .Simm5, .one .Vmask], dsts := [.one .Vd], fn := some fn_Vadd }] },
  { name := "vsub_vv", phases := [{ srcs := [.one .Vs2, .one .Vs1, .one .Vmask], dsts := [.one .Vd], fn := some fn_Vsub }] },
  { name := "vsub_vx", phases := [{ srcs := [.one .Vs2, .one .Rs1, .one .Vmask], dsts := [.one .Vd], fn := some fn_Vsub }] },
  { name := "vrsub_vx", phases := [{ srcs := [.one .Vs2, .one .Rs1, .one .Vmask], dsts := [.one .Vd], fn := some fn_Vrsub }] },
  { name := "vrsub_vi", phases := [{ srcs := [.one .Vs2, .one .Simm5, .one .Vmask], dsts := [.one .Vd], fn := some fn_Vrsub }] },
  { name := "vminu_vv", phases := [{ srcs := [.one .Vs2, .one .Vs1, .one .Vmask], dsts := [.one .Vd], fn := some fn_Vminu }] },
  { name := "vminu_vx", phases := [{ srcs := [.one .Vs2, .one .Rs1, .one .Vmask], dsts := [.one .Vd], fn := some fn_Vminu }] },
  { name := "vmin_vv", phases := [{ srcs := [.one .Vs2, .one .Vs1, .one .Vmask], dsts := [.one .Vd], fn := some fn_Vmin }] },
  { name := "vmin_vx", phases := [{ srcs := [.one .Vs2, .one .Rs1, .one .Vmask], dsts := [.one .Vd], fn := some fn_Vmin }] },
  { name := "vmaxu_vv", phases := [{ srcs := [.one .Vs2, .one .Vs1, .one .Vmask], dsts := [.one .Vd], fn := some fn_Vmaxu }] },
  { name := "vmaxu_vx", phases := [{ srcs := [.one .Vs2, .one .Rs1, .one .Vmask], dsts := [.one .Vd], fn := some fn_Vmaxu }] },
  { name := "vmax_vv", phases := [{ srcs := [.one .Vs2, .one .Vs1, .one .Vmask], dsts := [.one .Vd], fn := some fn_Vmax }] },
  { name := "vmax_vx", phases := [{ srcs := [.one .Vs2, .one .Rs1, .one .Vmask], dsts := [.one .Vd], fn := some fn_Vmax }] },
  { name := "vand_vv", phases := [{ srcs := [.one .Vs2, .one .Vs1, .one .Vmask], dsts := [.one .Vd], fn := some fn_Vand }] },
  { name := "vand_vx", phases := [{ srcs := [.one .Vs2, .one .Rs1, .one .Vmask], dsts := [.one .Vd], fn := some fn_Vand }] },
  { name := "vand_vi", phases := [{ srcs := [.one .Vs2, .one .Simm5, .one .Vmask], dsts := [.one .Vd], fn := some fn_Vand }] },
  { name := "vor_vv", phases := [{ srcs := [.one .Vs2, .one .Vs1, .one .Vmask], dsts := [.one .Vd], fn := some fn_Vor }] },
  { name := "vor_vx", phases := [{ srcs := [.one .Vs2, .one .Rs1, .one .Vmask], dsts := [.one .Vd], fn := some fn_Vor }] },
  { name := "vor_vi", phases := [{ srcs := [.one .Vs2, .one .Simm5, .one .Vmask], dsts := [.one .Vd], fn := some fn_Vor }] },
  { name := "vxor_vv", phases := [{ srcs := [.one .Vs2, .one .Vs1, .one .Vmask], dsts := [.one .Vd], fn := some fn_Vxor }] },
  { name := "vxor_vx", phases := [{ srcs := [.one .Vs2, .one .Rs1, .one .Vmask], dsts := [.one .Vd], fn := some fn_Vxor }] },
  { name := "vxor_vi", phases := [{ srcs := [.one .Vs2, .one .Simm5, .one .Vmask], dsts := [.one .Vd], fn := some fn_Vxor }] },
  { name := "vrgather_vv", phases := [{ srcs := [.one .Vs2, .one .Vs1, .one .Vmask], dsts := [.one .Vd], fn := some fn_Vrgather }] },
  { name := "vrgather_vx", phases := [{ srcs := [.one .Vs2, .one .Rs1, .one .Vmask], dsts := [.one .Vd], fn := some fn_Vrgather }] },
  { name := "vrgather_vi", phases := [{ srcs := [.one .Vs2, .one .Uimm5, .one .Vmask], dsts := [.one .Vd], fn := some fn_Vrgather }] },
  { name := "vrgatherei16_vv", phases := [{ srcs := [.one .Vs2, .one .Vs1, .one .Vmask], dsts := [.one .Vd], fn := some fn_Vrgatherei16 }] },
  { name := "vslideup_vx", phases := [{ srcs := [.one .Vs2, .one .Rs1, .one .Vmask], dsts := [.one .Vd], fn := some fn_Vslideup }] },
  { name := "vslideup_vi", phases := [{ srcs := [.one .Vs2, .one .Uimm5, .one .Vmask], dsts := [.one .Vd], fn := some fn_Vslideup }] },
  { name := "vslidedown_vx", phases := [{ srcs := [.one .Vs2, .one .Rs1, .one .Vmask], dsts := [.one .Vd], fn := some fn_Vslidedown }] },
  { name := "vslidedown_vi", phases := [{ srcs := [.one .Vs2, .one .Uimm5, .one .Vmask], dsts := [.one .Vd], fn := some fn_Vslidedown }] },
  { name := "vadc_vv", phases := [{ srcs := [.one .Vs2, .one .Vs1, .one .Vmask], dsts := [.one .Vd], fn := some fn_Vadc }] },
  { name := "vadc_vx", phases := [{ srcs := [.one .Vs2, .one .Rs1, .one .Vmask], dsts := [.one .Vd], fn := some fn_Vadc }] },
  { name := "vadc_vi", phases := [{ srcs := [.one .Vs2, .one .Simm5, .one .Vmask], dsts := [.one .Vd], fn := some fn_Vadc }] },
  { name := "vmadc_vv", phases := [{ srcs := [.one .Vs2, .one .Vs1, .one .Vmask, .one .Vm], dsts := [.one .Vd], fn := some fn_Vmadc }] },
  { name := "vmadc_vx", phases := [{ srcs := [.one .Vs2, .one .Rs1, .one .Vmask, .one .Vm], dsts := [.one .Vd], fn := some fn_Vmadc }] },
  { name := "vmadc_vi", phases := [{ srcs := [.one .Vs2, .one .Simm5, .one .Vmask, .one .Vm], dsts := [.one .Vd], fn := some fn_Vmadc }] },
  { name := "vsbc_vv", phases := [{ srcs := [.one .Vs2, .one .Vs1, .one .Vmask], dsts := [.one .Vd], fn := some fn_Vsbc }] },
  { name := "vsbc_vx", phases := [{ srcs := [.one .Vs2, .one .Rs1, .one .Vmask], dsts := [.one .Vd], fn := some fn_Vsbc }] },
  { name := "vmsbc_vv", phases := [{ srcs := [.one .Vs2, .one .Vs1, .one .Vmask, .one .Vm], dsts := [.one .Vd], fn := some fn_Vmsbc }] },
  { name := "vmsbc_vx", phases := [{ srcs := [.one .Vs2, .one .Rs1, .one .Vmask, .one .Vm], dsts := [.one .Vd], fn := some fn_Vmsbc }] },
  { name := "vmerge_vv", phases := [{ srcs := [.one .Vs2, .one .Vs1, .one .Vmask], dsts := [.one .Vd], fn := some fn_Vmerge }] },
  { name := "vmerge_vx", phases := [{ srcs := [.one .Vs2, .one .Rs1, .one .Vmask], dsts := [.one .Vd], fn := some fn_Vmerge }] },
  { name := "vmerge_vi", phases := [{ srcs := [.one .Vs2, .one .Simm5, .one .Vmask], dsts := [.one .Vd], fn := some fn_Vmerge }] },
  { name := "vmv_vv", phases := [{ srcs := [.one .Vs2, .one .Vs1, .one .VmaskTrue], dsts := [.one .Vd], fn := some fn_Vmerge }] },
  { name := "vmv_vx", phases := [{ srcs := [.one .Vs2, .one .Rs1, .one .VmaskTrue], dsts := [.one .Vd], fn := some fn_Vmerge }] },
  { name := "vmv_vi", phases := [{ srcs := [.one .Vs2, .one .Simm5, .one .VmaskTrue], dsts := [.one .Vd], fn := some fn_Vmerge }] },
  { name := "vmseq_vv", phases := [{ srcs := [.one .Vs2, .one .Vs1, .one .Vmask], dsts := [.one .Vd], fn := some fn_Vmseq }] },
  { name := "vmseq_vx", phases := [{ srcs := [.one .Vs2, .one .Rs1, .one .Vmask], dsts := [.one .Vd], fn := some fn_Vmseq }] },
  { name := "vmseq_vi", phases := [{ srcs := [.one .Vs2, .one .Simm5, .one .Vmask], dsts := [.one .Vd], fn := some fn_Vmseq }] },
  { name := "vmsne_vv", phases := [{ srcs := [.one .Vs2, .one .Vs1, .one .Vmask], dsts := [.one .Vd], fn := some fn_Vmsne }] },
  { name := "vmsne_vx", phases := [{ srcs := [.one .Vs2, .one .Rs1, .one .Vmask], dsts := [.one .Vd], fn := some fn_Vmsne }] },
  { name := "vmsne_vi", phases := [{ srcs := [.one .Vs2, .one .Simm5, .one .Vmask], dsts := [.one .Vd], fn := some fn_Vmsne }] },
  { name := "vmsltu_vv", phases := [{ srcs := [.one .Vs2, .one .Vs1, .one .Vmask], dsts := [.one .Vd], fn := some fn_Vmsltu }] },
  { name := "vmsltu_vx", phases := [{ srcs := [.one .Vs2, .one .Rs1, .one .Vmask], dsts := [.one .Vd], fn := some fn_Vmsltu }] },
  { name := "vmslt_vv", phases := [{ srcs := [.one .Vs2, .one .Vs1, .one .Vmask], dsts := [.one .Vd], fn := some fn_Vmslt }] },
  { name := "vmslt_vx", phases := [{ srcs := [.one .Vs2, .one .Rs1, .one .Vmask], dsts := [.one .Vd], fn := some fn_Vmslt }] },
  { name := "vmsleu_vv", phases := [{ srcs := [.one .Vs2, .one .Vs1, .one .Vmask], dsts := [.one .Vd], fn := some fn_Vmsleu }] },
  { name := "vmsleu_vx", phases := [{ srcs := [.one .Vs2, .one .Rs1, .one .Vmask], dsts := [.one .Vd], fn := some fn_Vmsleu }] },
  { name := "vmsleu_vi", phases := [{ srcs := [.one .Vs2, .one .Simm5, .one .Vmask], dsts := [.one .Vd], fn := some fn_Vmsleu }] },
  { name := "vmsle_vv", phases := [{ srcs := [.one .Vs2, .one .Vs1, .one .Vmask], dsts := [.one .Vd], fn := some fn_Vmsle }] },
  { name := "vmsle_vx", phases := [{ srcs := [.one .Vs2, .one .Rs1, .one .Vmask], dsts := [.one .Vd], fn := some fn_Vmsle }] },
  { name := "vmsle_vi", phases := [{ srcs := [.one .Vs2, .one .Simm5, .one .Vmask], dsts := [.one .Vd], fn := some fn_Vmsle }] },
  { name := "vmsgtu_vx", phases := [{ srcs := [.one .Vs2, .one .Rs1, .one .Vmask], dsts := [.one .Vd], fn := some fn_Vmsgtu }] },
  { name := "vmsgtu_vi", phases := [{ srcs := [.one .Vs2, .one .Simm5, .one .Vmask], dsts := [.one .Vd], fn := some fn_Vmsgtu }] },
  { name := "vmsgt_vx", phases := [{ srcs := [.one .Vs2, .one .Rs1, .one .Vmask], dsts := [.one .Vd], fn := some fn_Vmsgt }] },
  { name := "vmsgt_vi", phases := [{ srcs := [.one .Vs2, .one .Simm5, .one .Vmask], dsts := [.one .Vd], fn := some fn_Vmsgt }] },
  { name := "vsaddu_vv", phases := [{ srcs := [.one .Vs2, .one .Vs1, .one .Vmask], dsts := [.one .Vd], fn := some fn_Vsaddu }] },
  { name := "vsaddu_vx", phases := [{ srcs := [.one .Vs2, .one .Rs1, .one .Vmask], dsts := [.one .Vd], fn := some fn_Vsaddu }] },
  { name := "vsaddu_vi", phases := [{ srcs := [.one .Vs2, .one .Simm5, .one .Vmask], dsts := [.one .Vd], fn := some fn_Vsaddu }] },
  { name := "vsadd_vv", phases := [{ srcs := [.one .Vs2, .one .Vs1, .one .Vmask], dsts := [.one .Vd], fn := some fn_Vsadd }] },
  { name := "vsadd_vx", phases := [{ srcs := [.one .Vs2, .one .Rs1, .one .Vmask], dsts := [.one .Vd], fn := some fn_Vsadd }] },
  { name := "vsadd_vi", phases := [{ srcs := [.one .Vs2, .one .Simm5, .one .Vmask], dsts := [.one .Vd], fn := some fn_Vsadd }] },
  { name := "vssubu_vv", phases := [{ srcs := [.one .Vs2, .one .Vs1, .one .Vmask], dsts := [.one .Vd], fn := some fn_Vssubu }] },
  { name := "vssubu_vx", phases := [{ srcs := [.one .Vs2, .one .Rs1, .one .Vmask], dsts := [.one .Vd], fn := some fn_Vssubu }] },
  { name := "vssub_vv", phases := [{ srcs := [.one .Vs2, .one .Vs1, .one .Vmask], dsts := [.one .Vd], fn := some fn_Vssub }] },
  { name := "vssub_vx", phases := [{ srcs := [.one .Vs2, .one .Rs1, .one .Vmask], dsts := [.one .Vd], fn := some fn_Vssub }] },
  { name := "vsll_vv", phases := [{ srcs := [.one .Vs2, .one .Vs1, .one .Vmask], dsts := [.one .Vd], fn := some fn_Vsll }] },
  { name := "vsll_vx", phases := [{ srcs := [.one .Vs2, .one .Rs1, .one .Vmask], dsts := [.one .Vd], fn := some fn_Vsll }] },
  { name := "vsll_vi", phases := [{ srcs := [.one .Vs2, .one .Simm5, .one .Vmask], dsts := [.one .Vd], fn := some fn_Vsll }] },
  { name := "vsmul_vv", phases := [{ srcs := [.one .Vs2, .one .Vs1, .one .Vmask], dsts := [.one .Vd], fn := some fn_Vsmul }] },
  { name := "vsmul_vx", phases := [{ srcs := [.one .Vs2, .one .Rs1, .one .Vmask], dsts := [.one .Vd], fn := some fn_Vsmul }] },
  { name := "vmv1r_vi", phases := [{ srcs := [.one .Vs2], dsts := [.one .Vd], fn := some fn_Vmvr, args := [1] }] },
  { name := "vmv2r_vi", phases := [{ srcs := [.one .Vs2], dsts := [.one .Vd], fn := some fn_Vmvr, args := [2] }] },
  { name := "vmv4r_vi", phases := [{ srcs := [.one .Vs2], dsts := [.one .Vd], fn := some fn_Vmvr, args := [4] }] },
  { name := "vmv8r_vi", phases := [{ srcs := [.one .Vs2], dsts := [.one .Vd], fn := some fn_Vmvr, args := [8] }] },
  { name := "vsrl_vv", phases := [{ srcs := [.one .Vs2, .one .Vs1, .one .Vmask], dsts := [.one .Vd], fn := some fn_Vsrl }] },
  { name := "vsrl_vx", phases := [{ srcs := [.one .Vs2, .one .Rs1, .one .Vmask], dsts := [.one .Vd], fn := some fn_Vsrl }] },
  { name := "vsrl_vi", phases := [{ srcs := [.one .Vs2, .one .Simm5, .one .Vmask], dsts := [.one .Vd], fn := some fn_Vsrl }] },
  { name := "vsra_vv", phases := [{ srcs := [.one .Vs2, .one .Vs1, .one .Vmask], dsts := [.one .Vd], fn := some fn_Vsra }] },
  { name := "vsra_vx", phases := [{ srcs := [.one .Vs2, .one .Rs1, .one .Vmask], dsts := [.one .Vd], fn := some fn_Vsra }] },
  { name := "vsra_vi", phases := [{ srcs := [.one .Vs2, .one .Simm5, .one .Vmask], dsts := [.one .Vd], fn := some fn_Vsra }] },
  { name := "vssrl_vv", phases := [{ srcs := [.one .Vs2, .one .Vs1, .one .Vmask], dsts := [.one .Vd], fn := some fn_Vssrl }] },
  { name := "vssrl_vx", phases := [{ srcs := [.one .Vs2, .one .Rs1, .one .Vmask], dsts := [.one .Vd], fn := some fn_Vssrl }] },
  { name := "vssrl_vi", phases := [{ srcs := [.one .Vs2, .one .Uimm5, .one .Vmask], dsts := [.one .Vd], fn := some fn_Vssrl }] },
  { name := "vssra_vv", phases := [{ srcs := [.one .Vs2, .one .Vs1, .one .Vmask], dsts := [.one .Vd], fn := some fn_Vssra }] },
  { name := "vssra_vx", phases := [{ srcs := [.one .Vs2, .one .Rs1, .one .Vmask], dsts := [.one .Vd], fn := some fn_Vssra }] },
  { name := "vssra_vi", phases := [{ srcs := [.one .Vs2, .one .Uimm5, .one .Vmask], dsts := [.one .Vd], fn := some fn_Vssra }] },
  { name := "vnsrl_vv", phases := [{ srcs := [.one .Vs2, .one .Vs1, .one .Vmask], dsts := [.one .Vd], fn := some fn_Vnsrl }] },
  { name := "vnsrl_vx", phases := [{ srcs := [.one .Vs2, .one .Rs1, .one .Vmask], dsts := [.one .Vd], fn := some fn_Vnsrl }] },
  { name := "vnsrl_vi", phases := [{ srcs := [.one .Vs2, .one .Uimm5, .one .Vmask], dsts := [.one .Vd], fn := some fn_Vnsrl }] },
  { name := "vnsra_vv", phases := [{ srcs := [.one .Vs2, .one .Vs1, .one .Vmask], dsts := [.one .Vd], fn := some fn_Vnsra }] },
  { name := "vnsra_vx", phases := [{ srcs := [.one .Vs2, .one .Rs1, .one .Vmask], dsts := [.one .Vd], fn := some fn_Vnsra }] },
  { name := "vnsra_vi", phases := [{ srcs := [.one .Vs2, .one .Uimm5, .one .Vmask], dsts := [.one .Vd], fn := some fn_Vnsra }] },
  { name := "vnclipu_vv", phases := [{ srcs := [.one .Vs2, .one .Vs1, .one .Vmask], dsts := [.one .Vd], fn := some fn_Vnclipu }] },
  { name := "vnclipu_vx", phases := [{ srcs := [.one .Vs2, .one .Rs1, .one .Vmask], dsts := [.one .Vd], fn := some fn_Vnclipu }] },
  { name := "vnclipu_vi", phases := [{ srcs := [.one .Vs2, .one .Uimm5, .one .Vmask], dsts := [.one .Vd], fn := some fn_Vnclipu }] },
  { name := "vnclip_vv", phases := [{ srcs := [.one .Vs2, .one .Vs1, .one .Vmask], dsts := [.one .Vd], fn := some fn_Vnclip }] },
  { name := "vnclip_vx", phases := [{ srcs := [.one .Vs2, .one .Rs1, .one .Vmask], dsts := [.one .Vd], fn := some fn_Vnclip }] },
  { name := "vnclip_vi", phases := [{ srcs := [.one .Vs2, .one .Uimm5, .one .Vmask], dsts := [.one .Vd], fn := some fn_Vnclip }] },
  { name := "vwredsumu_vv", phases := [{ srcs := [.one .Vs2, .one .Vs1, .one .Vmask], dsts := [.one .Vd], fn := some fn_Vwredsumu }] },
  { name := "vwredsum_vv", phases := [{ srcs := [.one .Vs2, .one .Vs1, .one .Vmask], dsts := [.one .Vd], fn := some fn_Vwredsum }] },
  { name := "vredsum_vv", phases := [{ srcs := [.one .Vs2, .one .Vs1, .one .Vmask], dsts := [.one .Vd], fn := some fn_Vredsum }] },
  { name := "vredand_vv", phases := [{ srcs := [.one .Vs2, .one .Vs1, .one .Vmask], dsts := [.one .Vd], fn := some fn_Vredand }] },
  { name := "vredor_vv", phases := [{ srcs := [.one .Vs2, .one .Vs1, .one .Vmask], dsts := [.one .Vd], fn := some fn_Vredor }] },
  { name := "vredxor_vv", phases := [{ srcs := [.one .Vs2, .one .Vs1, .one .Vmask], dsts := [.one .Vd], fn := some fn_Vredxor }] },
  { name := "vredminu_vv", phases := [{ srcs := [.one .Vs2, .one .Vs1, .one .Vmask], dsts := [.one .Vd], fn := some fn_Vredminu }] },
  { name := "vredmin_vv", phases := [{ srcs := [.one .Vs2, .one .Vs1, .one .Vmask], dsts := [.one .Vd], fn := some fn_Vredmin }] },
  { name := "vredmaxu_vv", phases := [{ srcs := [.one .Vs2, .one .Vs1, .one .Vmask], dsts := [.one .Vd], fn := some fn_Vredmaxu }] },
  { name := "vredmax_vv", phases := [{ srcs := [.one .Vs2, .one .Vs1, .one .Vmask], dsts := [.one .Vd], fn := some fn_Vredmax }] },
  { name := "vaaddu_vv", phases := [{ srcs := [.one .Vs2, .one .Vs1, .one .Vmask], dsts := [.one .Vd], fn := some fn_Vaaddu }] },
  { name := "vaaddu_vx", phases := [{ srcs := [.one .Vs2, .one .Rs1, .one .Vmask], dsts := [.one .Vd], fn := some fn_Vaaddu }] },
  { name := "vaadd_vv", phases := [{ srcs := [.one .Vs2, .one .Vs1, .one .Vmask], dsts := [.one .Vd], fn := some fn_Vaadd }] },
  { name := "vaadd_vx", phases := [{ srcs := [.one .Vs2, .one .Rs1, .one .Vmask], dsts := [.one .Vd], fn := some fn_Vaadd }] },
  { name := "vasubu_vv", phases := [{ srcs := [.one .Vs2, .one .Vs1, .one .Vmask], dsts := [.one .Vd], fn := some fn_Vasubu }] },
  { name := "vasubu_vx", phases := [{ srcs := [.one .Vs2, .one .Rs1, .one .Vmask], dsts := [.one .Vd], fn := some fn_Vasubu }] },
  { name := "vasub_vv", phases := [{ srcs := [.one .Vs2, .one .Vs1, .one .Vmask], dsts := [.one .Vd], fn := some fn_Vasub }] },
  { name := "vasub_vx", phases := [{ srcs := [.one .Vs2, .one .Rs1, .one .Vmask], dsts := [.one .Vd], fn := some fn_Vasub }] },
  { name := "vslide1up_vx", phases := [{ srcs := [.one .Vs2, .one .Rs1, .one .Vmask], dsts := [.one .Vd], fn := some fn_Vslide1up }] },
  { name := "vslide1down_vx", phases := [{ srcs := [.one .Vs2, .one .Rs1, .one .Vmask], dsts := [.one .Vd], fn := some fn_Vslide1down }] },
  { name := "vcompress_vv", phases := [{ srcs := [.one .Vs2, .one .Vs1], dsts := [.one .Vd], fn := some fn_Vcompress }] },
  { name := "vmandnot_vv", phases := [{ srcs := [.one .Vs2, .one .Vs1], dsts := [.one .Vd], fn := some fn_Vmandnot }] },
  { name := "vmand_vv", phases := [{ srcs := [.one .Vs2, .one .Vs1], dsts := [.one .Vd], fn := some fn_Vmand }] },
  { name := "vmor_vv", phases := [{ srcs := [.one .Vs2, .one .Vs1], dsts := [.one .Vd], fn := some fn_Vmor }] },
  { name := "vmxor_vv", phases := [{ srcs := [.one .Vs2, .one .Vs1], dsts := [.one .Vd], fn := some fn_Vmxor }] },
  { name := "vmornot_vv", phases := [{ srcs := [.one .Vs2, .one .Vs1], dsts := [.one .Vd], fn := some fn_Vmornot }] },
  { name := "vmnand_vv", phases := [{ srcs := [.one .Vs2, .one .Vs1], dsts := [.one .Vd], fn := some fn_Vmnand }] },
  { name := "vmnor_vv", phases := [{ srcs := [.one .Vs2, .one .Vs1], dsts := [.one .Vd], fn := some fn_Vmnor }] },
  { name := "vmxnor_vv", phases := [{ srcs := [.one .Vs2, .one .Vs1], dsts := [.one .Vd], fn := some fn_Vmxnor }] },
  { name := "vdivu_vv", phases := [{ srcs := [.one .Vs2, .one .Vs1, .one .Vmask], dsts := [.one .Vd], fn := some fn_Vdivu }] },
  { name := "vdivu_vx", phases := [{ srcs := [.one .Vs2, .one .Rs1, .one .Vmask], dsts := [.one .Vd], fn := some fn_Vdivu }] },
  { name := "vdiv_vv", phases := [{ srcs := [.one .Vs2, .one .Vs1, .one .Vmask], dsts := [.one .Vd], fn := some fn_Vdiv }] },
  { name := "vdiv_vx", phases := [{ srcs := [.one .Vs2, .one .Rs1, .one .Vmask], dsts := [.one .Vd], fn := some fn_Vdiv }] },
  { name := "vremu_vv", phases := [{ srcs := [.one .Vs2, .one .Vs1, .one .Vmask], dsts := [.one .Vd], fn := some fn_Vremu }] },
  { name := "vremu_vx", phases := [{ srcs := [.one .Vs2, .one .Rs1, .one .Vmask], dsts := [.one .Vd], fn := some fn_Vremu }] },
  { name := "vrem_vv", phases := [{ srcs := [.one .Vs2, .one .Vs1, .one .Vmask], dsts := [.one .Vd], fn := some fn_Vrem }] },
  { name := "vrem_vx", phases := [{ srcs := [.one .Vs2, .one .Rs1, .one .Vmask], dsts := [.one .Vd], fn := some fn_Vrem }] },
  { name := "vmulhu_vv", phases := [{ srcs := [.one .Vs2, .one .Vs1, .one .Vmask], dsts := [.one .Vd], fn := some fn_Vmulhu }] },
  { name := "vmulhu_vx", phases := [{ srcs := [.one .Vs2, .one .Rs1, .one .Vmask], dsts := [.one .Vd], fn := some fn_Vmulhu }] },
  { name := "vmul_vv", phases := [{ srcs := [.one .Vs2, .one .Vs1, .one .Vmask], dsts := [.one .Vd], fn := some fn_Vmul }] },
  { name := "vmul_vx", phases := [{ srcs := [.one .Vs2, .one .Rs1, .one .Vmask], dsts := [.one .Vd], fn := some fn_Vmul }] },
  { name := "vmulhsu_vv", phases := [{ srcs := [.one .Vs2, .one .Vs1, .one .Vmask], dsts := [.one .Vd], fn := some fn_Vmulhsu }] },
  { name := "vmulhsu_vx", phases := [{ srcs := [.one .Vs2, .one .Rs1, .one .Vmask], dsts := [.one .Vd], fn := some fn_Vmulhsu }] },
  { name := "vmulh_vv", phases := [{ srcs := [.one .Vs2, .one .Vs1, .one .Vmask], dsts := [.one .Vd], fn := some fn_Vmulh }] },
  { name := "vmulh_vx", phases := [{ srcs := [.one .Vs2, .one .Rs1, .one .Vmask], dsts := [.one .Vd], fn := some fn_Vmulh }] },
  { name := "vmadd_vv", phases := [{ srcs := [.one .Vs2, .one .Vs1, .one .Vd, .one .Vmask], dsts := [.one .Vd], fn := some fn_Vmadd }] },
  { name := "vmadd_vx", phases := [{ srcs := [.one .Vs2, .one .Rs1, .one .Vd, .one .Vmask], dsts := [.one .Vd], fn := some fn_Vmadd }] },
  { name := "vnmsub_vv", phases := [{ srcs := [.one .Vs2, .one .Vs1, .one .Vd, .one .Vmask], dsts := [.one .Vd], fn := some fn_Vnmsub }] },
  { name := "vnmsub_vx", phases := [{ srcs := [.one .Vs2, .one .Rs1, .one .Vd, .one .Vmask], dsts := [.one .Vd], fn := some fn_Vnmsub }] },
  { name := "vmacc_vv", phases := [{ srcs := [.one .Vs2, .one .Vs1, .one .Vd, .one .Vmask], dsts := [.one .Vd], fn := some fn_Vmacc }] },
  { name := "vmacc_vx", phases := [{ srcs := [.one .Vs2, .one .Rs1, .one .Vd, .one .Vmask], dsts := [.one .Vd], fn := some fn_Vmacc }] },
  { name := "vnmsac_vv", phases := [{ srcs := [.one .Vs2, .one .Vs1, .one .Vd, .one .Vmask], dsts := [.one .Vd], fn := some fn_Vnmsac }] },
  { name := "vnmsac_vx", phases := [{ srcs := [.one .Vs2, .one .Rs1, .one .Vd, .one .Vmask], dsts := [.one .Vd], fn := some fn_Vnmsac }] },
  { name := "vwaddu_vv", phases := [{ srcs := [.one .Vs2, .one .Vs1, .one .Vmask], dsts := [.one .Vd], fn := some fn_Vwaddu }] },
  { name := "vwaddu_vx", phases := [{ srcs := [.one .Vs2, .one .Rs1, .one .Vmask], dsts := [.one .Vd], fn := some fn_Vwaddu }] },
  { name := "vwadd_vv", phases := [{ srcs := [.one .Vs2, .one .Vs1, .one .Vmask], dsts := [.one .Vd], fn := some fn_Vwadd }] },
  { name := "vwadd_vx", phases := [{ srcs := [.one .Vs2, .one .Rs1, .one .Vmask], dsts := [.one .Vd], fn := some fn_Vwadd }] },
  { name := "vwsubu_vv", phases := [{ srcs := [.one .Vs2, .one .Vs1, .one .Vmask], dsts := [.one .Vd], fn := some fn_Vwsubu }] },
  { name := "vwsubu_vx", phases := [{ srcs := [.one .Vs2, .one .Rs1, .one .Vmask], dsts := [.one .Vd], fn := some fn_Vwsubu }] },
  { name := "vwsub_vv", phases := [{ srcs := [.one .Vs2, .one .Vs1, .one .Vmask], dsts := [.one .Vd], fn := some fn_Vwsub }] },
  { name := "vwsub_vx", phases := [{ srcs := [.one .Vs2, .one .Rs1, .one .Vmask], dsts := [.one .Vd], fn := some fn_Vwsub }] },
  { name := "vwaddu_w_vv", phases := [{ srcs := [.one .Vs2, .one .Vs1, .one .Vmask], dsts := [.one .Vd], fn := some fn_Vwadduw }] },
  { name := "vwaddu_w_vx", phases := [{ srcs := [.one .Vs2, .one .Rs1, .one .Vmask], dsts := [.one .Vd], fn := some fn_Vwadduw }] },
  { name := "vwadd_w_vv", phases := [{ srcs := [.one .Vs2, .one .Vs1, .one .Vmask], dsts := [.one .Vd], fn := some fn_Vwaddw }] },
  { name := "vwadd_w_vx", phases := [{ srcs := [.one .Vs2, .one .Rs1, .one .Vmask], dsts := [.one .Vd], fn := some fn_Vwaddw }] },
  { name := "vwsubu_w_vv", phases := [{ srcs := [.one .Vs2, .one .Vs1, .one .Vmask], dsts := [.one .Vd], fn := some fn_Vwsubuw }] },
  { name := "vwsubu_w_vx", phases := [{ srcs := [.one .Vs2, .one .Rs1, .one .Vmask], dsts := [.one .Vd], fn := some fn_Vwsubuw }] },
  { name := "vwsub_w_vv", phases := [{ srcs := [.one .Vs2, .one .Vs1, .one .Vmask], dsts := [.one .Vd], fn := some fn_Vwsubw }] },
  { name := "vwsub_w_vx", phases := [{ srcs := [.one .Vs2, .one .Rs1, .one .Vmask], dsts := [.one .Vd], fn := some fn_Vwsubw }] },
  { name := "vwmulu_vv", phases := [{ srcs := [.one .Vs2, .one .Vs1, .one .Vmask], dsts := [.one .Vd], fn := some fn_Vwmulu }] },
  { name := "vwmulu_vx", phases := [{ srcs := [.one .Vs2, .one .Rs1, .one .Vmask], dsts := [.one .Vd], fn := some fn_Vwmulu }] },
  { name := "vwmulsu_vv", phases := [{ srcs := [.one .Vs2, .one .Vs1, .one .Vmask], dsts := [.one .Vd], fn := some fn_Vwmulsu }] },
  { name := "vwmulsu_vx", phases := [{ srcs := [.one .Vs2, .one .Rs1, .one .Vmask], dsts := [.one .Vd], fn := some fn_Vwmulsu }] },
  { name := "vwmul_vv", phases := [{ srcs := [.one .Vs2, .one .Vs1, .one .Vmask], dsts := [.one .Vd], fn := some fn_Vwmul }] },
  { name := "vwmul_vx", phases := [{ srcs := [.one .Vs2, .one .Rs1, .one .Vmask], dsts := [.one .Vd], fn := some fn_Vwmul }] },
  { name := "vwmaccu_vv", phases := [{ srcs := [.one .Vs2, .one .Vs1, .one .Vd, .one .Vmask], dsts := [.one .Vd], fn := some fn_Vwmaccu }] },
  { name := "vwmaccu_vx", phases := [{ srcs := [.one .Vs2, .one .Rs1, .one .Vd, .one .Vmask], dsts := [.one .Vd], fn := some fn_Vwmaccu }] },
  { name := "vwmacc_vv", phases := [{ srcs := [.one .Vs2, .one .Vs1, .one .Vd, .one .Vmask], dsts := [.one .Vd], fn := some fn_Vwmacc }] },
  { name := "vwmacc_vx", phases := [{ srcs := [.one .Vs2, .one .Rs1, .one .Vd, .one .Vmask], dsts := [.one .Vd], fn := some fn_Vwmacc }] },
  { name := "vwmaccus_vv", phases := [{ srcs := [.one .Vs2, .one .Vs1, .one .Vd, .one .Vmask], dsts := [.one .Vd], fn := some fn_Vwmaccus }] },
  { name := "vwmaccus_vx", phases := [{ srcs := [.one .Vs2, .one .Rs1, .one .Vd, .one .Vmask], dsts := [.one .Vd], fn := some fn_Vwmaccus }] },
  { name := "vwmaccsu_vv", phases := [{ srcs := [.one .Vs2, .one .Vs1, .one .Vd, .one .Vmask], dsts := [.one .Vd], fn := some fn_Vwmaccsu }] },
  { name := "vwmaccsu_vx", phases := [{ srcs := [.one .Vs2, .one .Rs1, .one .Vd, .one .Vmask], dsts := [.one .Vd], fn := some fn_Vwmaccsu }] },
  { name := "vmv_x_s", phases := [{ srcs := [.one .Vs2], dsts := [.one .Rd], fn := some fn_VmvToScalar }] },
  { name := "vcpop", phases := [{ srcs := [.one .Vs2, .one .Vmask], dsts := [.one .Rd], fn := some fn_Vcpop }] },
  { name := "vfirst", phases := [{ srcs := [.one .Vs2, .one .Vmask], dsts := [.one .Rd], fn := some fn_Vfirst }] },
  { name := "vmv_s_x", phases := [{ srcs := [.one .Rs1], dsts := [.one .Vd], fn := some fn_VmvFromScalar }] },
  { name := "vzext_vf8", phases := [{ srcs := [.one .Vs2, .one .Vmask], dsts := [.one .Vd], fn := some fn_Vzext8 }] },
  { name := "vsext_vf8", phases := [{ srcs := [.one .Vs2, .one .Vmask], dsts := [.one .Vd], fn := some fn_Vsext8 }] },
  { name := "vzext_vf4", phases := [{ srcs := [.one .Vs2, .one .Vmask], dsts := [.one .Vd], fn := some fn_Vzext4 }] },
  { name := "vsext_vf4", phases := [{ srcs := [.one .Vs2, .one .Vmask], dsts := [.one .Vd], fn := some fn_Vsext4 }] },
  { name := "vzext_vf2", phases := [{ srcs := [.one .Vs2, .one .Vmask], dsts := [.one .Vd], fn := some fn_Vzext2 }] },
  { name := "vsext_vf2", phases := [{ srcs := [.one .Vs2, .one .Vmask], dsts := [.one .Vd], fn := some fn_Vsext2 }] },
  { name := "vmsbf", phases := [{ srcs := [.one .Vs2, .one .Vmask], dsts := [.one .Vd], fn := some fn_Vmsbf }] },
  { name := "vmsof", phases := [{ srcs := [.one .Vs2, .one .Vmask], dsts := [.one .Vd], fn := some fn_Vmsof }] },
  { name := "vmsif", phases := [{ srcs := [.one .Vs2, .one .Vmask], dsts := [.one .Vd], fn := some fn_Vmsif }] },
  { name := "viota", phases := [{ srcs := [.one .Vs2, .one .Vmask], dsts := [.one .Vd], fn := some fn_Viota }] },
  { name := "vid", phases := [{ srcs := [.one .Vmask], dsts := [.one .Vd], fn := some fn_Vid }] }]

/-- Slot `riscv64_zicond` (riscv_zicond.isa:42-45). Inherited instructions are listed with the overrides applied. -/
def slot_riscv64_zicond : List Instr := [
  { name := "czero_eqz", phases := [{ srcs := [.one .Rs1, .one .Rs2], dsts := [.one .Rd], fn := some rv64_RiscVCzeroEqz }] },
  { name := "czero_nez", phases := [{ srcs := [.one .Rs1, .one .Rs2], dsts := [.one .Rd], fn := some rv64_RiscVCzeroNez }] }]

/-- Slot `riscv64_zimop` (riscv_zimop.isa:192-234). Inherited instructions are listed with the overrides applied. -/
def slot_riscv64_zimop : List Instr := [
  { name := "mop_r_0", phases := [{ srcs := [.one .Rs1], dsts := [.one .Rd], fn := some rv64_RiscVMop }] },
  { name := "mop_r_1", phases := [{ srcs := [.one .Rs1], dsts := [.one .Rd], fn := some rv64_RiscVMop }] },
  { name := "mop_r_2", phases := [{ srcs := [.one .Rs1], dsts := [.one .Rd], fn := some rv64_RiscVMop }] },
  { name := "mop_r_3", phases := [{ srcs := [.one .Rs1], dsts := [.one .Rd], fn := some rv64_RiscVMop }] },
  { name := "mop_r_4", phases := [{ srcs := [.one .Rs1], dsts := [.one .Rd], fn := some rv64_RiscVMop }] },
  { name := "mop_r_5", phases := [{ srcs := [.one .Rs1], dsts := [.one .Rd], fn := some rv64_RiscVMop }] },
  { name := "mop_r_6", phases := [{ srcs := [.one .Rs1], dsts := [.one .Rd], fn := some rv64_RiscVMop }] },
  { name := "mop_r_7", phases := [{ srcs := [.one .Rs1], dsts := [.one .Rd], fn := some rv64_RiscVMop }] },
  { name := "mop_r_8", phases := [{ srcs := [.one .Rs1], dsts := [.one .Rd], fn := some rv64_RiscVMop }] },
  { name := "mop_r_9", phases := [{ srcs := [.one .Rs1], dsts := [.one .Rd], fn := some rv64_RiscVMop }] },
  { name := "mop_r_10", phases := [{ srcs := [.one .Rs1], dsts := [.one .Rd], fn := some rv64_RiscVMop }] },
  { name := "mop_r_11", phases := [{ srcs := [.one .Rs1], dsts := [.one .Rd], fn := some rv64_RiscVMop }] },
  { name := "mop_r_12", phases := [{ srcs := [.one .Rs1], dsts := [.one .Rd], fn := some rv64_RiscVMop }] },
  { name := "mop_r_13", phases := [{ srcs := [.one .Rs1], dsts := [.one .Rd], fn := some rv64_RiscVMop }] },
  { name := "mop_r_14", phases := [{ srcs := [.one .Rs1], dsts := [.one .Rd], fn := some rv64_RiscVMop }] },
  { name := "mop_r_15", phases := [{ srcs := [.one .Rs1], dsts := [.one .Rd], fn := some rv64_RiscVMop }] },
  { name := "mop_r_16", phases := [{ srcs := [.one .Rs1], dsts := [.one .Rd], fn := some rv64_RiscVMop }] },
  { name := "mop_r_17", phases := [{ srcs := [.one .Rs1], dsts := [.one .Rd], fn := some rv64_RiscVMop }] },
  { name := "mop_r_18", phases := [{ srcs := [.one .Rs1], dsts := [.one .Rd], fn := some rv64_RiscVMop }] },
  { name := "mop_r_19", phases := [{ srcs := [.one .Rs1], dsts := [.one .Rd], fn := some rv64_RiscVMop }] },
  { name := "mop_r_20", phases := [{ srcs := [.one .Rs1], dsts := [.one .Rd], fn := some rv64_RiscVMop }] },
  { name := "mop_r_21", phases := [{ srcs := [.one .Rs1], dsts := [.one .Rd], fn := some rv64_RiscVMop }] },
  { name := "mop_r_22", phases := [{ srcs := [.one .Rs1], dsts := [.one .Rd], fn := some rv64_RiscVMop }] },
  { name := "mop_r_23", phases := [{ srcs := [.one .Rs1], dsts := [.one .Rd], fn := some rv64_RiscVMop }] },
  { name := "mop_r_24", phases := [{ srcs := [.one .Rs1], dsts := [.one .Rd], fn := some rv64_RiscVMop }] },
  { name := "mop_r_25", phases := [{ srcs := [.one .Rs1], dsts := [.one .Rd], fn := some rv64_RiscVMop }] },
  { name := "mop_r_26", phases := [{ srcs := [.one .Rs1], dsts := [.one .Rd], fn := some rv64_RiscVMop }] },
  { name := "mop_r_27", phases := [{ srcs := [.one .Rs1], dsts := [.one .Rd], fn := some rv64_RiscVMop }] },
  { name := "mop_r_28", phases := [{ srcs := [.one .Rs1], dsts := [.one .Rd], fn := some rv64_RiscVMop }] },
  { name := "mop_r_29", phases := [{ srcs := [.one .Rs1], dsts := [.one .Rd], fn := some rv64_RiscVMop }] },
  { name := "mop_r_30", phases := [{ srcs := [.one .Rs1], dsts := [.one .Rd], fn := some rv64_RiscVMop }] },
  { name := "mop_r_31", phases := [{ srcs := [.one .Rs1], dsts := [.one .Rd], fn := some rv64_RiscVMop }] },
  { name := "mop_rr_0", phases := [{ srcs := [.one .Rs1, .one .Rs2], dsts := [.one .Rd], fn := some rv64_RiscVMop }] },
  { name := "mop_rr_1", phases := [{ srcs := [.one .Rs1, .one .Rs2], dsts := [.one .Rd], fn := some rv64_RiscVMop }] },
  { name := "mop_rr_2", phases := [{ srcs := [.one .Rs1, .one .Rs2], dsts := [.one .Rd], fn := some rv64_RiscVMop }] },
  { name := "mop_rr_3", phases := [{ srcs := [.one .Rs1, .one .Rs2], dsts := [.one .Rd], fn := some rv64_RiscVMop }] },
  { name := "mop_rr_4", phases := [{ srcs := [.one .Rs1, .one .Rs2], dsts := [.one .Rd], fn := some rv64_RiscVMop }] },
  { name := "mop_rr_5", phases := [{ srcs := [.one .Rs1, .one .Rs2], dsts := [.one .Rd], fn := some rv64_RiscVMop }] },
  { name := "mop_rr_6", phases := [{ srcs := [.one .Rs1, .one .Rs2], dsts := [.one .Rd], fn := some rv64_RiscVMop }] },
  { name := "mop_rr_7", phases := [{ srcs := [.one .Rs1, .one .Rs2], dsts := [.one .Rd], fn := some rv64_RiscVMop }] }]

/-- Slot `riscv_zicbop64` (riscv_zicbop.isa:38-46). Inherited instructions are listed with the overrides applied. -/
def slot_riscv_zicbop64 : List Instr := [
  { name := "prefetch_i", phases := [{ srcs := [.one .Rs1, .other "bop_uimm12"], dsts := [], fn := some rv64_RiscVPrefetchI }] },
  { name := "prefetch_r", phases := [{ srcs := [.one .Rs1, .other "bop_uimm12"], dsts := [], fn := some rv64_RiscVPrefetchR }] },
  { name := "prefetch_w", phases := [{ srcs := [.one .Rs1, .other "bop_uimm12"], dsts := [], fn := some rv64_RiscVPrefetchW }] }]

/-- The instruction set descriptions. -/
inductive Isa where
  | riscv32g
  | riscv32gzb
  | riscv32gv
  | riscv32gvzb
  | riscv64g
  | riscv64gzb
  | riscv64gv
  | riscv64gvzb
  | zfh32
  | zfh64
  | zvbb
  | rvm23
  deriving DecidableEq, Repr

/-- Instructions of each description. -/
def Isa.instrs : Isa → List Instr
  -- riscv32g.isa
  | .riscv32g => slot_riscv32g
  -- riscv32gzb.isa
  | .riscv32gzb => slot_riscv32gzb
  -- riscv32v.isa
  | .riscv32gv => slot_riscv32gv
  -- riscv32v.isa
  | .riscv32gvzb => slot_riscv32gvzb
  -- riscv64g.isa
  | .riscv64g => slot_riscv64g
  -- riscv64gzb.isa
  | .riscv64gzb => slot_riscv64gzb
  -- riscv64v.isa
  | .riscv64gv => slot_riscv64gv
  -- riscv64v.isa
  | .riscv64gvzb => slot_riscv64gvzb
  -- riscv_zfh.isa
  | .zfh32 => slot_riscv32_zfh
  -- riscv_zfh.isa
  | .zfh64 => slot_riscv64_zfh
  -- riscv_zvbb.isa
  | .zvbb => slot_riscv_zvbb
  -- rvm23.isa
  | .rvm23 => slot_rvm23

/-- The encoding class that supplies the operands of a description, for the
descriptions that have one. -/
def Isa.enc : Isa → Option Getters.Enc
  | .riscv32g => some .rv32g
  | .riscv64g => some .rv64g
  | .riscv32gv => some .rv32gv
  | .riscv64gv => some .rv64gv
  | .riscv32gzb => some .rv32gzb
  | .riscv64gzb => some .rv64gzb
  | .riscv32gvzb => some .rv32gvzb
  | .riscv64gvzb => some .rv64gvzb
  | _ => none

end Verif.Operands
