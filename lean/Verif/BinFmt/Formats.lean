import Verif.BinFmt.Model

/-!
# The instruction formats

A transcription of every `format` declaration of `riscv_format32.bin_fmt` and
`riscv_format16.bin_fmt`.  Written by `tools/gen_formats.py`.
-/

namespace Verif.BinFmt

/-- The names of the formats (riscv_format32.bin_fmt:19-243,
riscv_format16.bin_fmt:20-240). -/
inductive Fmt where
  | Inst32Format
  | RType
  | RSType
  | R4Type
  | IType
  | SType
  | BType
  | UType
  | JType
  | Fence
  | AType
  | F12Type
  | ZICBOP
  | MopRType
  | MopRRType
  | VMem
  | VArith
  | VConfig
  | Inst16Format
  | CSS
  | CL
  | CS
  | CJ
  | CR
  | CB
  | CI
  | CIW
  | CA
  | CLB
  | CLH
  | CMMV
  | CMPP
  | CSB
  | CSH
  | CU
  | CMJT
  | CMopType
  deriving DecidableEq, Repr

/-- `format Inst32Format` (riscv_format32.bin_fmt:19-23). -/
def fmtInst32Format : Format where
  width := 32
  fields :=
    [⟨.bits, 25, false⟩,
     ⟨.opcode, 7, false⟩]
  overlays :=
    []

/-- `format RType` (riscv_format32.bin_fmt:25-35). -/
def fmtRType : Format where
  width := 32
  fields :=
    [⟨.func7, 7, false⟩,
     ⟨.rs2, 5, false⟩,
     ⟨.rs1, 5, false⟩,
     ⟨.func3, 3, false⟩,
     ⟨.rd, 5, false⟩,
     ⟨.opcode, 7, false⟩]
  overlays :=
    [⟨.r_uimm5, 5, false, [.whole .rs2]⟩]

/-- `format RSType` (riscv_format32.bin_fmt:38-46). -/
def fmtRSType : Format where
  width := 32
  fields :=
    [⟨.func6, 6, false⟩,
     ⟨.r_uimm6, 6, false⟩,
     ⟨.rs1, 5, false⟩,
     ⟨.func3, 3, false⟩,
     ⟨.rd, 5, false⟩,
     ⟨.opcode, 7, false⟩]
  overlays :=
    []

/-- `format R4Type` (riscv_format32.bin_fmt:48-57). -/
def fmtR4Type : Format where
  width := 32
  fields :=
    [⟨.rs3, 5, false⟩,
     ⟨.func2, 2, false⟩,
     ⟨.rs2, 5, false⟩,
     ⟨.rs1, 5, false⟩,
     ⟨.func3, 3, false⟩,
     ⟨.rd, 5, false⟩,
     ⟨.opcode, 7, false⟩]
  overlays :=
    []

/-- `format IType` (riscv_format32.bin_fmt:59-69). -/
def fmtIType : Format where
  width := 32
  fields :=
    [⟨.imm12, 12, true⟩,
     ⟨.rs1, 5, false⟩,
     ⟨.func3, 3, false⟩,
     ⟨.rd, 5, false⟩,
     ⟨.opcode, 7, false⟩]
  overlays :=
    [⟨.u_imm12, 12, false, [.whole .imm12]⟩,
     ⟨.i_uimm5, 5, false, [.whole .rs1]⟩]

/-- `format SType` (riscv_format32.bin_fmt:71-81). -/
def fmtSType : Format where
  width := 32
  fields :=
    [⟨.imm7, 7, false⟩,
     ⟨.rs2, 5, false⟩,
     ⟨.rs1, 5, false⟩,
     ⟨.func3, 3, false⟩,
     ⟨.imm5, 5, false⟩,
     ⟨.opcode, 7, false⟩]
  overlays :=
    [⟨.s_imm, 12, true, [.whole .imm7, .whole .imm5]⟩]

/-- `format BType` (riscv_format32.bin_fmt:83-93). -/
def fmtBType : Format where
  width := 32
  fields :=
    [⟨.imm7, 7, false⟩,
     ⟨.rs2, 5, false⟩,
     ⟨.rs1, 5, false⟩,
     ⟨.func3, 3, false⟩,
     ⟨.imm5, 5, false⟩,
     ⟨.opcode, 7, false⟩]
  overlays :=
    [⟨.b_imm, 13, true, [.part .imm7 6 6, .part .imm5 0 0, .part .imm7 5 0, .part .imm5 4 1, .const 1 0]⟩]

/-- `format UType` (riscv_format32.bin_fmt:95-102). -/
def fmtUType : Format where
  width := 32
  fields :=
    [⟨.imm20, 20, false⟩,
     ⟨.rd, 5, false⟩,
     ⟨.opcode, 7, false⟩]
  overlays :=
    [⟨.u_imm, 32, false, [.whole .imm20, .const 12 0]⟩]

/-- `format JType` (riscv_format32.bin_fmt:104-111). -/
def fmtJType : Format where
  width := 32
  fields :=
    [⟨.imm20, 20, false⟩,
     ⟨.rd, 5, false⟩,
     ⟨.opcode, 7, false⟩]
  overlays :=
    [⟨.j_imm, 21, true, [.part .imm20 19 19, .part .imm20 7 0, .part .imm20 8 8, .part .imm20 18 9, .const 1 0]⟩]

/-- `format Fence` (riscv_format32.bin_fmt:113-122). -/
def fmtFence : Format where
  width := 32
  fields :=
    [⟨.fm, 4, false⟩,
     ⟨.pred, 4, false⟩,
     ⟨.succ, 4, false⟩,
     ⟨.rs1, 5, false⟩,
     ⟨.func3, 3, false⟩,
     ⟨.rd, 5, false⟩,
     ⟨.opcode, 7, false⟩]
  overlays :=
    []

/-- `format AType` (riscv_format32.bin_fmt:124-134). -/
def fmtAType : Format where
  width := 32
  fields :=
    [⟨.func5, 5, false⟩,
     ⟨.aq, 1, false⟩,
     ⟨.rl, 1, false⟩,
     ⟨.rs2, 5, false⟩,
     ⟨.rs1, 5, false⟩,
     ⟨.func3, 3, false⟩,
     ⟨.rd, 5, false⟩,
     ⟨.opcode, 7, false⟩]
  overlays :=
    []

/-- `format F12Type` (riscv_format32.bin_fmt:136-143). -/
def fmtF12Type : Format where
  width := 32
  fields :=
    [⟨.func12, 12, false⟩,
     ⟨.rs1, 5, false⟩,
     ⟨.func3, 3, false⟩,
     ⟨.rd, 5, false⟩,
     ⟨.opcode, 7, false⟩]
  overlays :=
    []

/-- `format ZICBOP` (riscv_format32.bin_fmt:145-155). -/
def fmtZICBOP : Format where
  width := 32
  fields :=
    [⟨.offset, 7, false⟩,
     ⟨.func5, 5, false⟩,
     ⟨.rs1, 5, false⟩,
     ⟨.func3, 3, false⟩,
     ⟨.imm5, 5, false⟩,
     ⟨.op, 7, false⟩]
  overlays :=
    [⟨.bop_uimm12, 12, false, [.whole .offset, .const 5 0]⟩]

/-- `format MopRType` (riscv_format32.bin_fmt:157-171). -/
def fmtMopRType : Format where
  width := 32
  fields :=
    [⟨.func1, 1, false⟩,
     ⟨.n_hi, 1, false⟩,
     ⟨.func2, 2, false⟩,
     ⟨.n_mid, 2, false⟩,
     ⟨.func4, 4, false⟩,
     ⟨.n_lo, 2, false⟩,
     ⟨.rs1, 5, false⟩,
     ⟨.func3, 3, false⟩,
     ⟨.rd, 5, false⟩,
     ⟨.opcode, 7, false⟩]
  overlays :=
    [⟨.mop_no, 5, false, [.whole .n_hi, .whole .n_mid, .whole .n_lo]⟩]

/-- `format MopRRType` (riscv_format32.bin_fmt:173-187). -/
def fmtMopRRType : Format where
  width := 32
  fields :=
    [⟨.func1h, 1, false⟩,
     ⟨.n_hi, 1, false⟩,
     ⟨.func2, 2, false⟩,
     ⟨.n_lo, 2, false⟩,
     ⟨.func1l, 1, false⟩,
     ⟨.rs2, 5, false⟩,
     ⟨.rs1, 5, false⟩,
     ⟨.func3, 3, false⟩,
     ⟨.rd, 5, false⟩,
     ⟨.opcode, 7, false⟩]
  overlays :=
    [⟨.mop_no, 3, false, [.whole .n_hi, .whole .n_lo]⟩]

/-- `format VMem` (riscv_format32.bin_fmt:191-207). -/
def fmtVMem : Format where
  width := 32
  fields :=
    [⟨.nf, 3, false⟩,
     ⟨.mew, 1, false⟩,
     ⟨.mop, 2, false⟩,
     ⟨.vm, 1, false⟩,
     ⟨.rs2, 5, false⟩,
     ⟨.rs1, 5, false⟩,
     ⟨.width, 3, false⟩,
     ⟨.vd, 5, false⟩,
     ⟨.opcode, 7, false⟩]
  overlays :=
    [⟨.lumop, 5, false, [.whole .rs2]⟩,
     ⟨.sumop, 5, false, [.whole .rs2]⟩,
     ⟨.vs2, 5, false, [.whole .rs2]⟩,
     ⟨.vs3, 5, false, [.whole .vd]⟩]

/-- `format VArith` (riscv_format32.bin_fmt:209-226). -/
def fmtVArith : Format where
  width := 32
  fields :=
    [⟨.func6, 6, false⟩,
     ⟨.vm, 1, false⟩,
     ⟨.vs2, 5, false⟩,
     ⟨.vs1, 5, false⟩,
     ⟨.func3, 3, false⟩,
     ⟨.vd, 5, false⟩,
     ⟨.opcode, 7, false⟩]
  overlays :=
    [⟨.uimm5, 5, false, [.whole .vs1]⟩,
     ⟨.uimm6, 6, false, [.part .func6 0 0, .whole .vs1]⟩,
     ⟨.func5, 5, false, [.part .func6 5 1]⟩,
     ⟨.simm5, 5, true, [.whole .vs1]⟩,
     ⟨.rd, 5, false, [.whole .vd]⟩,
     ⟨.rs1, 5, false, [.whole .vs1]⟩,
     ⟨.vd_mask, 5, false, [.whole .vd]⟩]

/-- `format VConfig` (riscv_format32.bin_fmt:228-243). -/
def fmtVConfig : Format where
  width := 32
  fields :=
    [⟨.top12, 12, false⟩,
     ⟨.rs1, 5, false⟩,
     ⟨.func3, 3, false⟩,
     ⟨.rd, 5, false⟩,
     ⟨.opcode, 7, false⟩]
  overlays :=
    [⟨.zimm11, 11, true, [.part .top12 10 0]⟩,
     ⟨.func1, 1, false, [.part .top12 11 11]⟩,
     ⟨.func2, 2, false, [.part .top12 11 10]⟩,
     ⟨.func7, 7, false, [.part .top12 11 5]⟩,
     ⟨.zimm10, 10, true, [.part .top12 9 0]⟩,
     ⟨.uimm5, 5, false, [.whole .rs1]⟩,
     ⟨.rs2, 5, false, [.part .top12 4 0]⟩]

/-- `format Inst16Format` (riscv_format16.bin_fmt:20-25). -/
def fmtInst16Format : Format where
  width := 16
  fields :=
    [⟨.func3, 3, false⟩,
     ⟨.bits, 11, false⟩,
     ⟨.op, 2, false⟩]
  overlays :=
    []

/-- `format CSS` (riscv_format16.bin_fmt:27-36). -/
def fmtCSS : Format where
  width := 16
  fields :=
    [⟨.func3, 3, false⟩,
     ⟨.imm6, 6, false⟩,
     ⟨.rs2, 5, false⟩,
     ⟨.op, 2, false⟩]
  overlays :=
    [⟨.css_imm_w, 8, false, [.part .imm6 1 0, .part .imm6 5 2, .const 2 0]⟩,
     ⟨.css_imm_d, 9, false, [.part .imm6 2 0, .part .imm6 5 3, .const 3 0]⟩]

/-- `format CL` (riscv_format16.bin_fmt:38-51). -/
def fmtCL : Format where
  width := 16
  fields :=
    [⟨.func3, 3, false⟩,
     ⟨.imm3, 3, false⟩,
     ⟨.rs1p, 3, false⟩,
     ⟨.imm2, 2, false⟩,
     ⟨.rdp, 3, false⟩,
     ⟨.op, 2, false⟩]
  overlays :=
    [⟨.cl_rs1, 5, false, [.const 2 1, .whole .rs1p]⟩,
     ⟨.cl_rd, 5, false, [.const 2 1, .whole .rdp]⟩,
     ⟨.cl_imm_w, 7, false, [.part .imm2 0 0, .whole .imm3, .part .imm2 1 1, .const 2 0]⟩,
     ⟨.cl_imm_d, 8, false, [.whole .imm2, .whole .imm3, .const 3 0]⟩]

/-- `format CS` (riscv_format16.bin_fmt:53-66). -/
def fmtCS : Format where
  width := 16
  fields :=
    [⟨.func3, 3, false⟩,
     ⟨.imm3, 3, false⟩,
     ⟨.rs1p, 3, false⟩,
     ⟨.imm2, 2, false⟩,
     ⟨.rs2p, 3, false⟩,
     ⟨.op, 2, false⟩]
  overlays :=
    [⟨.cs_rs1, 5, false, [.const 2 1, .whole .rs1p]⟩,
     ⟨.cs_rs2, 5, false, [.const 2 1, .whole .rs2p]⟩,
     ⟨.cs_imm_w, 7, false, [.part .imm2 0 0, .whole .imm3, .part .imm2 1 1, .const 2 0]⟩,
     ⟨.cs_imm_d, 8, false, [.whole .imm2, .whole .imm3, .const 3 0]⟩]

/-- `format CJ` (riscv_format16.bin_fmt:68-75). -/
def fmtCJ : Format where
  width := 16
  fields :=
    [⟨.func3, 3, false⟩,
     ⟨.imm11, 11, false⟩,
     ⟨.op, 2, false⟩]
  overlays :=
    [⟨.jimm, 12, true, [.part .imm11 10 10, .part .imm11 6 6, .part .imm11 8 7, .part .imm11 4 4, .part .imm11 5 5, .part .imm11 0 0, .part .imm11 9 9, .part .imm11 3 1, .const 1 0]⟩]

/-- `format CR` (riscv_format16.bin_fmt:77-83). -/
def fmtCR : Format where
  width := 16
  fields :=
    [⟨.func4, 4, false⟩,
     ⟨.rs1, 5, false⟩,
     ⟨.rs2, 5, false⟩,
     ⟨.op, 2, false⟩]
  overlays :=
    []

/-- `format CB` (riscv_format16.bin_fmt:85-99). -/
def fmtCB : Format where
  width := 16
  fields :=
    [⟨.func3, 3, false⟩,
     ⟨.imm3, 3, false⟩,
     ⟨.rs1p, 3, false⟩,
     ⟨.imm5, 5, false⟩,
     ⟨.op, 2, false⟩]
  overlays :=
    [⟨.func2, 2, false, [.word 11 11, .word 10 10]⟩,
     ⟨.func5, 5, false, [.word 12 10, .word 6 5]⟩,
     ⟨.shamt, 6, false, [.word 12 12, .word 6 2]⟩,
     ⟨.rs2p, 3, false, [.word 4 2]⟩,
     ⟨.rs2, 5, false, [.const 2 2, .word 4 2]⟩,
     ⟨.bimm, 9, true, [.part .imm3 2 2, .part .imm5 4 3, .part .imm5 0 0, .part .imm3 1 0, .part .imm5 2 1, .const 1 0]⟩]

/-- `format CI` (riscv_format16.bin_fmt:101-116). -/
def fmtCI : Format where
  width := 16
  fields :=
    [⟨.func3, 3, false⟩,
     ⟨.imm1, 1, false⟩,
     ⟨.rs1, 5, false⟩,
     ⟨.imm5, 5, false⟩,
     ⟨.op, 2, false⟩]
  overlays :=
    [⟨.rd, 5, false, [.whole .rs1]⟩,
     ⟨.imm6, 6, true, [.whole .imm1, .whole .imm5]⟩,
     ⟨.uimm6, 6, false, [.whole .imm1, .whole .imm5]⟩,
     ⟨.imm18, 18, true, [.whole .imm1, .whole .imm5, .const 12 0]⟩,
     ⟨.ci_imm10, 10, true, [.whole .imm1, .part .imm5 2 1, .part .imm5 3 3, .part .imm5 0 0, .part .imm5 4 4, .const 4 0]⟩,
     ⟨.ci_imm_w, 8, false, [.part .imm5 1 0, .whole .imm1, .part .imm5 4 2, .const 2 0]⟩,
     ⟨.ci_imm_d, 9, false, [.part .imm5 2 0, .whole .imm1, .part .imm5 4 3, .const 3 0]⟩]

/-- `format CIW` (riscv_format16.bin_fmt:118-127). -/
def fmtCIW : Format where
  width := 16
  fields :=
    [⟨.func3, 3, false⟩,
     ⟨.imm8, 8, false⟩,
     ⟨.rdp, 3, false⟩,
     ⟨.op, 2, false⟩]
  overlays :=
    [⟨.rd, 5, false, [.const 2 1, .whole .rdp]⟩,
     ⟨.ciw_imm10, 10, false, [.part .imm8 5 2, .part .imm8 7 6, .part .imm8 0 0, .part .imm8 1 1, .const 2 0]⟩]

/-- `format CA` (riscv_format16.bin_fmt:129-140). -/
def fmtCA : Format where
  width := 16
  fields :=
    [⟨.func6, 6, false⟩,
     ⟨.rs1p, 3, false⟩,
     ⟨.func2, 2, false⟩,
     ⟨.fs2p, 3, false⟩,
     ⟨.op, 2, false⟩]
  overlays :=
    [⟨.rs1, 5, false, [.const 2 1, .whole .rs1p]⟩,
     ⟨.rs2, 5, false, [.const 2 1, .whole .fs2p]⟩,
     ⟨.rd, 5, false, [.const 2 1, .whole .rs1p]⟩]

/-- `format CLB` (riscv_format16.bin_fmt:143-153). -/
def fmtCLB : Format where
  width := 16
  fields :=
    [⟨.func6, 6, false⟩,
     ⟨.rs1p, 3, false⟩,
     ⟨.uimm2, 2, false⟩,
     ⟨.rdp, 3, false⟩,
     ⟨.op, 2, false⟩]
  overlays :=
    [⟨.rs1, 5, false, [.const 2 1, .whole .rs1p]⟩,
     ⟨.rd, 5, false, [.const 2 1, .whole .rdp]⟩]

/-- `format CLH` (riscv_format16.bin_fmt:155-167). -/
def fmtCLH : Format where
  width := 16
  fields :=
    [⟨.func6, 6, false⟩,
     ⟨.rs1p, 3, false⟩,
     ⟨.func1, 1, false⟩,
     ⟨.uimm1, 1, false⟩,
     ⟨.rdp, 3, false⟩,
     ⟨.op, 2, false⟩]
  overlays :=
    [⟨.rs1, 5, false, [.const 2 1, .whole .rs1p]⟩,
     ⟨.rd, 5, false, [.const 2 1, .whole .rdp]⟩,
     ⟨.uimm2, 2, false, [.whole .uimm1, .const 1 0]⟩]

/-- `format CMMV` (riscv_format16.bin_fmt:169-179). -/
def fmtCMMV : Format where
  width := 16
  fields :=
    [⟨.func6, 6, false⟩,
     ⟨.rs1p, 3, false⟩,
     ⟨.func2, 2, false⟩,
     ⟨.rs2p, 3, false⟩,
     ⟨.op, 2, false⟩]
  overlays :=
    [⟨.rs1, 5, false, [.const 2 1, .whole .rs1p]⟩,
     ⟨.rs2, 5, false, [.const 2 1, .whole .rs2p]⟩]

/-- `format CMPP` (riscv_format16.bin_fmt:181-187). -/
def fmtCMPP : Format where
  width := 16
  fields :=
    [⟨.func8, 8, false⟩,
     ⟨.rlist, 4, false⟩,
     ⟨.spimm, 2, false⟩,
     ⟨.op, 2, false⟩]
  overlays :=
    []

/-- `format CSB` (riscv_format16.bin_fmt:190-200). -/
def fmtCSB : Format where
  width := 16
  fields :=
    [⟨.func6, 6, false⟩,
     ⟨.rs1p, 3, false⟩,
     ⟨.uimm2, 2, false⟩,
     ⟨.rs2p, 3, false⟩,
     ⟨.op, 2, false⟩]
  overlays :=
    [⟨.rs1, 5, false, [.const 2 1, .whole .rs1p]⟩,
     ⟨.rs2, 5, false, [.const 2 1, .whole .rs2p]⟩]

/-- `format CSH` (riscv_format16.bin_fmt:202-214). -/
def fmtCSH : Format where
  width := 16
  fields :=
    [⟨.func6, 6, false⟩,
     ⟨.rs1p, 3, false⟩,
     ⟨.func1, 1, false⟩,
     ⟨.uimm1, 1, false⟩,
     ⟨.rs2p, 3, false⟩,
     ⟨.op, 2, false⟩]
  overlays :=
    [⟨.rs1, 5, false, [.const 2 1, .whole .rs1p]⟩,
     ⟨.rs2, 5, false, [.const 2 1, .whole .rs2p]⟩,
     ⟨.uimm2, 2, false, [.whole .uimm1, .const 1 0]⟩]

/-- `format CU` (riscv_format16.bin_fmt:216-225). -/
def fmtCU : Format where
  width := 16
  fields :=
    [⟨.func6, 6, false⟩,
     ⟨.rs1p, 3, false⟩,
     ⟨.func5, 5, false⟩,
     ⟨.op, 2, false⟩]
  overlays :=
    [⟨.rs1, 5, false, [.const 2 1, .whole .rs1p]⟩,
     ⟨.rd, 5, false, [.const 2 1, .whole .rs1p]⟩]

/-- `format CMJT` (riscv_format16.bin_fmt:227-232). -/
def fmtCMJT : Format where
  width := 16
  fields :=
    [⟨.func6, 6, false⟩,
     ⟨.index, 8, false⟩,
     ⟨.op, 2, false⟩]
  overlays :=
    []

/-- `format CMopType` (riscv_format16.bin_fmt:234-240). -/
def fmtCMopType : Format where
  width := 16
  fields :=
    [⟨.func4, 4, false⟩,
     ⟨.num, 5, false⟩,
     ⟨.rd, 5, false⟩,
     ⟨.op, 2, false⟩]
  overlays :=
    []

/-- The declaration of a format. -/
def Fmt.decl : Fmt → Format
  | .Inst32Format => fmtInst32Format
  | .RType => fmtRType
  | .RSType => fmtRSType
  | .R4Type => fmtR4Type
  | .IType => fmtIType
  | .SType => fmtSType
  | .BType => fmtBType
  | .UType => fmtUType
  | .JType => fmtJType
  | .Fence => fmtFence
  | .AType => fmtAType
  | .F12Type => fmtF12Type
  | .ZICBOP => fmtZICBOP
  | .MopRType => fmtMopRType
  | .MopRRType => fmtMopRRType
  | .VMem => fmtVMem
  | .VArith => fmtVArith
  | .VConfig => fmtVConfig
  | .Inst16Format => fmtInst16Format
  | .CSS => fmtCSS
  | .CL => fmtCL
  | .CS => fmtCS
  | .CJ => fmtCJ
  | .CR => fmtCR
  | .CB => fmtCB
  | .CI => fmtCI
  | .CIW => fmtCIW
  | .CA => fmtCA
  | .CLB => fmtCLB
  | .CLH => fmtCLH
  | .CMMV => fmtCMMV
  | .CMPP => fmtCMPP
  | .CSB => fmtCSB
  | .CSH => fmtCSH
  | .CU => fmtCU
  | .CMJT => fmtCMJT
  | .CMopType => fmtCMopType

/-- Every format. -/
def Fmt.all : List Fmt :=
  [.Inst32Format,
   .RType,
   .RSType,
   .R4Type,
   .IType,
   .SType,
   .BType,
   .UType,
   .JType,
   .Fence,
   .AType,
   .F12Type,
   .ZICBOP,
   .MopRType,
   .MopRRType,
   .VMem,
   .VArith,
   .VConfig,
   .Inst16Format,
   .CSS,
   .CL,
   .CS,
   .CJ,
   .CR,
   .CB,
   .CI,
   .CIW,
   .CA,
   .CLB,
   .CLH,
   .CMMV,
   .CMPP,
   .CSB,
   .CSH,
   .CU,
   .CMJT,
   .CMopType]

end Verif.BinFmt
