import Verif.Decode.Model

/-!
# The instruction groups

A transcription of every `instruction group` of the `.bin_fmt` files.  Written
by `tools/gen_decode.py`.
-/

namespace Verif.Decode

/-- `instruction group RiscVIInstBase32` (riscv32g.bin_fmt:45-88). -/
def g_riscv32g_RiscVIInstBase32 : List Inst :=
  [⟨.lui, .UType, [⟨.opcode, .eq, .num 55⟩, ⟨.rd, .ne, .num 0⟩]⟩,
   ⟨.auipc, .UType, [⟨.opcode, .eq, .num 23⟩, ⟨.rd, .ne, .num 0⟩]⟩,
   ⟨.jal, .JType, [⟨.rd, .ne, .num 0⟩, ⟨.opcode, .eq, .num 111⟩]⟩,
   ⟨.j, .JType, [⟨.rd, .eq, .num 0⟩, ⟨.opcode, .eq, .num 111⟩]⟩,
   ⟨.jalr, .IType, [⟨.rd, .ne, .num 0⟩, ⟨.func3, .eq, .num 0⟩, ⟨.opcode, .eq, .num 103⟩]⟩,
   ⟨.jr, .IType, [⟨.rd, .eq, .num 0⟩, ⟨.func3, .eq, .num 0⟩, ⟨.opcode, .eq, .num 103⟩]⟩,
   ⟨.beq, .BType, [⟨.func3, .eq, .num 0⟩, ⟨.opcode, .eq, .num 99⟩]⟩,
   ⟨.bne, .BType, [⟨.func3, .eq, .num 1⟩, ⟨.opcode, .eq, .num 99⟩]⟩,
   ⟨.blt, .BType, [⟨.func3, .eq, .num 4⟩, ⟨.opcode, .eq, .num 99⟩]⟩,
   ⟨.bge, .BType, [⟨.func3, .eq, .num 5⟩, ⟨.opcode, .eq, .num 99⟩]⟩,
   ⟨.bltu, .BType, [⟨.func3, .eq, .num 6⟩, ⟨.opcode, .eq, .num 99⟩]⟩,
   ⟨.bgeu, .BType, [⟨.func3, .eq, .num 7⟩, ⟨.opcode, .eq, .num 99⟩]⟩,
   ⟨.lb, .BType, [⟨.func3, .eq, .num 0⟩, ⟨.opcode, .eq, .num 3⟩]⟩,
   ⟨.lh, .BType, [⟨.func3, .eq, .num 1⟩, ⟨.opcode, .eq, .num 3⟩]⟩,
   ⟨.lw, .BType, [⟨.func3, .eq, .num 2⟩, ⟨.opcode, .eq, .num 3⟩]⟩,
   ⟨.lbu, .BType, [⟨.func3, .eq, .num 4⟩, ⟨.opcode, .eq, .num 3⟩]⟩,
   ⟨.lhu, .BType, [⟨.func3, .eq, .num 5⟩, ⟨.opcode, .eq, .num 3⟩]⟩,
   ⟨.sb, .SType, [⟨.func3, .eq, .num 0⟩, ⟨.opcode, .eq, .num 35⟩]⟩,
   ⟨.sh, .SType, [⟨.func3, .eq, .num 1⟩, ⟨.opcode, .eq, .num 35⟩]⟩,
   ⟨.sw, .SType, [⟨.func3, .eq, .num 2⟩, ⟨.opcode, .eq, .num 35⟩]⟩,
   ⟨.addi, .IType, [⟨.func3, .eq, .num 0⟩, ⟨.opcode, .eq, .num 19⟩, ⟨.rd, .ne, .num 0⟩]⟩,
   ⟨.nop, .IType, [⟨.func3, .eq, .num 0⟩, ⟨.opcode, .eq, .num 19⟩, ⟨.rd, .eq, .num 0⟩, ⟨.imm12, .eq, .num 0⟩, ⟨.rs1, .eq, .num 0⟩]⟩,
   ⟨.slti, .IType, [⟨.func3, .eq, .num 2⟩, ⟨.opcode, .eq, .num 19⟩, ⟨.rd, .ne, .num 0⟩]⟩,
   ⟨.sltiu, .IType, [⟨.func3, .eq, .num 3⟩, ⟨.opcode, .eq, .num 19⟩, ⟨.rd, .ne, .num 0⟩]⟩,
   ⟨.xori, .IType, [⟨.func3, .eq, .num 4⟩, ⟨.rd, .ne, .num 0⟩, ⟨.opcode, .eq, .num 19⟩]⟩,
   ⟨.ori, .IType, [⟨.func3, .eq, .num 6⟩, ⟨.rd, .ne, .num 0⟩, ⟨.opcode, .eq, .num 19⟩]⟩,
   ⟨.andi, .IType, [⟨.func3, .eq, .num 7⟩, ⟨.opcode, .eq, .num 19⟩, ⟨.rd, .ne, .num 0⟩]⟩,
   ⟨.slli, .RType, [⟨.func7, .eq, .num 0⟩, ⟨.func3, .eq, .num 1⟩, ⟨.opcode, .eq, .num 19⟩]⟩,
   ⟨.srli, .RType, [⟨.func7, .eq, .num 0⟩, ⟨.func3, .eq, .num 5⟩, ⟨.rd, .ne, .num 0⟩, ⟨.opcode, .eq, .num 19⟩]⟩,
   ⟨.srai, .RType, [⟨.func7, .eq, .num 32⟩, ⟨.func3, .eq, .num 5⟩, ⟨.opcode, .eq, .num 19⟩]⟩,
   ⟨.add, .RType, [⟨.func7, .eq, .num 0⟩, ⟨.func3, .eq, .num 0⟩, ⟨.rd, .ne, .num 0⟩, ⟨.opcode, .eq, .num 51⟩]⟩,
   ⟨.sub, .RType, [⟨.func7, .eq, .num 32⟩, ⟨.func3, .eq, .num 0⟩, ⟨.rd, .ne, .num 0⟩, ⟨.opcode, .eq, .num 51⟩]⟩,
   ⟨.sll, .RType, [⟨.func7, .eq, .num 0⟩, ⟨.func3, .eq, .num 1⟩, ⟨.rd, .ne, .num 0⟩, ⟨.opcode, .eq, .num 51⟩]⟩,
   ⟨.slt, .RType, [⟨.func7, .eq, .num 0⟩, ⟨.func3, .eq, .num 2⟩, ⟨.rd, .ne, .num 0⟩, ⟨.opcode, .eq, .num 51⟩]⟩,
   ⟨.sltu, .RType, [⟨.func7, .eq, .num 0⟩, ⟨.func3, .eq, .num 3⟩, ⟨.rd, .ne, .num 0⟩, ⟨.opcode, .eq, .num 51⟩]⟩,
   ⟨.«xor», .RType, [⟨.func7, .eq, .num 0⟩, ⟨.func3, .eq, .num 4⟩, ⟨.rd, .ne, .num 0⟩, ⟨.opcode, .eq, .num 51⟩]⟩,
   ⟨.srl, .RType, [⟨.func7, .eq, .num 0⟩, ⟨.func3, .eq, .num 5⟩, ⟨.rd, .ne, .num 0⟩, ⟨.opcode, .eq, .num 51⟩]⟩,
   ⟨.sra, .RType, [⟨.func7, .eq, .num 32⟩, ⟨.func3, .eq, .num 5⟩, ⟨.rd, .ne, .num 0⟩, ⟨.opcode, .eq, .num 51⟩]⟩,
   ⟨.«or», .RType, [⟨.func7, .eq, .num 0⟩, ⟨.func3, .eq, .num 6⟩, ⟨.rd, .ne, .num 0⟩, ⟨.opcode, .eq, .num 51⟩]⟩,
   ⟨.«and», .RType, [⟨.func7, .eq, .num 0⟩, ⟨.func3, .eq, .num 7⟩, ⟨.rd, .ne, .num 0⟩, ⟨.opcode, .eq, .num 51⟩]⟩,
   ⟨.fence, .Fence, [⟨.fm, .eq, .num 0⟩, ⟨.succ, .ne, .num 0⟩, ⟨.func3, .eq, .num 0⟩, ⟨.opcode, .eq, .num 15⟩]⟩,
   ⟨.fence_tso, .Fence, [⟨.fm, .eq, .num 8⟩, ⟨.pred, .eq, .num 3⟩, ⟨.succ, .eq, .num 3⟩, ⟨.func3, .eq, .num 0⟩, ⟨.opcode, .eq, .num 15⟩]⟩,
   ⟨.ecall, .Inst32Format, [⟨.bits, .eq, .num 0⟩, ⟨.opcode, .eq, .num 115⟩]⟩,
   ⟨.ebreak, .Inst32Format, [⟨.bits, .eq, .num 8192⟩, ⟨.opcode, .eq, .num 115⟩]⟩]

/-- `instruction group RiscVZifenceiInst32` (riscv32g.bin_fmt:93-93). -/
def g_riscv32g_RiscVZifenceiInst32 : List Inst :=
  [⟨.fencei, .IType, [⟨.func3, .eq, .num 1⟩, ⟨.opcode, .eq, .num 15⟩]⟩]

/-- `instruction group RiscVZicsrInst32` (riscv32g.bin_fmt:98-114). -/
def g_riscv32g_RiscVZicsrInst32 : List Inst :=
  [⟨.csrrw, .IType, [⟨.func3, .eq, .num 1⟩, ⟨.u_imm12, .ne, .num 3072⟩, ⟨.rd, .ne, .num 0⟩, ⟨.opcode, .eq, .num 115⟩]⟩,
   ⟨.csrrs, .IType, [⟨.func3, .eq, .num 2⟩, ⟨.rs1, .ne, .num 0⟩, ⟨.rd, .ne, .num 0⟩, ⟨.opcode, .eq, .num 115⟩]⟩,
   ⟨.csrrc, .IType, [⟨.func3, .eq, .num 3⟩, ⟨.rs1, .ne, .num 0⟩, ⟨.rd, .ne, .num 0⟩, ⟨.opcode, .eq, .num 115⟩]⟩,
   ⟨.csrrs_nr, .IType, [⟨.func3, .eq, .num 2⟩, ⟨.rs1, .ne, .num 0⟩, ⟨.rd, .eq, .num 0⟩, ⟨.opcode, .eq, .num 115⟩]⟩,
   ⟨.csrrc_nr, .IType, [⟨.func3, .eq, .num 3⟩, ⟨.rs1, .ne, .num 0⟩, ⟨.rd, .eq, .num 0⟩, ⟨.opcode, .eq, .num 115⟩]⟩,
   ⟨.csrrw_nr, .IType, [⟨.func3, .eq, .num 1⟩, ⟨.u_imm12, .ne, .num 3072⟩, ⟨.rd, .eq, .num 0⟩, ⟨.opcode, .eq, .num 115⟩]⟩,
   ⟨.csrrs_nw, .IType, [⟨.func3, .eq, .num 2⟩, ⟨.rs1, .eq, .num 0⟩, ⟨.opcode, .eq, .num 115⟩]⟩,
   ⟨.csrrc_nw, .IType, [⟨.func3, .eq, .num 3⟩, ⟨.rs1, .eq, .num 0⟩, ⟨.opcode, .eq, .num 115⟩]⟩,
   ⟨.csrrwi, .IType, [⟨.func3, .eq, .num 5⟩, ⟨.rd, .ne, .num 0⟩, ⟨.opcode, .eq, .num 115⟩]⟩,
   ⟨.csrrsi, .IType, [⟨.func3, .eq, .num 6⟩, ⟨.rs1, .ne, .num 0⟩, ⟨.rd, .ne, .num 0⟩, ⟨.opcode, .eq, .num 115⟩]⟩,
   ⟨.csrrci, .IType, [⟨.func3, .eq, .num 7⟩, ⟨.rs1, .ne, .num 0⟩, ⟨.rd, .ne, .num 0⟩, ⟨.opcode, .eq, .num 115⟩]⟩,
   ⟨.csrrsi_nr, .IType, [⟨.func3, .eq, .num 6⟩, ⟨.rs1, .ne, .num 0⟩, ⟨.rd, .eq, .num 0⟩, ⟨.opcode, .eq, .num 115⟩]⟩,
   ⟨.csrrci_nr, .IType, [⟨.func3, .eq, .num 7⟩, ⟨.rs1, .ne, .num 0⟩, ⟨.rd, .eq, .num 0⟩, ⟨.opcode, .eq, .num 115⟩]⟩,
   ⟨.csrrwi_nr, .IType, [⟨.func3, .eq, .num 5⟩, ⟨.rd, .eq, .num 0⟩, ⟨.opcode, .eq, .num 115⟩]⟩,
   ⟨.csrrsi_nw, .IType, [⟨.func3, .eq, .num 6⟩, ⟨.rs1, .eq, .num 0⟩, ⟨.opcode, .eq, .num 115⟩]⟩,
   ⟨.csrrci_nw, .IType, [⟨.func3, .eq, .num 7⟩, ⟨.rs1, .eq, .num 0⟩, ⟨.opcode, .eq, .num 115⟩]⟩,
   ⟨.unimp, .IType, [⟨.func3, .eq, .num 1⟩, ⟨.u_imm12, .eq, .num 3072⟩, ⟨.rs1, .eq, .num 0⟩, ⟨.rd, .eq, .num 0⟩, ⟨.opcode, .eq, .num 115⟩]⟩]

/-- `instruction group RiscVMInst32` (riscv32g.bin_fmt:119-126). -/
def g_riscv32g_RiscVMInst32 : List Inst :=
  [⟨.mul, .RType, [⟨.func7, .eq, .num 1⟩, ⟨.func3, .eq, .num 0⟩, ⟨.opcode, .eq, .num 51⟩]⟩,
   ⟨.mulh, .RType, [⟨.func7, .eq, .num 1⟩, ⟨.func3, .eq, .num 1⟩, ⟨.opcode, .eq, .num 51⟩]⟩,
   ⟨.mulhsu, .RType, [⟨.func7, .eq, .num 1⟩, ⟨.func3, .eq, .num 2⟩, ⟨.opcode, .eq, .num 51⟩]⟩,
   ⟨.mulhu, .RType, [⟨.func7, .eq, .num 1⟩, ⟨.func3, .eq, .num 3⟩, ⟨.opcode, .eq, .num 51⟩]⟩,
   ⟨.div, .RType, [⟨.func7, .eq, .num 1⟩, ⟨.func3, .eq, .num 4⟩, ⟨.opcode, .eq, .num 51⟩]⟩,
   ⟨.divu, .RType, [⟨.func7, .eq, .num 1⟩, ⟨.func3, .eq, .num 5⟩, ⟨.opcode, .eq, .num 51⟩]⟩,
   ⟨.rem, .RType, [⟨.func7, .eq, .num 1⟩, ⟨.func3, .eq, .num 6⟩, ⟨.opcode, .eq, .num 51⟩]⟩,
   ⟨.remu, .RType, [⟨.func7, .eq, .num 1⟩, ⟨.func3, .eq, .num 7⟩, ⟨.opcode, .eq, .num 51⟩]⟩]

/-- `instruction group RiscVAInst32` (riscv32g.bin_fmt:131-141). -/
def g_riscv32g_RiscVAInst32 : List Inst :=
  [⟨.lrw, .AType, [⟨.func5, .eq, .num 2⟩, ⟨.rs2, .eq, .num 0⟩, ⟨.func3, .eq, .num 2⟩, ⟨.opcode, .eq, .num 47⟩]⟩,
   ⟨.scw, .AType, [⟨.func5, .eq, .num 3⟩, ⟨.func3, .eq, .num 2⟩, ⟨.opcode, .eq, .num 47⟩]⟩,
   ⟨.amoswapw, .AType, [⟨.func5, .eq, .num 1⟩, ⟨.func3, .eq, .num 2⟩, ⟨.opcode, .eq, .num 47⟩]⟩,
   ⟨.amoaddw, .AType, [⟨.func5, .eq, .num 0⟩, ⟨.func3, .eq, .num 2⟩, ⟨.opcode, .eq, .num 47⟩]⟩,
   ⟨.amoxorw, .AType, [⟨.func5, .eq, .num 4⟩, ⟨.func3, .eq, .num 2⟩, ⟨.opcode, .eq, .num 47⟩]⟩,
   ⟨.amoandw, .AType, [⟨.func5, .eq, .num 12⟩, ⟨.func3, .eq, .num 2⟩, ⟨.opcode, .eq, .num 47⟩]⟩,
   ⟨.amoorw, .AType, [⟨.func5, .eq, .num 8⟩, ⟨.func3, .eq, .num 2⟩, ⟨.opcode, .eq, .num 47⟩]⟩,
   ⟨.amominw, .AType, [⟨.func5, .eq, .num 16⟩, ⟨.func3, .eq, .num 2⟩, ⟨.opcode, .eq, .num 47⟩]⟩,
   ⟨.amomaxw, .AType, [⟨.func5, .eq, .num 20⟩, ⟨.func3, .eq, .num 2⟩, ⟨.opcode, .eq, .num 47⟩]⟩,
   ⟨.amominuw, .AType, [⟨.func5, .eq, .num 24⟩, ⟨.func3, .eq, .num 2⟩, ⟨.opcode, .eq, .num 47⟩]⟩,
   ⟨.amomaxuw, .AType, [⟨.func5, .eq, .num 28⟩, ⟨.func3, .eq, .num 2⟩, ⟨.opcode, .eq, .num 47⟩]⟩]

/-- `instruction group RiscVFInst32` (riscv32g.bin_fmt:146-171). -/
def g_riscv32g_RiscVFInst32 : List Inst :=
  [⟨.flw, .IType, [⟨.func3, .eq, .num 2⟩, ⟨.opcode, .eq, .num 7⟩]⟩,
   ⟨.fsw, .SType, [⟨.func3, .eq, .num 2⟩, ⟨.opcode, .eq, .num 39⟩]⟩,
   ⟨.fmadd_s, .R4Type, [⟨.func2, .eq, .num 0⟩, ⟨.opcode, .eq, .num 67⟩]⟩,
   ⟨.fmsub_s, .R4Type, [⟨.func2, .eq, .num 0⟩, ⟨.opcode, .eq, .num 71⟩]⟩,
   ⟨.fnmsub_s, .R4Type, [⟨.func2, .eq, .num 0⟩, ⟨.opcode, .eq, .num 75⟩]⟩,
   ⟨.fnmadd_s, .R4Type, [⟨.func2, .eq, .num 0⟩, ⟨.opcode, .eq, .num 79⟩]⟩,
   ⟨.fadd_s, .RType, [⟨.func7, .eq, .num 0⟩, ⟨.opcode, .eq, .num 83⟩]⟩,
   ⟨.fsub_s, .RType, [⟨.func7, .eq, .num 4⟩, ⟨.opcode, .eq, .num 83⟩]⟩,
   ⟨.fmul_s, .RType, [⟨.func7, .eq, .num 8⟩, ⟨.opcode, .eq, .num 83⟩]⟩,
   ⟨.fdiv_s, .RType, [⟨.func7, .eq, .num 12⟩, ⟨.opcode, .eq, .num 83⟩]⟩,
   ⟨.fsqrt_s, .RType, [⟨.func7, .eq, .num 44⟩, ⟨.rs2, .eq, .num 0⟩, ⟨.opcode, .eq, .num 83⟩]⟩,
   ⟨.fsgnj_s, .RType, [⟨.func7, .eq, .num 16⟩, ⟨.func3, .eq, .num 0⟩, ⟨.opcode, .eq, .num 83⟩]⟩,
   ⟨.fsgnjn_s, .RType, [⟨.func7, .eq, .num 16⟩, ⟨.func3, .eq, .num 1⟩, ⟨.opcode, .eq, .num 83⟩]⟩,
   ⟨.fsgnjx_s, .RType, [⟨.func7, .eq, .num 16⟩, ⟨.func3, .eq, .num 2⟩, ⟨.opcode, .eq, .num 83⟩]⟩,
   ⟨.fmin_s, .RType, [⟨.func7, .eq, .num 20⟩, ⟨.func3, .eq, .num 0⟩, ⟨.opcode, .eq, .num 83⟩]⟩,
   ⟨.fmax_s, .RType, [⟨.func7, .eq, .num 20⟩, ⟨.func3, .eq, .num 1⟩, ⟨.opcode, .eq, .num 83⟩]⟩,
   ⟨.fcvt_ws, .RType, [⟨.func7, .eq, .num 96⟩, ⟨.rs2, .eq, .num 0⟩, ⟨.opcode, .eq, .num 83⟩]⟩,
   ⟨.fcvt_wus, .RType, [⟨.func7, .eq, .num 96⟩, ⟨.rs2, .eq, .num 1⟩, ⟨.opcode, .eq, .num 83⟩]⟩,
   ⟨.fmv_xw, .RType, [⟨.func7, .eq, .num 112⟩, ⟨.rs2, .eq, .num 0⟩, ⟨.func3, .eq, .num 0⟩, ⟨.opcode, .eq, .num 83⟩]⟩,
   ⟨.fcmpeq_s, .RType, [⟨.func7, .eq, .num 80⟩, ⟨.func3, .eq, .num 2⟩, ⟨.opcode, .eq, .num 83⟩]⟩,
   ⟨.fcmplt_s, .RType, [⟨.func7, .eq, .num 80⟩, ⟨.func3, .eq, .num 1⟩, ⟨.opcode, .eq, .num 83⟩]⟩,
   ⟨.fcmple_s, .RType, [⟨.func7, .eq, .num 80⟩, ⟨.func3, .eq, .num 0⟩, ⟨.opcode, .eq, .num 83⟩]⟩,
   ⟨.fclass_s, .RType, [⟨.func7, .eq, .num 112⟩, ⟨.rs2, .eq, .num 0⟩, ⟨.func3, .eq, .num 1⟩, ⟨.opcode, .eq, .num 83⟩]⟩,
   ⟨.fcvt_sw, .RType, [⟨.func7, .eq, .num 104⟩, ⟨.rs2, .eq, .num 0⟩, ⟨.opcode, .eq, .num 83⟩]⟩,
   ⟨.fcvt_swu, .RType, [⟨.func7, .eq, .num 104⟩, ⟨.rs2, .eq, .num 1⟩, ⟨.opcode, .eq, .num 83⟩]⟩,
   ⟨.fmv_wx, .RType, [⟨.func7, .eq, .num 120⟩, ⟨.rs2, .eq, .num 0⟩, ⟨.func3, .eq, .num 0⟩, ⟨.opcode, .eq, .num 83⟩]⟩]

/-- `instruction group RiscVDInst32` (riscv32g.bin_fmt:176-201). -/
def g_riscv32g_RiscVDInst32 : List Inst :=
  [⟨.fld, .IType, [⟨.func3, .eq, .num 3⟩, ⟨.opcode, .eq, .num 7⟩]⟩,
   ⟨.fsd, .SType, [⟨.func3, .eq, .num 3⟩, ⟨.opcode, .eq, .num 39⟩]⟩,
   ⟨.fmadd_d, .R4Type, [⟨.func2, .eq, .num 1⟩, ⟨.opcode, .eq, .num 67⟩]⟩,
   ⟨.fmsub_d, .R4Type, [⟨.func2, .eq, .num 1⟩, ⟨.opcode, .eq, .num 71⟩]⟩,
   ⟨.fnmsub_d, .R4Type, [⟨.func2, .eq, .num 1⟩, ⟨.opcode, .eq, .num 75⟩]⟩,
   ⟨.fnmadd_d, .R4Type, [⟨.func2, .eq, .num 1⟩, ⟨.opcode, .eq, .num 79⟩]⟩,
   ⟨.fadd_d, .RType, [⟨.func7, .eq, .num 1⟩, ⟨.opcode, .eq, .num 83⟩]⟩,
   ⟨.fsub_d, .RType, [⟨.func7, .eq, .num 5⟩, ⟨.opcode, .eq, .num 83⟩]⟩,
   ⟨.fmul_d, .RType, [⟨.func7, .eq, .num 9⟩, ⟨.opcode, .eq, .num 83⟩]⟩,
   ⟨.fdiv_d, .RType, [⟨.func7, .eq, .num 13⟩, ⟨.opcode, .eq, .num 83⟩]⟩,
   ⟨.fsqrt_d, .RType, [⟨.func7, .eq, .num 45⟩, ⟨.rs2, .eq, .num 0⟩, ⟨.opcode, .eq, .num 83⟩]⟩,
   ⟨.fsgnj_d, .RType, [⟨.func7, .eq, .num 17⟩, ⟨.func3, .eq, .num 0⟩, ⟨.opcode, .eq, .num 83⟩]⟩,
   ⟨.fsgnjn_d, .RType, [⟨.func7, .eq, .num 17⟩, ⟨.func3, .eq, .num 1⟩, ⟨.opcode, .eq, .num 83⟩]⟩,
   ⟨.fsgnjx_d, .RType, [⟨.func7, .eq, .num 17⟩, ⟨.func3, .eq, .num 2⟩, ⟨.opcode, .eq, .num 83⟩]⟩,
   ⟨.fmin_d, .RType, [⟨.func7, .eq, .num 21⟩, ⟨.func3, .eq, .num 0⟩, ⟨.opcode, .eq, .num 83⟩]⟩,
   ⟨.fmax_d, .RType, [⟨.func7, .eq, .num 21⟩, ⟨.func3, .eq, .num 1⟩, ⟨.opcode, .eq, .num 83⟩]⟩,
   ⟨.fcvt_sd, .RType, [⟨.func7, .eq, .num 32⟩, ⟨.rs2, .eq, .num 1⟩, ⟨.opcode, .eq, .num 83⟩]⟩,
   ⟨.fcvt_ds, .RType, [⟨.func7, .eq, .num 33⟩, ⟨.rs2, .eq, .num 0⟩, ⟨.opcode, .eq, .num 83⟩]⟩,
   ⟨.fcmpeq_d, .RType, [⟨.func7, .eq, .num 81⟩, ⟨.func3, .eq, .num 2⟩, ⟨.opcode, .eq, .num 83⟩]⟩,
   ⟨.fcmplt_d, .RType, [⟨.func7, .eq, .num 81⟩, ⟨.func3, .eq, .num 1⟩, ⟨.opcode, .eq, .num 83⟩]⟩,
   ⟨.fcmple_d, .RType, [⟨.func7, .eq, .num 81⟩, ⟨.func3, .eq, .num 0⟩, ⟨.opcode, .eq, .num 83⟩]⟩,
   ⟨.fclass_d, .RType, [⟨.func7, .eq, .num 113⟩, ⟨.rs2, .eq, .num 0⟩, ⟨.func3, .eq, .num 1⟩, ⟨.opcode, .eq, .num 83⟩]⟩,
   ⟨.fcvt_wd, .RType, [⟨.func7, .eq, .num 97⟩, ⟨.rs2, .eq, .num 0⟩, ⟨.opcode, .eq, .num 83⟩]⟩,
   ⟨.fcvt_wud, .RType, [⟨.func7, .eq, .num 97⟩, ⟨.rs2, .eq, .num 1⟩, ⟨.opcode, .eq, .num 83⟩]⟩,
   ⟨.fcvt_dw, .RType, [⟨.func7, .eq, .num 105⟩, ⟨.rs2, .eq, .num 0⟩, ⟨.opcode, .eq, .num 83⟩]⟩,
   ⟨.fcvt_dwu, .RType, [⟨.func7, .eq, .num 105⟩, ⟨.rs2, .eq, .num 1⟩, ⟨.opcode, .eq, .num 83⟩]⟩]

/-- `instruction group RiscVPrivInst32` (riscv32g.bin_fmt:206-213). -/
def g_riscv32g_RiscVPrivInst32 : List Inst :=
  [⟨.uret, .Inst32Format, [⟨.bits, .eq, .num 16384⟩, ⟨.opcode, .eq, .num 115⟩]⟩,
   ⟨.sret, .Inst32Format, [⟨.bits, .eq, .num 2113536⟩, ⟨.opcode, .eq, .num 115⟩]⟩,
   ⟨.mret, .Inst32Format, [⟨.bits, .eq, .num 6307840⟩, ⟨.opcode, .eq, .num 115⟩]⟩,
   ⟨.wfi, .Inst32Format, [⟨.bits, .eq, .num 2138112⟩, ⟨.opcode, .eq, .num 115⟩]⟩,
   ⟨.sfence_vma_zz, .RType, [⟨.func7, .eq, .num 9⟩, ⟨.rs2, .eq, .num 0⟩, ⟨.rs1, .eq, .num 0⟩, ⟨.func3, .eq, .num 0⟩, ⟨.rd, .eq, .num 0⟩, ⟨.opcode, .eq, .num 115⟩]⟩,
   ⟨.sfence_vma_zn, .RType, [⟨.func7, .eq, .num 9⟩, ⟨.rs2, .ne, .num 0⟩, ⟨.rs1, .eq, .num 0⟩, ⟨.func3, .eq, .num 0⟩, ⟨.rd, .eq, .num 0⟩, ⟨.opcode, .eq, .num 115⟩]⟩,
   ⟨.sfence_vma_nz, .RType, [⟨.func7, .eq, .num 9⟩, ⟨.rs2, .eq, .num 0⟩, ⟨.rs1, .ne, .num 0⟩, ⟨.func3, .eq, .num 0⟩, ⟨.rd, .eq, .num 0⟩, ⟨.opcode, .eq, .num 115⟩]⟩,
   ⟨.sfence_vma_nn, .RType, [⟨.func7, .eq, .num 9⟩, ⟨.rs2, .ne, .num 0⟩, ⟨.rs1, .ne, .num 0⟩, ⟨.func3, .eq, .num 0⟩, ⟨.rd, .eq, .num 0⟩, ⟨.opcode, .eq, .num 115⟩]⟩]

/-- `instruction group RiscVIHints32` (riscv32g.bin_fmt:218-252). -/
def g_riscv32g_RiscVIHints32 : List Inst :=
  [⟨.lui_hint, .UType, [⟨.opcode, .eq, .num 55⟩, ⟨.rd, .eq, .num 0⟩]⟩,
   ⟨.auipc_hint, .UType, [⟨.opcode, .eq, .num 23⟩, ⟨.rd, .eq, .num 0⟩]⟩,
   ⟨.addi_hint1, .IType, [⟨.func3, .eq, .num 0⟩, ⟨.opcode, .eq, .num 19⟩, ⟨.rd, .eq, .num 0⟩, ⟨.rs1, .ne, .num 0⟩]⟩,
   ⟨.addi_hint2, .IType, [⟨.func3, .eq, .num 0⟩, ⟨.opcode, .eq, .num 19⟩, ⟨.rd, .eq, .num 0⟩, ⟨.imm12, .ne, .num 0⟩]⟩,
   ⟨.slti_hint, .IType, [⟨.func3, .eq, .num 2⟩, ⟨.opcode, .eq, .num 19⟩, ⟨.rd, .eq, .num 0⟩]⟩,
   ⟨.sltiu_hint, .IType, [⟨.func3, .eq, .num 3⟩, ⟨.opcode, .eq, .num 19⟩, ⟨.rd, .eq, .num 0⟩]⟩,
   ⟨.xori_hint, .IType, [⟨.func3, .eq, .num 4⟩, ⟨.rd, .eq, .num 0⟩, ⟨.opcode, .eq, .num 19⟩]⟩,
   ⟨.ori_hint, .IType, [⟨.func3, .eq, .num 6⟩, ⟨.rd, .eq, .num 0⟩, ⟨.opcode, .eq, .num 19⟩]⟩,
   ⟨.andi_hint, .IType, [⟨.func3, .eq, .num 7⟩, ⟨.opcode, .eq, .num 19⟩, ⟨.rd, .eq, .num 0⟩]⟩,
   ⟨.srli_hint, .RType, [⟨.func7, .eq, .num 0⟩, ⟨.func3, .eq, .num 5⟩, ⟨.rd, .eq, .num 0⟩, ⟨.opcode, .eq, .num 19⟩]⟩,
   ⟨.slt_hint, .RType, [⟨.func7, .eq, .num 0⟩, ⟨.func3, .eq, .num 2⟩, ⟨.rd, .eq, .num 0⟩, ⟨.opcode, .eq, .num 51⟩]⟩,
   ⟨.slli_semihost, .RType, [⟨.func7, .eq, .num 0⟩, ⟨.func3, .eq, .num 1⟩, ⟨.rd, .eq, .num 0⟩, ⟨.rs1, .eq, .num 0⟩, ⟨.r_uimm5, .eq, .num 31⟩, ⟨.opcode, .eq, .num 19⟩]⟩,
   ⟨.slli_hint1, .RType, [⟨.func7, .eq, .num 0⟩, ⟨.func3, .eq, .num 1⟩, ⟨.rd, .eq, .num 0⟩, ⟨.rs1, .ne, .num 0⟩, ⟨.opcode, .eq, .num 19⟩]⟩,
   ⟨.slli_hint2, .RType, [⟨.func7, .eq, .num 0⟩, ⟨.func3, .eq, .num 1⟩, ⟨.rd, .eq, .num 0⟩, ⟨.r_uimm5, .ne, .num 31⟩, ⟨.opcode, .eq, .num 19⟩]⟩,
   ⟨.srai_semihost, .RType, [⟨.func7, .eq, .num 32⟩, ⟨.func3, .eq, .num 5⟩, ⟨.rd, .eq, .num 0⟩, ⟨.rs1, .eq, .num 0⟩, ⟨.r_uimm5, .eq, .num 7⟩, ⟨.opcode, .eq, .num 19⟩]⟩,
   ⟨.srai_hint1, .RType, [⟨.func7, .eq, .num 32⟩, ⟨.func3, .eq, .num 5⟩, ⟨.rd, .eq, .num 0⟩, ⟨.rs1, .ne, .num 0⟩, ⟨.opcode, .eq, .num 19⟩]⟩,
   ⟨.srai_hint2, .RType, [⟨.func7, .eq, .num 32⟩, ⟨.func3, .eq, .num 5⟩, ⟨.rd, .eq, .num 0⟩, ⟨.r_uimm5, .ne, .num 7⟩, ⟨.opcode, .eq, .num 19⟩]⟩,
   ⟨.add_hint1, .RType, [⟨.func7, .eq, .num 0⟩, ⟨.func3, .eq, .num 0⟩, ⟨.rd, .eq, .num 0⟩, ⟨.rs1, .ne, .num 0⟩, ⟨.opcode, .eq, .num 51⟩]⟩,
   ⟨.add_hint2, .RType, [⟨.func7, .eq, .num 0⟩, ⟨.func3, .eq, .num 0⟩, ⟨.rd, .eq, .num 0⟩, ⟨.rs1, .eq, .num 0⟩, ⟨.rs2, .gt, .num 5⟩, ⟨.opcode, .eq, .num 51⟩]⟩,
   ⟨.add_hint3, .RType, [⟨.func7, .eq, .num 0⟩, ⟨.func3, .eq, .num 0⟩, ⟨.rd, .eq, .num 0⟩, ⟨.rs1, .eq, .num 0⟩, ⟨.rs2, .lt, .num 2⟩, ⟨.opcode, .eq, .num 51⟩]⟩,
   ⟨.sub_hint, .RType, [⟨.func7, .eq, .num 32⟩, ⟨.func3, .eq, .num 0⟩, ⟨.rd, .eq, .num 0⟩, ⟨.opcode, .eq, .num 51⟩]⟩,
   ⟨.sll_hint, .RType, [⟨.func7, .eq, .num 0⟩, ⟨.func3, .eq, .num 1⟩, ⟨.rd, .eq, .num 0⟩, ⟨.opcode, .eq, .num 51⟩]⟩,
   ⟨.sltu_hint, .RType, [⟨.func7, .eq, .num 0⟩, ⟨.func3, .eq, .num 3⟩, ⟨.rd, .eq, .num 0⟩, ⟨.opcode, .eq, .num 51⟩]⟩,
   ⟨.xor_hint, .RType, [⟨.func7, .eq, .num 0⟩, ⟨.func3, .eq, .num 4⟩, ⟨.rd, .eq, .num 0⟩, ⟨.opcode, .eq, .num 51⟩]⟩,
   ⟨.srl_hint, .RType, [⟨.func7, .eq, .num 0⟩, ⟨.func3, .eq, .num 5⟩, ⟨.rd, .eq, .num 0⟩, ⟨.opcode, .eq, .num 51⟩]⟩,
   ⟨.sra_hint, .RType, [⟨.func7, .eq, .num 32⟩, ⟨.func3, .eq, .num 5⟩, ⟨.rd, .eq, .num 0⟩, ⟨.opcode, .eq, .num 51⟩]⟩,
   ⟨.or_hint, .RType, [⟨.func7, .eq, .num 0⟩, ⟨.func3, .eq, .num 6⟩, ⟨.rd, .eq, .num 0⟩, ⟨.opcode, .eq, .num 51⟩]⟩,
   ⟨.and_hint, .RType, [⟨.func7, .eq, .num 0⟩, ⟨.func3, .eq, .num 7⟩, ⟨.rd, .eq, .num 0⟩, ⟨.opcode, .eq, .num 51⟩]⟩,
   ⟨.fence_hint1, .Fence, [⟨.func3, .eq, .num 0⟩, ⟨.rd, .eq, .num 0⟩, ⟨.rs1, .ne, .num 0⟩, ⟨.fm, .eq, .num 0⟩, ⟨.pred, .eq, .num 0⟩, ⟨.opcode, .eq, .num 15⟩]⟩,
   ⟨.fence_hint2, .Fence, [⟨.func3, .eq, .num 0⟩, ⟨.rd, .eq, .num 0⟩, ⟨.rs1, .ne, .num 0⟩, ⟨.fm, .eq, .num 0⟩, ⟨.succ, .eq, .num 0⟩, ⟨.opcode, .eq, .num 15⟩]⟩,
   ⟨.fence_hint3, .Fence, [⟨.func3, .eq, .num 0⟩, ⟨.rd, .ne, .num 0⟩, ⟨.rs1, .eq, .num 0⟩, ⟨.fm, .eq, .num 0⟩, ⟨.pred, .eq, .num 0⟩, ⟨.opcode, .eq, .num 15⟩]⟩,
   ⟨.fence_hint4, .Fence, [⟨.func3, .eq, .num 0⟩, ⟨.rd, .ne, .num 0⟩, ⟨.rs1, .eq, .num 0⟩, ⟨.fm, .eq, .num 0⟩, ⟨.succ, .eq, .num 0⟩, ⟨.opcode, .eq, .num 15⟩]⟩,
   ⟨.fence_hint5, .Fence, [⟨.func3, .eq, .num 0⟩, ⟨.rd, .eq, .num 0⟩, ⟨.rs1, .eq, .num 0⟩, ⟨.fm, .eq, .num 0⟩, ⟨.pred, .eq, .num 0⟩, ⟨.succ, .ne, .num 0⟩, ⟨.opcode, .eq, .num 15⟩]⟩,
   ⟨.fence_hint6, .Fence, [⟨.func3, .eq, .num 0⟩, ⟨.rd, .eq, .num 0⟩, ⟨.rs1, .eq, .num 0⟩, ⟨.fm, .eq, .num 0⟩, ⟨.succ, .eq, .num 0⟩, ⟨.opcode, .eq, .num 15⟩]⟩,
   ⟨.fence_hint7, .Fence, [⟨.func3, .eq, .num 0⟩, ⟨.rd, .ne, .num 0⟩, ⟨.rs1, .eq, .num 0⟩, ⟨.fm, .eq, .num 0⟩, ⟨.pred, .ne, .num 1⟩, ⟨.succ, .eq, .num 0⟩, ⟨.opcode, .eq, .num 15⟩]⟩]

/-- `instruction group RiscVCInstBase16` (riscv32g.bin_fmt:259-294). -/
def g_riscv32g_RiscVCInstBase16 : List Inst :=
  [⟨.caddi4spn, .CIW, [⟨.func3, .eq, .num 0⟩, ⟨.op, .eq, .num 0⟩, ⟨.imm8, .ne, .num 0⟩]⟩,
   ⟨.cfld, .CL, [⟨.func3, .eq, .num 1⟩, ⟨.op, .eq, .num 0⟩]⟩,
   ⟨.clw, .CL, [⟨.func3, .eq, .num 2⟩, ⟨.op, .eq, .num 0⟩]⟩,
   ⟨.cflw, .CL, [⟨.func3, .eq, .num 3⟩, ⟨.op, .eq, .num 0⟩]⟩,
   ⟨.cfsd, .CS, [⟨.func3, .eq, .num 5⟩, ⟨.op, .eq, .num 0⟩]⟩,
   ⟨.csw, .CS, [⟨.func3, .eq, .num 6⟩, ⟨.op, .eq, .num 0⟩]⟩,
   ⟨.cfsw, .CS, [⟨.func3, .eq, .num 7⟩, ⟨.op, .eq, .num 0⟩]⟩,
   ⟨.cnop, .CI, [⟨.func3, .eq, .num 0⟩, ⟨.imm1, .eq, .num 0⟩, ⟨.rs1, .eq, .num 0⟩, ⟨.imm5, .eq, .num 0⟩, ⟨.op, .eq, .num 1⟩]⟩,
   ⟨.caddi, .CI, [⟨.func3, .eq, .num 0⟩, ⟨.imm6, .ne, .num 0⟩, ⟨.rd, .ne, .num 0⟩, ⟨.op, .eq, .num 1⟩]⟩,
   ⟨.cjal, .CJ, [⟨.func3, .eq, .num 1⟩, ⟨.op, .eq, .num 1⟩]⟩,
   ⟨.cli, .CI, [⟨.func3, .eq, .num 2⟩, ⟨.rd, .ne, .num 0⟩, ⟨.op, .eq, .num 1⟩]⟩,
   ⟨.caddi16sp, .CI, [⟨.func3, .eq, .num 3⟩, ⟨.rd, .eq, .num 2⟩, ⟨.op, .eq, .num 1⟩]⟩,
   ⟨.clui, .CI, [⟨.func3, .eq, .num 3⟩, ⟨.rd, .ne, .num 0⟩, ⟨.rd, .ne, .num 2⟩, ⟨.op, .eq, .num 1⟩]⟩,
   ⟨.csrli, .CB, [⟨.func3, .eq, .num 4⟩, ⟨.imm3, .eq, .num 0⟩, ⟨.op, .eq, .num 1⟩]⟩,
   ⟨.csrai, .CB, [⟨.func3, .eq, .num 4⟩, ⟨.imm3, .eq, .num 1⟩, ⟨.op, .eq, .num 1⟩]⟩,
   ⟨.candi, .CB, [⟨.func3, .eq, .num 4⟩, ⟨.func2, .eq, .num 2⟩, ⟨.op, .eq, .num 1⟩]⟩,
   ⟨.csub, .CA, [⟨.func6, .eq, .num 35⟩, ⟨.func2, .eq, .num 0⟩, ⟨.op, .eq, .num 1⟩]⟩,
   ⟨.cxor, .CA, [⟨.func6, .eq, .num 35⟩, ⟨.func2, .eq, .num 1⟩, ⟨.op, .eq, .num 1⟩]⟩,
   ⟨.cor, .CA, [⟨.func6, .eq, .num 35⟩, ⟨.func2, .eq, .num 2⟩, ⟨.op, .eq, .num 1⟩]⟩,
   ⟨.cand, .CA, [⟨.func6, .eq, .num 35⟩, ⟨.func2, .eq, .num 3⟩, ⟨.op, .eq, .num 1⟩]⟩,
   ⟨.cj, .CJ, [⟨.func3, .eq, .num 5⟩, ⟨.op, .eq, .num 1⟩]⟩,
   ⟨.cbeqz, .CB, [⟨.func3, .eq, .num 6⟩, ⟨.op, .eq, .num 1⟩]⟩,
   ⟨.cbnez, .CB, [⟨.func3, .eq, .num 7⟩, ⟨.op, .eq, .num 1⟩]⟩,
   ⟨.cslli, .CI, [⟨.func3, .eq, .num 0⟩, ⟨.imm1, .eq, .num 0⟩, ⟨.rs1, .ne, .num 0⟩, ⟨.op, .eq, .num 2⟩]⟩,
   ⟨.cfldsp, .CI, [⟨.func3, .eq, .num 1⟩, ⟨.op, .eq, .num 2⟩]⟩,
   ⟨.clwsp, .CI, [⟨.func3, .eq, .num 2⟩, ⟨.rd, .ne, .num 0⟩, ⟨.op, .eq, .num 2⟩]⟩,
   ⟨.cflwsp, .CI, [⟨.func3, .eq, .num 3⟩, ⟨.op, .eq, .num 2⟩]⟩,
   ⟨.cjr, .CR, [⟨.func4, .eq, .num 8⟩, ⟨.rs1, .ne, .num 0⟩, ⟨.rs2, .eq, .num 0⟩, ⟨.op, .eq, .num 2⟩]⟩,
   ⟨.cmv, .CR, [⟨.func4, .eq, .num 8⟩, ⟨.rs1, .ne, .num 0⟩, ⟨.rs2, .ne, .num 0⟩, ⟨.op, .eq, .num 2⟩]⟩,
   ⟨.cebreak, .CR, [⟨.func4, .eq, .num 9⟩, ⟨.rs1, .eq, .num 0⟩, ⟨.rs2, .eq, .num 0⟩, ⟨.op, .eq, .num 2⟩]⟩,
   ⟨.cjalr, .CR, [⟨.func4, .eq, .num 9⟩, ⟨.rs1, .ne, .num 0⟩, ⟨.rs2, .eq, .num 0⟩, ⟨.op, .eq, .num 2⟩]⟩,
   ⟨.cadd, .CR, [⟨.func4, .eq, .num 9⟩, ⟨.rs1, .ne, .num 0⟩, ⟨.rs2, .ne, .num 0⟩, ⟨.op, .eq, .num 2⟩]⟩,
   ⟨.cfsdsp, .CSS, [⟨.func3, .eq, .num 5⟩, ⟨.op, .eq, .num 2⟩]⟩,
   ⟨.cswsp, .CSS, [⟨.func3, .eq, .num 6⟩, ⟨.op, .eq, .num 2⟩]⟩,
   ⟨.cfswsp, .CSS, [⟨.func3, .eq, .num 7⟩, ⟨.op, .eq, .num 2⟩]⟩,
   ⟨.cunimp, .Inst16Format, [⟨.func3, .eq, .num 0⟩, ⟨.bits, .eq, .num 0⟩, ⟨.op, .eq, .num 0⟩]⟩]

/-- `instruction group RiscVCHints16` (riscv32g.bin_fmt:298-304). -/
def g_riscv32g_RiscVCHints16 : List Inst :=
  [⟨.cnop_hint, .CI, [⟨.func3, .eq, .num 0⟩, ⟨.imm6, .ne, .num 0⟩, ⟨.rs1, .eq, .num 0⟩, ⟨.op, .eq, .num 1⟩]⟩,
   ⟨.caddi_hint, .CI, [⟨.func3, .eq, .num 0⟩, ⟨.imm6, .eq, .num 0⟩, ⟨.rd, .ne, .num 0⟩, ⟨.op, .eq, .num 1⟩]⟩,
   ⟨.cli_hint, .CI, [⟨.func3, .eq, .num 2⟩, ⟨.rd, .eq, .num 0⟩, ⟨.op, .eq, .num 1⟩]⟩,
   ⟨.clui_hint, .CI, [⟨.func3, .eq, .num 3⟩, ⟨.rd, .eq, .num 0⟩, ⟨.imm6, .ne, .num 0⟩, ⟨.op, .eq, .num 1⟩]⟩,
   ⟨.cmv_hint, .CR, [⟨.func4, .eq, .num 8⟩, ⟨.rs1, .eq, .num 0⟩, ⟨.rs2, .ne, .num 0⟩, ⟨.op, .eq, .num 2⟩]⟩,
   ⟨.cslli_hint, .CI, [⟨.func3, .eq, .num 0⟩, ⟨.imm6, .ne, .num 0⟩, ⟨.rd, .eq, .num 0⟩, ⟨.op, .eq, .num 2⟩]⟩,
   ⟨.cadd_hint, .CR, [⟨.func4, .eq, .num 9⟩, ⟨.rs1, .eq, .num 0⟩, ⟨.rs2, .ne, .num 0⟩, ⟨.rs2, .ne, .num 2⟩, ⟨.rs2, .ne, .num 3⟩, ⟨.rs2, .ne, .num 4⟩, ⟨.rs2, .ne, .num 5⟩, ⟨.op, .eq, .num 2⟩]⟩]

/-- `instruction group RiscVZbaInst32` (riscv32zb.bin_fmt:16-18). -/
def g_riscv32zb_RiscVZbaInst32 : List Inst :=
  [⟨.sh1add, .RType, [⟨.func7, .eq, .num 16⟩, ⟨.func3, .eq, .num 2⟩, ⟨.opcode, .eq, .num 51⟩]⟩,
   ⟨.sh2add, .RType, [⟨.func7, .eq, .num 16⟩, ⟨.func3, .eq, .num 4⟩, ⟨.opcode, .eq, .num 51⟩]⟩,
   ⟨.sh3add, .RType, [⟨.func7, .eq, .num 16⟩, ⟨.func3, .eq, .num 6⟩, ⟨.opcode, .eq, .num 51⟩]⟩]

/-- `instruction group RiscVZbbInst32` (riscv32zb.bin_fmt:22-37). -/
def g_riscv32zb_RiscVZbbInst32 : List Inst :=
  [⟨.andn, .RType, [⟨.func7, .eq, .num 32⟩, ⟨.func3, .eq, .num 7⟩, ⟨.opcode, .eq, .num 51⟩]⟩,
   ⟨.orn, .RType, [⟨.func7, .eq, .num 32⟩, ⟨.func3, .eq, .num 6⟩, ⟨.opcode, .eq, .num 51⟩]⟩,
   ⟨.xnor, .RType, [⟨.func7, .eq, .num 32⟩, ⟨.func3, .eq, .num 4⟩, ⟨.opcode, .eq, .num 51⟩]⟩,
   ⟨.clz, .RType, [⟨.func7, .eq, .num 48⟩, ⟨.rs2, .eq, .num 0⟩, ⟨.func3, .eq, .num 1⟩, ⟨.opcode, .eq, .num 19⟩]⟩,
   ⟨.ctz, .RType, [⟨.func7, .eq, .num 48⟩, ⟨.rs2, .eq, .num 1⟩, ⟨.func3, .eq, .num 1⟩, ⟨.opcode, .eq, .num 19⟩]⟩,
   ⟨.cpop, .RType, [⟨.func7, .eq, .num 48⟩, ⟨.rs2, .eq, .num 2⟩, ⟨.func3, .eq, .num 1⟩, ⟨.opcode, .eq, .num 19⟩]⟩,
   ⟨.max, .RType, [⟨.func7, .eq, .num 5⟩, ⟨.func3, .eq, .num 6⟩, ⟨.opcode, .eq, .num 51⟩]⟩,
   ⟨.maxu, .RType, [⟨.func7, .eq, .num 5⟩, ⟨.func3, .eq, .num 7⟩, ⟨.opcode, .eq, .num 51⟩]⟩,
   ⟨.min, .RType, [⟨.func7, .eq, .num 5⟩, ⟨.func3, .eq, .num 4⟩, ⟨.opcode, .eq, .num 51⟩]⟩,
   ⟨.minu, .RType, [⟨.func7, .eq, .num 5⟩, ⟨.func3, .eq, .num 5⟩, ⟨.opcode, .eq, .num 51⟩]⟩,
   ⟨.sext_b, .RType, [⟨.func7, .eq, .num 48⟩, ⟨.rs2, .eq, .num 4⟩, ⟨.func3, .eq, .num 1⟩, ⟨.opcode, .eq, .num 19⟩]⟩,
   ⟨.sext_h, .RType, [⟨.func7, .eq, .num 48⟩, ⟨.rs2, .eq, .num 5⟩, ⟨.func3, .eq, .num 1⟩, ⟨.opcode, .eq, .num 19⟩]⟩,
   ⟨.rol, .RType, [⟨.func7, .eq, .num 48⟩, ⟨.func3, .eq, .num 1⟩, ⟨.opcode, .eq, .num 51⟩]⟩,
   ⟨.ror, .RType, [⟨.func7, .eq, .num 48⟩, ⟨.func3, .eq, .num 5⟩, ⟨.opcode, .eq, .num 51⟩]⟩,
   ⟨.orcb, .RType, [⟨.func7, .eq, .num 20⟩, ⟨.rs2, .eq, .num 7⟩, ⟨.func3, .eq, .num 5⟩, ⟨.opcode, .eq, .num 19⟩]⟩,
   ⟨.rev8, .RType, [⟨.func7, .eq, .num 52⟩, ⟨.rs2, .eq, .num 24⟩, ⟨.func3, .eq, .num 5⟩, ⟨.opcode, .eq, .num 19⟩]⟩]

/-- `instruction group RiscVZbbInst32Only` (riscv32zb.bin_fmt:41-41). -/
def g_riscv32zb_RiscVZbbInst32Only : List Inst :=
  [⟨.zext_h, .RType, [⟨.func7, .eq, .num 4⟩, ⟨.rs2, .eq, .num 0⟩, ⟨.func3, .eq, .num 4⟩, ⟨.opcode, .eq, .num 51⟩]⟩]

/-- `instruction group RiscVZbbImmInst32` (riscv32zb.bin_fmt:45-45). -/
def g_riscv32zb_RiscVZbbImmInst32 : List Inst :=
  [⟨.rori, .RType, [⟨.func7, .eq, .num 48⟩, ⟨.func3, .eq, .num 5⟩, ⟨.opcode, .eq, .num 19⟩]⟩]

/-- `instruction group RiscVZbcInst32` (riscv32zb.bin_fmt:49-51). -/
def g_riscv32zb_RiscVZbcInst32 : List Inst :=
  [⟨.clmul, .RType, [⟨.func7, .eq, .num 5⟩, ⟨.func3, .eq, .num 1⟩, ⟨.opcode, .eq, .num 51⟩]⟩,
   ⟨.clmulh, .RType, [⟨.func7, .eq, .num 5⟩, ⟨.func3, .eq, .num 3⟩, ⟨.opcode, .eq, .num 51⟩]⟩,
   ⟨.clmulr, .RType, [⟨.func7, .eq, .num 5⟩, ⟨.func3, .eq, .num 2⟩, ⟨.opcode, .eq, .num 51⟩]⟩]

/-- `instruction group RiscVZbsInst32` (riscv32zb.bin_fmt:55-58). -/
def g_riscv32zb_RiscVZbsInst32 : List Inst :=
  [⟨.bclr, .RType, [⟨.func7, .eq, .num 36⟩, ⟨.func3, .eq, .num 1⟩, ⟨.opcode, .eq, .num 51⟩]⟩,
   ⟨.bext, .RType, [⟨.func7, .eq, .num 36⟩, ⟨.func3, .eq, .num 5⟩, ⟨.opcode, .eq, .num 51⟩]⟩,
   ⟨.binv, .RType, [⟨.func7, .eq, .num 52⟩, ⟨.func3, .eq, .num 1⟩, ⟨.opcode, .eq, .num 51⟩]⟩,
   ⟨.bset, .RType, [⟨.func7, .eq, .num 20⟩, ⟨.func3, .eq, .num 1⟩, ⟨.opcode, .eq, .num 51⟩]⟩]

/-- `instruction group RiscVZbsImmInst32` (riscv32zb.bin_fmt:62-65). -/
def g_riscv32zb_RiscVZbsImmInst32 : List Inst :=
  [⟨.bclri, .RType, [⟨.func7, .eq, .num 36⟩, ⟨.func3, .eq, .num 1⟩, ⟨.opcode, .eq, .num 19⟩]⟩,
   ⟨.bexti, .RType, [⟨.func7, .eq, .num 36⟩, ⟨.func3, .eq, .num 5⟩, ⟨.opcode, .eq, .num 19⟩]⟩,
   ⟨.binvi, .RType, [⟨.func7, .eq, .num 52⟩, ⟨.func3, .eq, .num 1⟩, ⟨.opcode, .eq, .num 19⟩]⟩,
   ⟨.bseti, .RType, [⟨.func7, .eq, .num 20⟩, ⟨.func3, .eq, .num 1⟩, ⟨.opcode, .eq, .num 19⟩]⟩]

/-- `instruction group RiscVGInstBase32` (riscv64g.bin_fmt:32-221). -/
def g_riscv64g_RiscVGInstBase32 : List Inst :=
  [⟨.lui, .UType, [⟨.opcode, .eq, .num 55⟩]⟩,
   ⟨.auipc, .UType, [⟨.opcode, .eq, .num 23⟩]⟩,
   ⟨.jal, .JType, [⟨.rd, .ne, .num 0⟩, ⟨.opcode, .eq, .num 111⟩]⟩,
   ⟨.j, .JType, [⟨.rd, .eq, .num 0⟩, ⟨.opcode, .eq, .num 111⟩]⟩,
   ⟨.jalr, .IType, [⟨.rd, .ne, .num 0⟩, ⟨.func3, .eq, .num 0⟩, ⟨.opcode, .eq, .num 103⟩]⟩,
   ⟨.jr, .IType, [⟨.rd, .eq, .num 0⟩, ⟨.func3, .eq, .num 0⟩, ⟨.opcode, .eq, .num 103⟩]⟩,
   ⟨.beq, .BType, [⟨.func3, .eq, .num 0⟩, ⟨.opcode, .eq, .num 99⟩]⟩,
   ⟨.bne, .BType, [⟨.func3, .eq, .num 1⟩, ⟨.opcode, .eq, .num 99⟩]⟩,
   ⟨.blt, .BType, [⟨.func3, .eq, .num 4⟩, ⟨.opcode, .eq, .num 99⟩]⟩,
   ⟨.bge, .BType, [⟨.func3, .eq, .num 5⟩, ⟨.opcode, .eq, .num 99⟩]⟩,
   ⟨.bltu, .BType, [⟨.func3, .eq, .num 6⟩, ⟨.opcode, .eq, .num 99⟩]⟩,
   ⟨.bgeu, .BType, [⟨.func3, .eq, .num 7⟩, ⟨.opcode, .eq, .num 99⟩]⟩,
   ⟨.lb, .BType, [⟨.func3, .eq, .num 0⟩, ⟨.opcode, .eq, .num 3⟩]⟩,
   ⟨.ld, .BType, [⟨.func3, .eq, .num 3⟩, ⟨.opcode, .eq, .num 3⟩]⟩,
   ⟨.lh, .BType, [⟨.func3, .eq, .num 1⟩, ⟨.opcode, .eq, .num 3⟩]⟩,
   ⟨.lw, .BType, [⟨.func3, .eq, .num 2⟩, ⟨.opcode, .eq, .num 3⟩]⟩,
   ⟨.lwu, .BType, [⟨.func3, .eq, .num 6⟩, ⟨.opcode, .eq, .num 3⟩]⟩,
   ⟨.lbu, .BType, [⟨.func3, .eq, .num 4⟩, ⟨.opcode, .eq, .num 3⟩]⟩,
   ⟨.lhu, .BType, [⟨.func3, .eq, .num 5⟩, ⟨.opcode, .eq, .num 3⟩]⟩,
   ⟨.sb, .SType, [⟨.func3, .eq, .num 0⟩, ⟨.opcode, .eq, .num 35⟩]⟩,
   ⟨.sh, .SType, [⟨.func3, .eq, .num 1⟩, ⟨.opcode, .eq, .num 35⟩]⟩,
   ⟨.sw, .SType, [⟨.func3, .eq, .num 2⟩, ⟨.opcode, .eq, .num 35⟩]⟩,
   ⟨.sd, .SType, [⟨.func3, .eq, .num 3⟩, ⟨.opcode, .eq, .num 35⟩]⟩,
   ⟨.addi, .IType, [⟨.func3, .eq, .num 0⟩, ⟨.opcode, .eq, .num 19⟩]⟩,
   ⟨.nop, .IType, [⟨.func3, .eq, .num 0⟩, ⟨.opcode, .eq, .num 19⟩, ⟨.rd, .eq, .num 0⟩, ⟨.imm12, .eq, .num 0⟩, ⟨.rs1, .eq, .num 0⟩]⟩,
   ⟨.addiw, .IType, [⟨.func3, .eq, .num 0⟩, ⟨.opcode, .eq, .num 27⟩]⟩,
   ⟨.slti, .IType, [⟨.func3, .eq, .num 2⟩, ⟨.opcode, .eq, .num 19⟩]⟩,
   ⟨.sltiu, .IType, [⟨.func3, .eq, .num 3⟩, ⟨.opcode, .eq, .num 19⟩]⟩,
   ⟨.xori, .IType, [⟨.func3, .eq, .num 4⟩, ⟨.opcode, .eq, .num 19⟩]⟩,
   ⟨.ori, .IType, [⟨.func3, .eq, .num 6⟩, ⟨.opcode, .eq, .num 19⟩]⟩,
   ⟨.andi, .IType, [⟨.func3, .eq, .num 7⟩, ⟨.opcode, .eq, .num 19⟩]⟩,
   ⟨.slli, .RSType, [⟨.func6, .eq, .num 0⟩, ⟨.func3, .eq, .num 1⟩, ⟨.opcode, .eq, .num 19⟩]⟩,
   ⟨.srli, .RSType, [⟨.func6, .eq, .num 0⟩, ⟨.func3, .eq, .num 5⟩, ⟨.opcode, .eq, .num 19⟩]⟩,
   ⟨.srai, .RSType, [⟨.func6, .eq, .num 16⟩, ⟨.func3, .eq, .num 5⟩, ⟨.opcode, .eq, .num 19⟩]⟩,
   ⟨.slliw, .RType, [⟨.func7, .eq, .num 0⟩, ⟨.func3, .eq, .num 1⟩, ⟨.opcode, .eq, .num 27⟩]⟩,
   ⟨.srliw, .RType, [⟨.func7, .eq, .num 0⟩, ⟨.func3, .eq, .num 5⟩, ⟨.opcode, .eq, .num 27⟩]⟩,
   ⟨.sraiw, .RType, [⟨.func7, .eq, .num 32⟩, ⟨.func3, .eq, .num 5⟩, ⟨.opcode, .eq, .num 27⟩]⟩,
   ⟨.add, .RType, [⟨.func7, .eq, .num 0⟩, ⟨.func3, .eq, .num 0⟩, ⟨.rd, .ne, .num 0⟩, ⟨.opcode, .eq, .num 51⟩]⟩,
   ⟨.addw, .RType, [⟨.func7, .eq, .num 0⟩, ⟨.func3, .eq, .num 0⟩, ⟨.opcode, .eq, .num 59⟩]⟩,
   ⟨.sub, .RType, [⟨.func7, .eq, .num 32⟩, ⟨.func3, .eq, .num 0⟩, ⟨.opcode, .eq, .num 51⟩]⟩,
   ⟨.subw, .RType, [⟨.func7, .eq, .num 32⟩, ⟨.func3, .eq, .num 0⟩, ⟨.opcode, .eq, .num 59⟩]⟩,
   ⟨.sll, .RType, [⟨.func7, .eq, .num 0⟩, ⟨.func3, .eq, .num 1⟩, ⟨.opcode, .eq, .num 51⟩]⟩,
   ⟨.sllw, .RType, [⟨.func7, .eq, .num 0⟩, ⟨.func3, .eq, .num 1⟩, ⟨.opcode, .eq, .num 59⟩]⟩,
   ⟨.slt, .RType, [⟨.func7, .eq, .num 0⟩, ⟨.func3, .eq, .num 2⟩, ⟨.opcode, .eq, .num 51⟩]⟩,
   ⟨.sltu, .RType, [⟨.func7, .eq, .num 0⟩, ⟨.func3, .eq, .num 3⟩, ⟨.opcode, .eq, .num 51⟩]⟩,
   ⟨.«xor», .RType, [⟨.func7, .eq, .num 0⟩, ⟨.func3, .eq, .num 4⟩, ⟨.opcode, .eq, .num 51⟩]⟩,
   ⟨.srl, .RType, [⟨.func7, .eq, .num 0⟩, ⟨.func3, .eq, .num 5⟩, ⟨.opcode, .eq, .num 51⟩]⟩,
   ⟨.srlw, .RType, [⟨.func7, .eq, .num 0⟩, ⟨.func3, .eq, .num 5⟩, ⟨.opcode, .eq, .num 59⟩]⟩,
   ⟨.sra, .RType, [⟨.func7, .eq, .num 32⟩, ⟨.func3, .eq, .num 5⟩, ⟨.opcode, .eq, .num 51⟩]⟩,
   ⟨.sraw, .RType, [⟨.func7, .eq, .num 32⟩, ⟨.func3, .eq, .num 5⟩, ⟨.opcode, .eq, .num 59⟩]⟩,
   ⟨.«or», .RType, [⟨.func7, .eq, .num 0⟩, ⟨.func3, .eq, .num 6⟩, ⟨.opcode, .eq, .num 51⟩]⟩,
   ⟨.«and», .RType, [⟨.func7, .eq, .num 0⟩, ⟨.func3, .eq, .num 7⟩, ⟨.opcode, .eq, .num 51⟩]⟩,
   ⟨.fence, .Fence, [⟨.fm, .eq, .num 0⟩, ⟨.succ, .ne, .num 0⟩, ⟨.func3, .eq, .num 0⟩, ⟨.opcode, .eq, .num 15⟩]⟩,
   ⟨.fence_tso, .Fence, [⟨.fm, .eq, .num 8⟩, ⟨.pred, .eq, .num 3⟩, ⟨.succ, .eq, .num 3⟩, ⟨.func3, .eq, .num 0⟩, ⟨.opcode, .eq, .num 15⟩]⟩,
   ⟨.ecall, .Inst32Format, [⟨.bits, .eq, .num 0⟩, ⟨.opcode, .eq, .num 115⟩]⟩,
   ⟨.ebreak, .Inst32Format, [⟨.bits, .eq, .num 8192⟩, ⟨.opcode, .eq, .num 115⟩]⟩,
   ⟨.fencei, .IType, [⟨.func3, .eq, .num 1⟩, ⟨.opcode, .eq, .num 15⟩]⟩,
   ⟨.mul, .RType, [⟨.func7, .eq, .num 1⟩, ⟨.func3, .eq, .num 0⟩, ⟨.opcode, .eq, .num 51⟩]⟩,
   ⟨.mulh, .RType, [⟨.func7, .eq, .num 1⟩, ⟨.func3, .eq, .num 1⟩, ⟨.opcode, .eq, .num 51⟩]⟩,
   ⟨.mulhsu, .RType, [⟨.func7, .eq, .num 1⟩, ⟨.func3, .eq, .num 2⟩, ⟨.opcode, .eq, .num 51⟩]⟩,
   ⟨.mulhu, .RType, [⟨.func7, .eq, .num 1⟩, ⟨.func3, .eq, .num 3⟩, ⟨.opcode, .eq, .num 51⟩]⟩,
   ⟨.div, .RType, [⟨.func7, .eq, .num 1⟩, ⟨.func3, .eq, .num 4⟩, ⟨.opcode, .eq, .num 51⟩]⟩,
   ⟨.divu, .RType, [⟨.func7, .eq, .num 1⟩, ⟨.func3, .eq, .num 5⟩, ⟨.opcode, .eq, .num 51⟩]⟩,
   ⟨.rem, .RType, [⟨.func7, .eq, .num 1⟩, ⟨.func3, .eq, .num 6⟩, ⟨.opcode, .eq, .num 51⟩]⟩,
   ⟨.remu, .RType, [⟨.func7, .eq, .num 1⟩, ⟨.func3, .eq, .num 7⟩, ⟨.opcode, .eq, .num 51⟩]⟩,
   ⟨.mulw, .RType, [⟨.func7, .eq, .num 1⟩, ⟨.func3, .eq, .num 0⟩, ⟨.opcode, .eq, .num 59⟩]⟩,
   ⟨.divw, .RType, [⟨.func7, .eq, .num 1⟩, ⟨.func3, .eq, .num 4⟩, ⟨.opcode, .eq, .num 59⟩]⟩,
   ⟨.divuw, .RType, [⟨.func7, .eq, .num 1⟩, ⟨.func3, .eq, .num 5⟩, ⟨.opcode, .eq, .num 59⟩]⟩,
   ⟨.remw, .RType, [⟨.func7, .eq, .num 1⟩, ⟨.func3, .eq, .num 6⟩, ⟨.opcode, .eq, .num 59⟩]⟩,
   ⟨.remuw, .RType, [⟨.func7, .eq, .num 1⟩, ⟨.func3, .eq, .num 7⟩, ⟨.opcode, .eq, .num 59⟩]⟩,
   ⟨.lrw, .AType, [⟨.func5, .eq, .num 2⟩, ⟨.rs2, .eq, .num 0⟩, ⟨.func3, .eq, .num 2⟩, ⟨.opcode, .eq, .num 47⟩]⟩,
   ⟨.scw, .AType, [⟨.func5, .eq, .num 3⟩, ⟨.func3, .eq, .num 2⟩, ⟨.opcode, .eq, .num 47⟩]⟩,
   ⟨.amoswapw, .AType, [⟨.func5, .eq, .num 1⟩, ⟨.func3, .eq, .num 2⟩, ⟨.opcode, .eq, .num 47⟩]⟩,
   ⟨.amoaddw, .AType, [⟨.func5, .eq, .num 0⟩, ⟨.func3, .eq, .num 2⟩, ⟨.opcode, .eq, .num 47⟩]⟩,
   ⟨.amoxorw, .AType, [⟨.func5, .eq, .num 4⟩, ⟨.func3, .eq, .num 2⟩, ⟨.opcode, .eq, .num 47⟩]⟩,
   ⟨.amoandw, .AType, [⟨.func5, .eq, .num 12⟩, ⟨.func3, .eq, .num 2⟩, ⟨.opcode, .eq, .num 47⟩]⟩,
   ⟨.amoorw, .AType, [⟨.func5, .eq, .num 8⟩, ⟨.func3, .eq, .num 2⟩, ⟨.opcode, .eq, .num 47⟩]⟩,
   ⟨.amominw, .AType, [⟨.func5, .eq, .num 16⟩, ⟨.func3, .eq, .num 2⟩, ⟨.opcode, .eq, .num 47⟩]⟩,
   ⟨.amomaxw, .AType, [⟨.func5, .eq, .num 20⟩, ⟨.func3, .eq, .num 2⟩, ⟨.opcode, .eq, .num 47⟩]⟩,
   ⟨.amominuw, .AType, [⟨.func5, .eq, .num 24⟩, ⟨.func3, .eq, .num 2⟩, ⟨.opcode, .eq, .num 47⟩]⟩,
   ⟨.amomaxuw, .AType, [⟨.func5, .eq, .num 28⟩, ⟨.func3, .eq, .num 2⟩, ⟨.opcode, .eq, .num 47⟩]⟩,
   ⟨.lrd, .AType, [⟨.func5, .eq, .num 2⟩, ⟨.rs2, .eq, .num 0⟩, ⟨.func3, .eq, .num 3⟩, ⟨.opcode, .eq, .num 47⟩]⟩,
   ⟨.scd, .AType, [⟨.func5, .eq, .num 3⟩, ⟨.func3, .eq, .num 3⟩, ⟨.opcode, .eq, .num 47⟩]⟩,
   ⟨.amoswapd, .AType, [⟨.func5, .eq, .num 1⟩, ⟨.func3, .eq, .num 3⟩, ⟨.opcode, .eq, .num 47⟩]⟩,
   ⟨.amoaddd, .AType, [⟨.func5, .eq, .num 0⟩, ⟨.func3, .eq, .num 3⟩, ⟨.opcode, .eq, .num 47⟩]⟩,
   ⟨.amoxord, .AType, [⟨.func5, .eq, .num 4⟩, ⟨.func3, .eq, .num 3⟩, ⟨.opcode, .eq, .num 47⟩]⟩,
   ⟨.amoandd, .AType, [⟨.func5, .eq, .num 12⟩, ⟨.func3, .eq, .num 3⟩, ⟨.opcode, .eq, .num 47⟩]⟩,
   ⟨.amoord, .AType, [⟨.func5, .eq, .num 8⟩, ⟨.func3, .eq, .num 3⟩, ⟨.opcode, .eq, .num 47⟩]⟩,
   ⟨.amomind, .AType, [⟨.func5, .eq, .num 16⟩, ⟨.func3, .eq, .num 3⟩, ⟨.opcode, .eq, .num 47⟩]⟩,
   ⟨.amomaxd, .AType, [⟨.func5, .eq, .num 20⟩, ⟨.func3, .eq, .num 3⟩, ⟨.opcode, .eq, .num 47⟩]⟩,
   ⟨.amominud, .AType, [⟨.func5, .eq, .num 24⟩, ⟨.func3, .eq, .num 3⟩, ⟨.opcode, .eq, .num 47⟩]⟩,
   ⟨.amomaxud, .AType, [⟨.func5, .eq, .num 28⟩, ⟨.func3, .eq, .num 3⟩, ⟨.opcode, .eq, .num 47⟩]⟩,
   ⟨.flw, .IType, [⟨.func3, .eq, .num 2⟩, ⟨.opcode, .eq, .num 7⟩]⟩,
   ⟨.fsw, .SType, [⟨.func3, .eq, .num 2⟩, ⟨.opcode, .eq, .num 39⟩]⟩,
   ⟨.fmadd_s, .R4Type, [⟨.func2, .eq, .num 0⟩, ⟨.opcode, .eq, .num 67⟩]⟩,
   ⟨.fmsub_s, .R4Type, [⟨.func2, .eq, .num 0⟩, ⟨.opcode, .eq, .num 71⟩]⟩,
   ⟨.fnmsub_s, .R4Type, [⟨.func2, .eq, .num 0⟩, ⟨.opcode, .eq, .num 75⟩]⟩,
   ⟨.fnmadd_s, .R4Type, [⟨.func2, .eq, .num 0⟩, ⟨.opcode, .eq, .num 79⟩]⟩,
   ⟨.fadd_s, .RType, [⟨.func7, .eq, .num 0⟩, ⟨.opcode, .eq, .num 83⟩]⟩,
   ⟨.fsub_s, .RType, [⟨.func7, .eq, .num 4⟩, ⟨.opcode, .eq, .num 83⟩]⟩,
   ⟨.fmul_s, .RType, [⟨.func7, .eq, .num 8⟩, ⟨.opcode, .eq, .num 83⟩]⟩,
   ⟨.fdiv_s, .RType, [⟨.func7, .eq, .num 12⟩, ⟨.opcode, .eq, .num 83⟩]⟩,
   ⟨.fsqrt_s, .RType, [⟨.func7, .eq, .num 44⟩, ⟨.rs2, .eq, .num 0⟩, ⟨.opcode, .eq, .num 83⟩]⟩,
   ⟨.fsgnj_s, .RType, [⟨.func7, .eq, .num 16⟩, ⟨.func3, .eq, .num 0⟩, ⟨.opcode, .eq, .num 83⟩]⟩,
   ⟨.fsgnjn_s, .RType, [⟨.func7, .eq, .num 16⟩, ⟨.func3, .eq, .num 1⟩, ⟨.opcode, .eq, .num 83⟩]⟩,
   ⟨.fsgnjx_s, .RType, [⟨.func7, .eq, .num 16⟩, ⟨.func3, .eq, .num 2⟩, ⟨.opcode, .eq, .num 83⟩]⟩,
   ⟨.fmin_s, .RType, [⟨.func7, .eq, .num 20⟩, ⟨.func3, .eq, .num 0⟩, ⟨.opcode, .eq, .num 83⟩]⟩,
   ⟨.fmax_s, .RType, [⟨.func7, .eq, .num 20⟩, ⟨.func3, .eq, .num 1⟩, ⟨.opcode, .eq, .num 83⟩]⟩,
   ⟨.fcvt_ws, .RType, [⟨.func7, .eq, .num 96⟩, ⟨.rs2, .eq, .num 0⟩, ⟨.opcode, .eq, .num 83⟩]⟩,
   ⟨.fcvt_wus, .RType, [⟨.func7, .eq, .num 96⟩, ⟨.rs2, .eq, .num 1⟩, ⟨.opcode, .eq, .num 83⟩]⟩,
   ⟨.fmv_xw, .RType, [⟨.func7, .eq, .num 112⟩, ⟨.rs2, .eq, .num 0⟩, ⟨.func3, .eq, .num 0⟩, ⟨.opcode, .eq, .num 83⟩]⟩,
   ⟨.fcmpeq_s, .RType, [⟨.func7, .eq, .num 80⟩, ⟨.func3, .eq, .num 2⟩, ⟨.opcode, .eq, .num 83⟩]⟩,
   ⟨.fcmplt_s, .RType, [⟨.func7, .eq, .num 80⟩, ⟨.func3, .eq, .num 1⟩, ⟨.opcode, .eq, .num 83⟩]⟩,
   ⟨.fcmple_s, .RType, [⟨.func7, .eq, .num 80⟩, ⟨.func3, .eq, .num 0⟩, ⟨.opcode, .eq, .num 83⟩]⟩,
   ⟨.fclass_s, .RType, [⟨.func7, .eq, .num 112⟩, ⟨.rs2, .eq, .num 0⟩, ⟨.func3, .eq, .num 1⟩, ⟨.opcode, .eq, .num 83⟩]⟩,
   ⟨.fcvt_sw, .RType, [⟨.func7, .eq, .num 104⟩, ⟨.rs2, .eq, .num 0⟩, ⟨.opcode, .eq, .num 83⟩]⟩,
   ⟨.fcvt_swu, .RType, [⟨.func7, .eq, .num 104⟩, ⟨.rs2, .eq, .num 1⟩, ⟨.opcode, .eq, .num 83⟩]⟩,
   ⟨.fmv_wx, .RType, [⟨.func7, .eq, .num 120⟩, ⟨.rs2, .eq, .num 0⟩, ⟨.func3, .eq, .num 0⟩, ⟨.opcode, .eq, .num 83⟩]⟩,
   ⟨.fcvt_ls, .RType, [⟨.func7, .eq, .num 96⟩, ⟨.rs2, .eq, .num 2⟩, ⟨.opcode, .eq, .num 83⟩]⟩,
   ⟨.fcvt_lus, .RType, [⟨.func7, .eq, .num 96⟩, ⟨.rs2, .eq, .num 3⟩, ⟨.opcode, .eq, .num 83⟩]⟩,
   ⟨.fcvt_sl, .RType, [⟨.func7, .eq, .num 104⟩, ⟨.rs2, .eq, .num 2⟩, ⟨.opcode, .eq, .num 83⟩]⟩,
   ⟨.fcvt_slu, .RType, [⟨.func7, .eq, .num 104⟩, ⟨.rs2, .eq, .num 3⟩, ⟨.opcode, .eq, .num 83⟩]⟩,
   ⟨.fld, .IType, [⟨.func3, .eq, .num 3⟩, ⟨.opcode, .eq, .num 7⟩]⟩,
   ⟨.fsd, .SType, [⟨.func3, .eq, .num 3⟩, ⟨.opcode, .eq, .num 39⟩]⟩,
   ⟨.fmadd_d, .R4Type, [⟨.func2, .eq, .num 1⟩, ⟨.opcode, .eq, .num 67⟩]⟩,
   ⟨.fmsub_d, .R4Type, [⟨.func2, .eq, .num 1⟩, ⟨.opcode, .eq, .num 71⟩]⟩,
   ⟨.fnmsub_d, .R4Type, [⟨.func2, .eq, .num 1⟩, ⟨.opcode, .eq, .num 75⟩]⟩,
   ⟨.fnmadd_d, .R4Type, [⟨.func2, .eq, .num 1⟩, ⟨.opcode, .eq, .num 79⟩]⟩,
   ⟨.fadd_d, .RType, [⟨.func7, .eq, .num 1⟩, ⟨.opcode, .eq, .num 83⟩]⟩,
   ⟨.fsub_d, .RType, [⟨.func7, .eq, .num 5⟩, ⟨.opcode, .eq, .num 83⟩]⟩,
   ⟨.fmul_d, .RType, [⟨.func7, .eq, .num 9⟩, ⟨.opcode, .eq, .num 83⟩]⟩,
   ⟨.fdiv_d, .RType, [⟨.func7, .eq, .num 13⟩, ⟨.opcode, .eq, .num 83⟩]⟩,
   ⟨.fsqrt_d, .RType, [⟨.func7, .eq, .num 45⟩, ⟨.rs2, .eq, .num 0⟩, ⟨.opcode, .eq, .num 83⟩]⟩,
   ⟨.fsgnj_d, .RType, [⟨.func7, .eq, .num 17⟩, ⟨.func3, .eq, .num 0⟩, ⟨.opcode, .eq, .num 83⟩]⟩,
   ⟨.fsgnjn_d, .RType, [⟨.func7, .eq, .num 17⟩, ⟨.func3, .eq, .num 1⟩, ⟨.opcode, .eq, .num 83⟩]⟩,
   ⟨.fsgnjx_d, .RType, [⟨.func7, .eq, .num 17⟩, ⟨.func3, .eq, .num 2⟩, ⟨.opcode, .eq, .num 83⟩]⟩,
   ⟨.fmin_d, .RType, [⟨.func7, .eq, .num 21⟩, ⟨.func3, .eq, .num 0⟩, ⟨.opcode, .eq, .num 83⟩]⟩,
   ⟨.fmax_d, .RType, [⟨.func7, .eq, .num 21⟩, ⟨.func3, .eq, .num 1⟩, ⟨.opcode, .eq, .num 83⟩]⟩,
   ⟨.fcvt_sd, .RType, [⟨.func7, .eq, .num 32⟩, ⟨.rs2, .eq, .num 1⟩, ⟨.opcode, .eq, .num 83⟩]⟩,
   ⟨.fcvt_ds, .RType, [⟨.func7, .eq, .num 33⟩, ⟨.rs2, .eq, .num 0⟩, ⟨.opcode, .eq, .num 83⟩]⟩,
   ⟨.fcmpeq_d, .RType, [⟨.func7, .eq, .num 81⟩, ⟨.func3, .eq, .num 2⟩, ⟨.opcode, .eq, .num 83⟩]⟩,
   ⟨.fcmplt_d, .RType, [⟨.func7, .eq, .num 81⟩, ⟨.func3, .eq, .num 1⟩, ⟨.opcode, .eq, .num 83⟩]⟩,
   ⟨.fcmple_d, .RType, [⟨.func7, .eq, .num 81⟩, ⟨.func3, .eq, .num 0⟩, ⟨.opcode, .eq, .num 83⟩]⟩,
   ⟨.fclass_d, .RType, [⟨.func7, .eq, .num 113⟩, ⟨.rs2, .eq, .num 0⟩, ⟨.func3, .eq, .num 1⟩, ⟨.opcode, .eq, .num 83⟩]⟩,
   ⟨.fcvt_wd, .RType, [⟨.func7, .eq, .num 97⟩, ⟨.rs2, .eq, .num 0⟩, ⟨.opcode, .eq, .num 83⟩]⟩,
   ⟨.fcvt_wud, .RType, [⟨.func7, .eq, .num 97⟩, ⟨.rs2, .eq, .num 1⟩, ⟨.opcode, .eq, .num 83⟩]⟩,
   ⟨.fcvt_dw, .RType, [⟨.func7, .eq, .num 105⟩, ⟨.rs2, .eq, .num 0⟩, ⟨.opcode, .eq, .num 83⟩]⟩,
   ⟨.fcvt_dwu, .RType, [⟨.func7, .eq, .num 105⟩, ⟨.rs2, .eq, .num 1⟩, ⟨.opcode, .eq, .num 83⟩]⟩,
   ⟨.fcvt_ld, .RType, [⟨.func7, .eq, .num 97⟩, ⟨.rs2, .eq, .num 2⟩, ⟨.opcode, .eq, .num 83⟩]⟩,
   ⟨.fcvt_lud, .RType, [⟨.func7, .eq, .num 97⟩, ⟨.rs2, .eq, .num 3⟩, ⟨.opcode, .eq, .num 83⟩]⟩,
   ⟨.fcvt_dl, .RType, [⟨.func7, .eq, .num 105⟩, ⟨.rs2, .eq, .num 2⟩, ⟨.opcode, .eq, .num 83⟩]⟩,
   ⟨.fcvt_dlu, .RType, [⟨.func7, .eq, .num 105⟩, ⟨.rs2, .eq, .num 3⟩, ⟨.opcode, .eq, .num 83⟩]⟩,
   ⟨.fmv_xd, .RType, [⟨.func7, .eq, .num 113⟩, ⟨.rs2, .eq, .num 0⟩, ⟨.func3, .eq, .num 0⟩, ⟨.opcode, .eq, .num 83⟩]⟩,
   ⟨.fmv_dx, .RType, [⟨.func7, .eq, .num 121⟩, ⟨.rs2, .eq, .num 0⟩, ⟨.func3, .eq, .num 0⟩, ⟨.opcode, .eq, .num 83⟩]⟩,
   ⟨.csrrw, .IType, [⟨.func3, .eq, .num 1⟩, ⟨.u_imm12, .ne, .num 3072⟩, ⟨.rd, .ne, .num 0⟩, ⟨.opcode, .eq, .num 115⟩]⟩,
   ⟨.csrrs, .IType, [⟨.func3, .eq, .num 2⟩, ⟨.rs1, .ne, .num 0⟩, ⟨.rd, .ne, .num 0⟩, ⟨.opcode, .eq, .num 115⟩]⟩,
   ⟨.csrrc, .IType, [⟨.func3, .eq, .num 3⟩, ⟨.rs1, .ne, .num 0⟩, ⟨.rd, .ne, .num 0⟩, ⟨.opcode, .eq, .num 115⟩]⟩,
   ⟨.csrrs_nr, .IType, [⟨.func3, .eq, .num 2⟩, ⟨.rs1, .ne, .num 0⟩, ⟨.rd, .eq, .num 0⟩, ⟨.opcode, .eq, .num 115⟩]⟩,
   ⟨.csrrc_nr, .IType, [⟨.func3, .eq, .num 3⟩, ⟨.rs1, .ne, .num 0⟩, ⟨.rd, .eq, .num 0⟩, ⟨.opcode, .eq, .num 115⟩]⟩,
   ⟨.csrrw_nr, .IType, [⟨.func3, .eq, .num 1⟩, ⟨.u_imm12, .ne, .num 3072⟩, ⟨.rd, .eq, .num 0⟩, ⟨.opcode, .eq, .num 115⟩]⟩,
   ⟨.csrrs_nw, .IType, [⟨.func3, .eq, .num 2⟩, ⟨.rs1, .eq, .num 0⟩, ⟨.opcode, .eq, .num 115⟩]⟩,
   ⟨.csrrc_nw, .IType, [⟨.func3, .eq, .num 3⟩, ⟨.rs1, .eq, .num 0⟩, ⟨.opcode, .eq, .num 115⟩]⟩,
   ⟨.csrrwi, .IType, [⟨.func3, .eq, .num 5⟩, ⟨.rd, .ne, .num 0⟩, ⟨.opcode, .eq, .num 115⟩]⟩,
   ⟨.csrrsi, .IType, [⟨.func3, .eq, .num 6⟩, ⟨.rs1, .ne, .num 0⟩, ⟨.rd, .ne, .num 0⟩, ⟨.opcode, .eq, .num 115⟩]⟩,
   ⟨.csrrci, .IType, [⟨.func3, .eq, .num 7⟩, ⟨.rs1, .ne, .num 0⟩, ⟨.rd, .ne, .num 0⟩, ⟨.opcode, .eq, .num 115⟩]⟩,
   ⟨.csrrsi_nr, .IType, [⟨.func3, .eq, .num 6⟩, ⟨.rs1, .ne, .num 0⟩, ⟨.rd, .eq, .num 0⟩, ⟨.opcode, .eq, .num 115⟩]⟩,
   ⟨.csrrci_nr, .IType, [⟨.func3, .eq, .num 7⟩, ⟨.rs1, .ne, .num 0⟩, ⟨.rd, .eq, .num 0⟩, ⟨.opcode, .eq, .num 115⟩]⟩,
   ⟨.csrrwi_nr, .IType, [⟨.func3, .eq, .num 5⟩, ⟨.rd, .eq, .num 0⟩, ⟨.opcode, .eq, .num 115⟩]⟩,
   ⟨.csrrsi_nw, .IType, [⟨.func3, .eq, .num 6⟩, ⟨.rs1, .eq, .num 0⟩, ⟨.opcode, .eq, .num 115⟩]⟩,
   ⟨.csrrci_nw, .IType, [⟨.func3, .eq, .num 7⟩, ⟨.rs1, .eq, .num 0⟩, ⟨.opcode, .eq, .num 115⟩]⟩,
   ⟨.unimp, .IType, [⟨.func3, .eq, .num 1⟩, ⟨.u_imm12, .eq, .num 3072⟩, ⟨.rd, .eq, .num 0⟩, ⟨.rs1, .eq, .num 0⟩, ⟨.opcode, .eq, .num 115⟩]⟩,
   ⟨.uret, .Inst32Format, [⟨.bits, .eq, .num 16384⟩, ⟨.opcode, .eq, .num 115⟩]⟩,
   ⟨.sret, .Inst32Format, [⟨.bits, .eq, .num 2113536⟩, ⟨.opcode, .eq, .num 115⟩]⟩,
   ⟨.mret, .Inst32Format, [⟨.bits, .eq, .num 6307840⟩, ⟨.opcode, .eq, .num 115⟩]⟩,
   ⟨.wfi, .Inst32Format, [⟨.bits, .eq, .num 2138112⟩, ⟨.opcode, .eq, .num 115⟩]⟩,
   ⟨.sfence_vma_zz, .RType, [⟨.func7, .eq, .num 9⟩, ⟨.rs2, .eq, .num 0⟩, ⟨.rs1, .eq, .num 0⟩, ⟨.func3, .eq, .num 0⟩, ⟨.rd, .eq, .num 0⟩, ⟨.opcode, .eq, .num 115⟩]⟩,
   ⟨.sfence_vma_zn, .RType, [⟨.func7, .eq, .num 9⟩, ⟨.rs2, .ne, .num 0⟩, ⟨.rs1, .eq, .num 0⟩, ⟨.func3, .eq, .num 0⟩, ⟨.rd, .eq, .num 0⟩, ⟨.opcode, .eq, .num 115⟩]⟩,
   ⟨.sfence_vma_nz, .RType, [⟨.func7, .eq, .num 9⟩, ⟨.rs2, .eq, .num 0⟩, ⟨.rs1, .ne, .num 0⟩, ⟨.func3, .eq, .num 0⟩, ⟨.rd, .eq, .num 0⟩, ⟨.opcode, .eq, .num 115⟩]⟩,
   ⟨.sfence_vma_nn, .RType, [⟨.func7, .eq, .num 9⟩, ⟨.rs2, .ne, .num 0⟩, ⟨.rs1, .ne, .num 0⟩, ⟨.func3, .eq, .num 0⟩, ⟨.rd, .eq, .num 0⟩, ⟨.opcode, .eq, .num 115⟩]⟩]

/-- `instruction group RiscVGHints32` (riscv64g.bin_fmt:227-261). -/
def g_riscv64g_RiscVGHints32 : List Inst :=
  [⟨.lui_hint, .UType, [⟨.opcode, .eq, .num 55⟩, ⟨.rd, .eq, .num 0⟩]⟩,
   ⟨.auipc_hint, .UType, [⟨.opcode, .eq, .num 23⟩, ⟨.rd, .eq, .num 0⟩]⟩,
   ⟨.addi_hint1, .IType, [⟨.func3, .eq, .num 0⟩, ⟨.opcode, .eq, .num 19⟩, ⟨.rd, .eq, .num 0⟩, ⟨.rs1, .ne, .num 0⟩]⟩,
   ⟨.addi_hint2, .IType, [⟨.func3, .eq, .num 0⟩, ⟨.opcode, .eq, .num 19⟩, ⟨.rd, .eq, .num 0⟩, ⟨.imm12, .ne, .num 0⟩]⟩,
   ⟨.slti_hint, .IType, [⟨.func3, .eq, .num 2⟩, ⟨.opcode, .eq, .num 19⟩, ⟨.rd, .eq, .num 0⟩]⟩,
   ⟨.sltiu_hint, .IType, [⟨.func3, .eq, .num 3⟩, ⟨.opcode, .eq, .num 19⟩, ⟨.rd, .eq, .num 0⟩]⟩,
   ⟨.xori_hint, .IType, [⟨.func3, .eq, .num 4⟩, ⟨.rd, .eq, .num 0⟩, ⟨.opcode, .eq, .num 19⟩]⟩,
   ⟨.ori_hint, .IType, [⟨.func3, .eq, .num 6⟩, ⟨.rd, .eq, .num 0⟩, ⟨.opcode, .eq, .num 19⟩]⟩,
   ⟨.andi_hint, .IType, [⟨.func3, .eq, .num 7⟩, ⟨.opcode, .eq, .num 19⟩, ⟨.rd, .eq, .num 0⟩]⟩,
   ⟨.srli_hint, .RType, [⟨.func7, .eq, .num 0⟩, ⟨.func3, .eq, .num 5⟩, ⟨.rd, .eq, .num 0⟩, ⟨.opcode, .eq, .num 19⟩]⟩,
   ⟨.slt_hint, .RType, [⟨.func7, .eq, .num 0⟩, ⟨.func3, .eq, .num 2⟩, ⟨.rd, .eq, .num 0⟩, ⟨.opcode, .eq, .num 51⟩]⟩,
   ⟨.slli_semihost, .RType, [⟨.func7, .eq, .num 0⟩, ⟨.func3, .eq, .num 1⟩, ⟨.rd, .eq, .num 0⟩, ⟨.rs1, .eq, .num 0⟩, ⟨.r_uimm5, .eq, .num 31⟩, ⟨.opcode, .eq, .num 19⟩]⟩,
   ⟨.slli_hint1, .RType, [⟨.func7, .eq, .num 0⟩, ⟨.func3, .eq, .num 1⟩, ⟨.rd, .eq, .num 0⟩, ⟨.rs1, .ne, .num 0⟩, ⟨.opcode, .eq, .num 19⟩]⟩,
   ⟨.slli_hint2, .RType, [⟨.func7, .eq, .num 0⟩, ⟨.func3, .eq, .num 1⟩, ⟨.rd, .eq, .num 0⟩, ⟨.r_uimm5, .ne, .num 31⟩, ⟨.opcode, .eq, .num 19⟩]⟩,
   ⟨.srai_semihost, .RType, [⟨.func7, .eq, .num 32⟩, ⟨.func3, .eq, .num 5⟩, ⟨.rd, .eq, .num 0⟩, ⟨.rs1, .eq, .num 0⟩, ⟨.r_uimm5, .eq, .num 7⟩, ⟨.opcode, .eq, .num 19⟩]⟩,
   ⟨.srai_hint1, .RType, [⟨.func7, .eq, .num 32⟩, ⟨.func3, .eq, .num 5⟩, ⟨.rd, .eq, .num 0⟩, ⟨.rs1, .ne, .num 0⟩, ⟨.opcode, .eq, .num 19⟩]⟩,
   ⟨.srai_hint2, .RType, [⟨.func7, .eq, .num 32⟩, ⟨.func3, .eq, .num 5⟩, ⟨.rd, .eq, .num 0⟩, ⟨.r_uimm5, .ne, .num 7⟩, ⟨.opcode, .eq, .num 19⟩]⟩,
   ⟨.add_hint1, .RType, [⟨.func7, .eq, .num 0⟩, ⟨.func3, .eq, .num 0⟩, ⟨.rd, .eq, .num 0⟩, ⟨.rs1, .ne, .num 0⟩, ⟨.opcode, .eq, .num 51⟩]⟩,
   ⟨.add_hint2, .RType, [⟨.func7, .eq, .num 0⟩, ⟨.func3, .eq, .num 0⟩, ⟨.rd, .eq, .num 0⟩, ⟨.rs1, .eq, .num 0⟩, ⟨.rs2, .gt, .num 5⟩, ⟨.opcode, .eq, .num 51⟩]⟩,
   ⟨.add_hint3, .RType, [⟨.func7, .eq, .num 0⟩, ⟨.func3, .eq, .num 0⟩, ⟨.rd, .eq, .num 0⟩, ⟨.rs1, .eq, .num 0⟩, ⟨.rs2, .lt, .num 2⟩, ⟨.opcode, .eq, .num 51⟩]⟩,
   ⟨.sub_hint, .RType, [⟨.func7, .eq, .num 32⟩, ⟨.func3, .eq, .num 0⟩, ⟨.rd, .eq, .num 0⟩, ⟨.opcode, .eq, .num 51⟩]⟩,
   ⟨.sll_hint, .RType, [⟨.func7, .eq, .num 0⟩, ⟨.func3, .eq, .num 1⟩, ⟨.rd, .eq, .num 0⟩, ⟨.opcode, .eq, .num 51⟩]⟩,
   ⟨.sltu_hint, .RType, [⟨.func7, .eq, .num 0⟩, ⟨.func3, .eq, .num 3⟩, ⟨.rd, .eq, .num 0⟩, ⟨.opcode, .eq, .num 51⟩]⟩,
   ⟨.xor_hint, .RType, [⟨.func7, .eq, .num 0⟩, ⟨.func3, .eq, .num 4⟩, ⟨.rd, .eq, .num 0⟩, ⟨.opcode, .eq, .num 51⟩]⟩,
   ⟨.srl_hint, .RType, [⟨.func7, .eq, .num 0⟩, ⟨.func3, .eq, .num 5⟩, ⟨.rd, .eq, .num 0⟩, ⟨.opcode, .eq, .num 51⟩]⟩,
   ⟨.sra_hint, .RType, [⟨.func7, .eq, .num 32⟩, ⟨.func3, .eq, .num 5⟩, ⟨.rd, .eq, .num 0⟩, ⟨.opcode, .eq, .num 51⟩]⟩,
   ⟨.or_hint, .RType, [⟨.func7, .eq, .num 0⟩, ⟨.func3, .eq, .num 6⟩, ⟨.rd, .eq, .num 0⟩, ⟨.opcode, .eq, .num 51⟩]⟩,
   ⟨.and_hint, .RType, [⟨.func7, .eq, .num 0⟩, ⟨.func3, .eq, .num 7⟩, ⟨.rd, .eq, .num 0⟩, ⟨.opcode, .eq, .num 51⟩]⟩,
   ⟨.fence_hint1, .Fence, [⟨.func3, .eq, .num 0⟩, ⟨.rd, .eq, .num 0⟩, ⟨.rs1, .ne, .num 0⟩, ⟨.fm, .eq, .num 0⟩, ⟨.pred, .eq, .num 0⟩, ⟨.opcode, .eq, .num 15⟩]⟩,
   ⟨.fence_hint2, .Fence, [⟨.func3, .eq, .num 0⟩, ⟨.rd, .eq, .num 0⟩, ⟨.rs1, .ne, .num 0⟩, ⟨.fm, .eq, .num 0⟩, ⟨.succ, .eq, .num 0⟩, ⟨.opcode, .eq, .num 15⟩]⟩,
   ⟨.fence_hint3, .Fence, [⟨.func3, .eq, .num 0⟩, ⟨.rd, .ne, .num 0⟩, ⟨.rs1, .eq, .num 0⟩, ⟨.fm, .eq, .num 0⟩, ⟨.pred, .eq, .num 0⟩, ⟨.opcode, .eq, .num 15⟩]⟩,
   ⟨.fence_hint4, .Fence, [⟨.func3, .eq, .num 0⟩, ⟨.rd, .ne, .num 0⟩, ⟨.rs1, .eq, .num 0⟩, ⟨.fm, .eq, .num 0⟩, ⟨.succ, .eq, .num 0⟩, ⟨.opcode, .eq, .num 15⟩]⟩,
   ⟨.fence_hint5, .Fence, [⟨.func3, .eq, .num 0⟩, ⟨.rd, .eq, .num 0⟩, ⟨.rs1, .eq, .num 0⟩, ⟨.fm, .eq, .num 0⟩, ⟨.pred, .eq, .num 0⟩, ⟨.succ, .ne, .num 0⟩, ⟨.opcode, .eq, .num 15⟩]⟩,
   ⟨.fence_hint6, .Fence, [⟨.func3, .eq, .num 0⟩, ⟨.rd, .eq, .num 0⟩, ⟨.rs1, .eq, .num 0⟩, ⟨.fm, .eq, .num 0⟩, ⟨.succ, .eq, .num 0⟩, ⟨.opcode, .eq, .num 15⟩]⟩,
   ⟨.fence_hint7, .Fence, [⟨.func3, .eq, .num 0⟩, ⟨.rd, .ne, .num 0⟩, ⟨.rs1, .eq, .num 0⟩, ⟨.fm, .eq, .num 0⟩, ⟨.pred, .ne, .num 1⟩, ⟨.succ, .eq, .num 0⟩, ⟨.opcode, .eq, .num 15⟩]⟩]

/-- `instruction group RiscVCInstBase16` (riscv64g.bin_fmt:268-305). -/
def g_riscv64g_RiscVCInstBase16 : List Inst :=
  [⟨.caddi4spn, .CIW, [⟨.func3, .eq, .num 0⟩, ⟨.op, .eq, .num 0⟩, ⟨.imm8, .ne, .num 0⟩]⟩,
   ⟨.cfld, .CL, [⟨.func3, .eq, .num 1⟩, ⟨.op, .eq, .num 0⟩]⟩,
   ⟨.clw, .CL, [⟨.func3, .eq, .num 2⟩, ⟨.op, .eq, .num 0⟩]⟩,
   ⟨.cld, .CL, [⟨.func3, .eq, .num 3⟩, ⟨.op, .eq, .num 0⟩]⟩,
   ⟨.cfsd, .CS, [⟨.func3, .eq, .num 5⟩, ⟨.op, .eq, .num 0⟩]⟩,
   ⟨.csw, .CS, [⟨.func3, .eq, .num 6⟩, ⟨.op, .eq, .num 0⟩]⟩,
   ⟨.csd, .CS, [⟨.func3, .eq, .num 7⟩, ⟨.op, .eq, .num 0⟩]⟩,
   ⟨.cnop, .CI, [⟨.func3, .eq, .num 0⟩, ⟨.imm1, .eq, .num 0⟩, ⟨.rs1, .eq, .num 0⟩, ⟨.imm5, .eq, .num 0⟩, ⟨.op, .eq, .num 1⟩]⟩,
   ⟨.caddi, .CI, [⟨.func3, .eq, .num 0⟩, ⟨.imm6, .ne, .num 0⟩, ⟨.rd, .ne, .num 0⟩, ⟨.op, .eq, .num 1⟩]⟩,
   ⟨.caddiw, .CI, [⟨.func3, .eq, .num 1⟩, ⟨.rs1, .ne, .num 0⟩, ⟨.op, .eq, .num 1⟩]⟩,
   ⟨.cli, .CI, [⟨.func3, .eq, .num 2⟩, ⟨.rd, .ne, .num 0⟩, ⟨.op, .eq, .num 1⟩]⟩,
   ⟨.caddi16sp, .CI, [⟨.func3, .eq, .num 3⟩, ⟨.rd, .eq, .num 2⟩, ⟨.ci_imm10, .ne, .num 0⟩, ⟨.op, .eq, .num 1⟩]⟩,
   ⟨.clui, .CI, [⟨.func3, .eq, .num 3⟩, ⟨.rd, .ne, .num 0⟩, ⟨.rd, .ne, .num 2⟩, ⟨.imm18, .ne, .num 0⟩, ⟨.op, .eq, .num 1⟩]⟩,
   ⟨.csrli, .CB, [⟨.func3, .eq, .num 4⟩, ⟨.func2, .eq, .num 0⟩, ⟨.op, .eq, .num 1⟩, ⟨.shamt, .ne, .num 0⟩]⟩,
   ⟨.csrai, .CB, [⟨.func3, .eq, .num 4⟩, ⟨.func2, .eq, .num 1⟩, ⟨.op, .eq, .num 1⟩, ⟨.shamt, .ne, .num 0⟩]⟩,
   ⟨.candi, .CB, [⟨.func3, .eq, .num 4⟩, ⟨.func2, .eq, .num 2⟩, ⟨.op, .eq, .num 1⟩]⟩,
   ⟨.csub, .CA, [⟨.func6, .eq, .num 35⟩, ⟨.func2, .eq, .num 0⟩, ⟨.op, .eq, .num 1⟩]⟩,
   ⟨.cxor, .CA, [⟨.func6, .eq, .num 35⟩, ⟨.func2, .eq, .num 1⟩, ⟨.op, .eq, .num 1⟩]⟩,
   ⟨.cor, .CA, [⟨.func6, .eq, .num 35⟩, ⟨.func2, .eq, .num 2⟩, ⟨.op, .eq, .num 1⟩]⟩,
   ⟨.cand, .CA, [⟨.func6, .eq, .num 35⟩, ⟨.func2, .eq, .num 3⟩, ⟨.op, .eq, .num 1⟩]⟩,
   ⟨.csubw, .CA, [⟨.func6, .eq, .num 39⟩, ⟨.func2, .eq, .num 0⟩, ⟨.op, .eq, .num 1⟩]⟩,
   ⟨.caddw, .CA, [⟨.func6, .eq, .num 39⟩, ⟨.func2, .eq, .num 1⟩, ⟨.op, .eq, .num 1⟩]⟩,
   ⟨.cj, .CJ, [⟨.func3, .eq, .num 5⟩, ⟨.op, .eq, .num 1⟩]⟩,
   ⟨.cbeqz, .CB, [⟨.func3, .eq, .num 6⟩, ⟨.op, .eq, .num 1⟩]⟩,
   ⟨.cbnez, .CB, [⟨.func3, .eq, .num 7⟩, ⟨.op, .eq, .num 1⟩]⟩,
   ⟨.cslli, .CI, [⟨.func3, .eq, .num 0⟩, ⟨.rs1, .ne, .num 0⟩, ⟨.uimm6, .ne, .num 0⟩, ⟨.op, .eq, .num 2⟩]⟩,
   ⟨.cfldsp, .CI, [⟨.func3, .eq, .num 1⟩, ⟨.op, .eq, .num 2⟩]⟩,
   ⟨.clwsp, .CI, [⟨.func3, .eq, .num 2⟩, ⟨.rd, .ne, .num 0⟩, ⟨.op, .eq, .num 2⟩]⟩,
   ⟨.cldsp, .CI, [⟨.func3, .eq, .num 3⟩, ⟨.rd, .ne, .num 0⟩, ⟨.op, .eq, .num 2⟩]⟩,
   ⟨.cjr, .CR, [⟨.func4, .eq, .num 8⟩, ⟨.rs1, .ne, .num 0⟩, ⟨.rs2, .eq, .num 0⟩, ⟨.op, .eq, .num 2⟩]⟩,
   ⟨.cmv, .CR, [⟨.func4, .eq, .num 8⟩, ⟨.rs1, .ne, .num 0⟩, ⟨.rs2, .ne, .num 0⟩, ⟨.op, .eq, .num 2⟩]⟩,
   ⟨.cebreak, .CR, [⟨.func4, .eq, .num 9⟩, ⟨.rs1, .eq, .num 0⟩, ⟨.rs2, .eq, .num 0⟩, ⟨.op, .eq, .num 2⟩]⟩,
   ⟨.cjalr, .CR, [⟨.func4, .eq, .num 9⟩, ⟨.rs1, .ne, .num 0⟩, ⟨.rs2, .eq, .num 0⟩, ⟨.op, .eq, .num 2⟩]⟩,
   ⟨.cadd, .CR, [⟨.func4, .eq, .num 9⟩, ⟨.rs1, .ne, .num 0⟩, ⟨.rs2, .ne, .num 0⟩, ⟨.op, .eq, .num 2⟩]⟩,
   ⟨.cfsdsp, .CSS, [⟨.func3, .eq, .num 5⟩, ⟨.op, .eq, .num 2⟩]⟩,
   ⟨.cswsp, .CSS, [⟨.func3, .eq, .num 6⟩, ⟨.op, .eq, .num 2⟩]⟩,
   ⟨.csdsp, .CSS, [⟨.func3, .eq, .num 7⟩, ⟨.op, .eq, .num 2⟩]⟩,
   ⟨.cunimp, .Inst16Format, [⟨.func3, .eq, .num 0⟩, ⟨.bits, .eq, .num 0⟩, ⟨.op, .eq, .num 0⟩]⟩]

/-- `instruction group RiscVCHints16` (riscv64g.bin_fmt:309-315). -/
def g_riscv64g_RiscVCHints16 : List Inst :=
  [⟨.cnop_hint, .CI, [⟨.func3, .eq, .num 0⟩, ⟨.imm6, .ne, .num 0⟩, ⟨.rs1, .eq, .num 0⟩, ⟨.op, .eq, .num 1⟩]⟩,
   ⟨.caddi_hint, .CI, [⟨.func3, .eq, .num 0⟩, ⟨.imm6, .eq, .num 0⟩, ⟨.rd, .ne, .num 0⟩, ⟨.op, .eq, .num 1⟩]⟩,
   ⟨.cli_hint, .CI, [⟨.func3, .eq, .num 2⟩, ⟨.rd, .eq, .num 0⟩, ⟨.op, .eq, .num 1⟩]⟩,
   ⟨.clui_hint, .CI, [⟨.func3, .eq, .num 3⟩, ⟨.rd, .eq, .num 0⟩, ⟨.imm6, .ne, .num 0⟩, ⟨.op, .eq, .num 1⟩]⟩,
   ⟨.cmv_hint, .CR, [⟨.func4, .eq, .num 8⟩, ⟨.rs1, .eq, .num 0⟩, ⟨.rs2, .ne, .num 0⟩, ⟨.op, .eq, .num 2⟩]⟩,
   ⟨.cslli_hint, .CI, [⟨.func3, .eq, .num 0⟩, ⟨.imm6, .ne, .num 0⟩, ⟨.rd, .eq, .num 0⟩, ⟨.op, .eq, .num 2⟩]⟩,
   ⟨.cadd_hint, .CR, [⟨.func4, .eq, .num 9⟩, ⟨.rs1, .eq, .num 0⟩, ⟨.rs2, .ne, .num 0⟩, ⟨.rs2, .ne, .num 2⟩, ⟨.rs2, .ne, .num 3⟩, ⟨.rs2, .ne, .num 4⟩, ⟨.rs2, .ne, .num 5⟩, ⟨.op, .eq, .num 2⟩]⟩]

/-- `instruction group RiscVZbaInst64` (riscv64zb.bin_fmt:16-20). -/
def g_riscv64zb_RiscVZbaInst64 : List Inst :=
  [⟨.add_uw, .RType, [⟨.func7, .eq, .num 4⟩, ⟨.func3, .eq, .num 0⟩, ⟨.opcode, .eq, .num 59⟩]⟩,
   ⟨.sh1add_uw, .RType, [⟨.func7, .eq, .num 16⟩, ⟨.func3, .eq, .num 2⟩, ⟨.opcode, .eq, .num 59⟩]⟩,
   ⟨.sh2add_uw, .RType, [⟨.func7, .eq, .num 16⟩, ⟨.func3, .eq, .num 4⟩, ⟨.opcode, .eq, .num 59⟩]⟩,
   ⟨.sh3add_uw, .RType, [⟨.func7, .eq, .num 16⟩, ⟨.func3, .eq, .num 6⟩, ⟨.opcode, .eq, .num 59⟩]⟩,
   ⟨.slli_uw, .RSType, [⟨.func6, .eq, .num 2⟩, ⟨.func3, .eq, .num 1⟩, ⟨.opcode, .eq, .num 27⟩]⟩]

/-- `instruction group RiscVZbbInst64` (riscv64zb.bin_fmt:24-31). -/
def g_riscv64zb_RiscVZbbInst64 : List Inst :=
  [⟨.clzw, .RType, [⟨.func7, .eq, .num 48⟩, ⟨.rs2, .eq, .num 0⟩, ⟨.func3, .eq, .num 1⟩, ⟨.opcode, .eq, .num 27⟩]⟩,
   ⟨.cpopw, .RType, [⟨.func7, .eq, .num 48⟩, ⟨.rs2, .eq, .num 2⟩, ⟨.func3, .eq, .num 1⟩, ⟨.opcode, .eq, .num 27⟩]⟩,
   ⟨.ctzw, .RType, [⟨.func7, .eq, .num 48⟩, ⟨.rs2, .eq, .num 1⟩, ⟨.func3, .eq, .num 1⟩, ⟨.opcode, .eq, .num 27⟩]⟩,
   ⟨.rolw, .RType, [⟨.func7, .eq, .num 48⟩, ⟨.func3, .eq, .num 1⟩, ⟨.opcode, .eq, .num 59⟩]⟩,
   ⟨.rori, .RSType, [⟨.func6, .eq, .num 24⟩, ⟨.func3, .eq, .num 5⟩, ⟨.opcode, .eq, .num 19⟩]⟩,
   ⟨.roriw, .RType, [⟨.func7, .eq, .num 48⟩, ⟨.func3, .eq, .num 5⟩, ⟨.opcode, .eq, .num 27⟩]⟩,
   ⟨.rorw, .RType, [⟨.func7, .eq, .num 48⟩, ⟨.func3, .eq, .num 5⟩, ⟨.opcode, .eq, .num 59⟩]⟩,
   ⟨.zext_h, .RType, [⟨.func7, .eq, .num 4⟩, ⟨.rs2, .eq, .num 0⟩, ⟨.func3, .eq, .num 4⟩, ⟨.opcode, .eq, .num 59⟩]⟩]

/-- `instruction group RiscVZbsImmInst64` (riscv64zb.bin_fmt:35-38). -/
def g_riscv64zb_RiscVZbsImmInst64 : List Inst :=
  [⟨.bclri, .RSType, [⟨.func6, .eq, .num 18⟩, ⟨.func3, .eq, .num 1⟩, ⟨.opcode, .eq, .num 27⟩]⟩,
   ⟨.bexti, .RSType, [⟨.func6, .eq, .num 18⟩, ⟨.func3, .eq, .num 5⟩, ⟨.opcode, .eq, .num 27⟩]⟩,
   ⟨.binvi, .RSType, [⟨.func6, .eq, .num 26⟩, ⟨.func3, .eq, .num 1⟩, ⟨.opcode, .eq, .num 27⟩]⟩,
   ⟨.bseti, .RSType, [⟨.func6, .eq, .num 10⟩, ⟨.func3, .eq, .num 1⟩, ⟨.opcode, .eq, .num 27⟩]⟩]

/-- `instruction group RiscVVInst32` (riscv_vector.bin_fmt:20-509). -/
def g_riscv_vector_RiscVVInst32 : List Inst :=
  [⟨.vsetvli_xn, .VConfig, [⟨.rs1, .ne, .num 0⟩, ⟨.func1, .eq, .num 0⟩, ⟨.func3, .eq, .num 7⟩, ⟨.opcode, .eq, .num 87⟩]⟩,
   ⟨.vsetvli_nz, .VConfig, [⟨.rd, .ne, .num 0⟩, ⟨.rs1, .eq, .num 0⟩, ⟨.func1, .eq, .num 0⟩, ⟨.func3, .eq, .num 7⟩, ⟨.opcode, .eq, .num 87⟩]⟩,
   ⟨.vsetvli_zz, .VConfig, [⟨.rd, .eq, .num 0⟩, ⟨.rs1, .eq, .num 0⟩, ⟨.func1, .eq, .num 0⟩, ⟨.func3, .eq, .num 7⟩, ⟨.opcode, .eq, .num 87⟩]⟩,
   ⟨.vsetivli, .VConfig, [⟨.func2, .eq, .num 3⟩, ⟨.func3, .eq, .num 7⟩, ⟨.opcode, .eq, .num 87⟩]⟩,
   ⟨.vsetvl_xn, .VConfig, [⟨.rs1, .ne, .num 0⟩, ⟨.func7, .eq, .num 64⟩, ⟨.func3, .eq, .num 7⟩, ⟨.opcode, .eq, .num 87⟩]⟩,
   ⟨.vsetvl_nz, .VConfig, [⟨.rd, .ne, .num 0⟩, ⟨.rs1, .eq, .num 0⟩, ⟨.func7, .eq, .num 64⟩, ⟨.func3, .eq, .num 7⟩, ⟨.opcode, .eq, .num 87⟩]⟩,
   ⟨.vsetvl_zz, .VConfig, [⟨.rd, .eq, .num 0⟩, ⟨.rs1, .eq, .num 0⟩, ⟨.func7, .eq, .num 64⟩, ⟨.func3, .eq, .num 7⟩, ⟨.opcode, .eq, .num 87⟩]⟩,
   ⟨.vle8, .VMem, [⟨.vm, .eq, .num 0⟩, ⟨.nf, .eq, .num 0⟩, ⟨.mew, .eq, .num 0⟩, ⟨.mop, .eq, .num 0⟩, ⟨.lumop, .eq, .num 0⟩, ⟨.width, .eq, .num 0⟩, ⟨.opcode, .eq, .num 7⟩]⟩,
   ⟨.vle16, .VMem, [⟨.vm, .eq, .num 0⟩, ⟨.nf, .eq, .num 0⟩, ⟨.mew, .eq, .num 0⟩, ⟨.mop, .eq, .num 0⟩, ⟨.lumop, .eq, .num 0⟩, ⟨.width, .eq, .num 5⟩, ⟨.opcode, .eq, .num 7⟩]⟩,
   ⟨.vle32, .VMem, [⟨.vm, .eq, .num 0⟩, ⟨.nf, .eq, .num 0⟩, ⟨.mew, .eq, .num 0⟩, ⟨.mop, .eq, .num 0⟩, ⟨.lumop, .eq, .num 0⟩, ⟨.width, .eq, .num 6⟩, ⟨.opcode, .eq, .num 7⟩]⟩,
   ⟨.vle64, .VMem, [⟨.vm, .eq, .num 0⟩, ⟨.nf, .eq, .num 0⟩, ⟨.mew, .eq, .num 0⟩, ⟨.mop, .eq, .num 0⟩, ⟨.lumop, .eq, .num 0⟩, ⟨.width, .eq, .num 7⟩, ⟨.opcode, .eq, .num 7⟩]⟩,
   ⟨.vle8_vm1, .VMem, [⟨.vm, .eq, .num 1⟩, ⟨.nf, .eq, .num 0⟩, ⟨.mew, .eq, .num 0⟩, ⟨.mop, .eq, .num 0⟩, ⟨.lumop, .eq, .num 0⟩, ⟨.width, .eq, .num 0⟩, ⟨.opcode, .eq, .num 7⟩]⟩,
   ⟨.vle16_vm1, .VMem, [⟨.vm, .eq, .num 1⟩, ⟨.nf, .eq, .num 0⟩, ⟨.mew, .eq, .num 0⟩, ⟨.mop, .eq, .num 0⟩, ⟨.lumop, .eq, .num 0⟩, ⟨.width, .eq, .num 5⟩, ⟨.opcode, .eq, .num 7⟩]⟩,
   ⟨.vle32_vm1, .VMem, [⟨.vm, .eq, .num 1⟩, ⟨.nf, .eq, .num 0⟩, ⟨.mew, .eq, .num 0⟩, ⟨.mop, .eq, .num 0⟩, ⟨.lumop, .eq, .num 0⟩, ⟨.width, .eq, .num 6⟩, ⟨.opcode, .eq, .num 7⟩]⟩,
   ⟨.vle64_vm1, .VMem, [⟨.vm, .eq, .num 1⟩, ⟨.nf, .eq, .num 0⟩, ⟨.mew, .eq, .num 0⟩, ⟨.mop, .eq, .num 0⟩, ⟨.lumop, .eq, .num 0⟩, ⟨.width, .eq, .num 7⟩, ⟨.opcode, .eq, .num 7⟩]⟩,
   ⟨.vlm, .VMem, [⟨.nf, .eq, .num 0⟩, ⟨.mew, .eq, .num 0⟩, ⟨.mop, .eq, .num 0⟩, ⟨.lumop, .eq, .num 11⟩, ⟨.width, .eq, .num 0⟩, ⟨.opcode, .eq, .num 7⟩]⟩,
   ⟨.vle8ff, .VMem, [⟨.nf, .eq, .num 0⟩, ⟨.mew, .eq, .num 0⟩, ⟨.mop, .eq, .num 0⟩, ⟨.lumop, .eq, .num 16⟩, ⟨.width, .eq, .num 0⟩, ⟨.opcode, .eq, .num 7⟩]⟩,
   ⟨.vle16ff, .VMem, [⟨.nf, .eq, .num 0⟩, ⟨.mew, .eq, .num 0⟩, ⟨.mop, .eq, .num 0⟩, ⟨.lumop, .eq, .num 16⟩, ⟨.width, .eq, .num 5⟩, ⟨.opcode, .eq, .num 7⟩]⟩,
   ⟨.vle32ff, .VMem, [⟨.nf, .eq, .num 0⟩, ⟨.mew, .eq, .num 0⟩, ⟨.mop, .eq, .num 0⟩, ⟨.lumop, .eq, .num 16⟩, ⟨.width, .eq, .num 6⟩, ⟨.opcode, .eq, .num 7⟩]⟩,
   ⟨.vle64ff, .VMem, [⟨.nf, .eq, .num 0⟩, ⟨.mew, .eq, .num 0⟩, ⟨.mop, .eq, .num 0⟩, ⟨.lumop, .eq, .num 16⟩, ⟨.width, .eq, .num 7⟩, ⟨.opcode, .eq, .num 7⟩]⟩,
   ⟨.vl1re8, .VMem, [⟨.nf, .eq, .num 0⟩, ⟨.mop, .eq, .num 0⟩, ⟨.vm, .eq, .num 1⟩, ⟨.lumop, .eq, .num 8⟩, ⟨.width, .eq, .num 0⟩, ⟨.opcode, .eq, .num 7⟩]⟩,
   ⟨.vl1re16, .VMem, [⟨.nf, .eq, .num 0⟩, ⟨.mop, .eq, .num 0⟩, ⟨.vm, .eq, .num 1⟩, ⟨.lumop, .eq, .num 8⟩, ⟨.width, .eq, .num 5⟩, ⟨.opcode, .eq, .num 7⟩]⟩,
   ⟨.vl1re32, .VMem, [⟨.nf, .eq, .num 0⟩, ⟨.mop, .eq, .num 0⟩, ⟨.vm, .eq, .num 1⟩, ⟨.lumop, .eq, .num 8⟩, ⟨.width, .eq, .num 6⟩, ⟨.opcode, .eq, .num 7⟩]⟩,
   ⟨.vl1re64, .VMem, [⟨.nf, .eq, .num 0⟩, ⟨.mop, .eq, .num 0⟩, ⟨.vm, .eq, .num 1⟩, ⟨.lumop, .eq, .num 8⟩, ⟨.width, .eq, .num 7⟩, ⟨.opcode, .eq, .num 7⟩]⟩,
   ⟨.vl2re8, .VMem, [⟨.nf, .eq, .num 1⟩, ⟨.mop, .eq, .num 0⟩, ⟨.vm, .eq, .num 1⟩, ⟨.lumop, .eq, .num 8⟩, ⟨.width, .eq, .num 0⟩, ⟨.opcode, .eq, .num 7⟩]⟩,
   ⟨.vl2re16, .VMem, [⟨.nf, .eq, .num 1⟩, ⟨.mop, .eq, .num 0⟩, ⟨.vm, .eq, .num 1⟩, ⟨.lumop, .eq, .num 8⟩, ⟨.width, .eq, .num 5⟩, ⟨.opcode, .eq, .num 7⟩]⟩,
   ⟨.vl2re32, .VMem, [⟨.nf, .eq, .num 1⟩, ⟨.mop, .eq, .num 0⟩, ⟨.vm, .eq, .num 1⟩, ⟨.lumop, .eq, .num 8⟩, ⟨.width, .eq, .num 6⟩, ⟨.opcode, .eq, .num 7⟩]⟩,
   ⟨.vl2re64, .VMem, [⟨.nf, .eq, .num 1⟩, ⟨.mop, .eq, .num 0⟩, ⟨.vm, .eq, .num 1⟩, ⟨.lumop, .eq, .num 8⟩, ⟨.width, .eq, .num 7⟩, ⟨.opcode, .eq, .num 7⟩]⟩,
   ⟨.vl4re8, .VMem, [⟨.nf, .eq, .num 3⟩, ⟨.mop, .eq, .num 0⟩, ⟨.vm, .eq, .num 1⟩, ⟨.lumop, .eq, .num 8⟩, ⟨.width, .eq, .num 0⟩, ⟨.opcode, .eq, .num 7⟩]⟩,
   ⟨.vl4re16, .VMem, [⟨.nf, .eq, .num 3⟩, ⟨.mop, .eq, .num 0⟩, ⟨.vm, .eq, .num 1⟩, ⟨.lumop, .eq, .num 8⟩, ⟨.width, .eq, .num 5⟩, ⟨.opcode, .eq, .num 7⟩]⟩,
   ⟨.vl4re32, .VMem, [⟨.nf, .eq, .num 3⟩, ⟨.mop, .eq, .num 0⟩, ⟨.vm, .eq, .num 1⟩, ⟨.lumop, .eq, .num 8⟩, ⟨.width, .eq, .num 6⟩, ⟨.opcode, .eq, .num 7⟩]⟩,
   ⟨.vl4re64, .VMem, [⟨.nf, .eq, .num 3⟩, ⟨.mop, .eq, .num 0⟩, ⟨.vm, .eq, .num 1⟩, ⟨.lumop, .eq, .num 8⟩, ⟨.width, .eq, .num 7⟩, ⟨.opcode, .eq, .num 7⟩]⟩,
   ⟨.vl8re8, .VMem, [⟨.nf, .eq, .num 7⟩, ⟨.mop, .eq, .num 0⟩, ⟨.vm, .eq, .num 1⟩, ⟨.lumop, .eq, .num 8⟩, ⟨.width, .eq, .num 0⟩, ⟨.opcode, .eq, .num 7⟩]⟩,
   ⟨.vl8re16, .VMem, [⟨.nf, .eq, .num 7⟩, ⟨.mop, .eq, .num 0⟩, ⟨.vm, .eq, .num 1⟩, ⟨.lumop, .eq, .num 8⟩, ⟨.width, .eq, .num 5⟩, ⟨.opcode, .eq, .num 7⟩]⟩,
   ⟨.vl8re32, .VMem, [⟨.nf, .eq, .num 7⟩, ⟨.mop, .eq, .num 0⟩, ⟨.vm, .eq, .num 1⟩, ⟨.lumop, .eq, .num 8⟩, ⟨.width, .eq, .num 6⟩, ⟨.opcode, .eq, .num 7⟩]⟩,
   ⟨.vl8re64, .VMem, [⟨.nf, .eq, .num 7⟩, ⟨.mop, .eq, .num 0⟩, ⟨.vm, .eq, .num 1⟩, ⟨.lumop, .eq, .num 8⟩, ⟨.width, .eq, .num 7⟩, ⟨.opcode, .eq, .num 7⟩]⟩,
   ⟨.vlse8, .VMem, [⟨.nf, .eq, .num 0⟩, ⟨.mew, .eq, .num 0⟩, ⟨.mop, .eq, .num 2⟩, ⟨.width, .eq, .num 0⟩, ⟨.opcode, .eq, .num 7⟩]⟩,
   ⟨.vlse16, .VMem, [⟨.nf, .eq, .num 0⟩, ⟨.mew, .eq, .num 0⟩, ⟨.mop, .eq, .num 2⟩, ⟨.width, .eq, .num 5⟩, ⟨.opcode, .eq, .num 7⟩]⟩,
   ⟨.vlse32, .VMem, [⟨.nf, .eq, .num 0⟩, ⟨.mew, .eq, .num 0⟩, ⟨.mop, .eq, .num 2⟩, ⟨.width, .eq, .num 6⟩, ⟨.opcode, .eq, .num 7⟩]⟩,
   ⟨.vlse64, .VMem, [⟨.nf, .eq, .num 0⟩, ⟨.mew, .eq, .num 0⟩, ⟨.mop, .eq, .num 2⟩, ⟨.width, .eq, .num 7⟩, ⟨.opcode, .eq, .num 7⟩]⟩,
   ⟨.vluxei8, .VMem, [⟨.nf, .eq, .num 0⟩, ⟨.mew, .eq, .num 0⟩, ⟨.mop, .eq, .num 1⟩, ⟨.width, .eq, .num 0⟩, ⟨.opcode, .eq, .num 7⟩]⟩,
   ⟨.vluxei16, .VMem, [⟨.nf, .eq, .num 0⟩, ⟨.mew, .eq, .num 0⟩, ⟨.mop, .eq, .num 1⟩, ⟨.width, .eq, .num 5⟩, ⟨.opcode, .eq, .num 7⟩]⟩,
   ⟨.vluxei32, .VMem, [⟨.nf, .eq, .num 0⟩, ⟨.mew, .eq, .num 0⟩, ⟨.mop, .eq, .num 1⟩, ⟨.width, .eq, .num 6⟩, ⟨.opcode, .eq, .num 7⟩]⟩,
   ⟨.vluxei64, .VMem, [⟨.nf, .eq, .num 0⟩, ⟨.mew, .eq, .num 0⟩, ⟨.mop, .eq, .num 1⟩, ⟨.width, .eq, .num 7⟩, ⟨.opcode, .eq, .num 7⟩]⟩,
   ⟨.vloxei8, .VMem, [⟨.nf, .eq, .num 0⟩, ⟨.mew, .eq, .num 0⟩, ⟨.mop, .eq, .num 3⟩, ⟨.width, .eq, .num 0⟩, ⟨.opcode, .eq, .num 7⟩]⟩,
   ⟨.vloxei16, .VMem, [⟨.nf, .eq, .num 0⟩, ⟨.mew, .eq, .num 0⟩, ⟨.mop, .eq, .num 3⟩, ⟨.width, .eq, .num 5⟩, ⟨.opcode, .eq, .num 7⟩]⟩,
   ⟨.vloxei32, .VMem, [⟨.nf, .eq, .num 0⟩, ⟨.mew, .eq, .num 0⟩, ⟨.mop, .eq, .num 3⟩, ⟨.width, .eq, .num 6⟩, ⟨.opcode, .eq, .num 7⟩]⟩,
   ⟨.vloxei64, .VMem, [⟨.nf, .eq, .num 0⟩, ⟨.mew, .eq, .num 0⟩, ⟨.mop, .eq, .num 3⟩, ⟨.width, .eq, .num 7⟩, ⟨.opcode, .eq, .num 7⟩]⟩,
   ⟨.vlsege8, .VMem, [⟨.nf, .ne, .num 0⟩, ⟨.mew, .eq, .num 0⟩, ⟨.mop, .eq, .num 0⟩, ⟨.lumop, .eq, .num 0⟩, ⟨.width, .eq, .num 0⟩, ⟨.opcode, .eq, .num 7⟩]⟩,
   ⟨.vlsege16, .VMem, [⟨.nf, .ne, .num 0⟩, ⟨.mew, .eq, .num 0⟩, ⟨.mop, .eq, .num 0⟩, ⟨.lumop, .eq, .num 0⟩, ⟨.width, .eq, .num 5⟩, ⟨.opcode, .eq, .num 7⟩]⟩,
   ⟨.vlsege32, .VMem, [⟨.nf, .ne, .num 0⟩, ⟨.mew, .eq, .num 0⟩, ⟨.mop, .eq, .num 0⟩, ⟨.lumop, .eq, .num 0⟩, ⟨.width, .eq, .num 6⟩, ⟨.opcode, .eq, .num 7⟩]⟩,
   ⟨.vlsege64, .VMem, [⟨.nf, .ne, .num 0⟩, ⟨.mew, .eq, .num 0⟩, ⟨.mop, .eq, .num 0⟩, ⟨.lumop, .eq, .num 0⟩, ⟨.width, .eq, .num 7⟩, ⟨.opcode, .eq, .num 7⟩]⟩,
   ⟨.vlssege8, .VMem, [⟨.nf, .ne, .num 0⟩, ⟨.mew, .eq, .num 0⟩, ⟨.mop, .eq, .num 2⟩, ⟨.width, .eq, .num 0⟩, ⟨.opcode, .eq, .num 7⟩]⟩,
   ⟨.vlssege16, .VMem, [⟨.nf, .ne, .num 0⟩, ⟨.mew, .eq, .num 0⟩, ⟨.mop, .eq, .num 2⟩, ⟨.width, .eq, .num 5⟩, ⟨.opcode, .eq, .num 7⟩]⟩,
   ⟨.vlssege32, .VMem, [⟨.nf, .ne, .num 0⟩, ⟨.mew, .eq, .num 0⟩, ⟨.mop, .eq, .num 2⟩, ⟨.width, .eq, .num 6⟩, ⟨.opcode, .eq, .num 7⟩]⟩,
   ⟨.vlssege64, .VMem, [⟨.nf, .ne, .num 0⟩, ⟨.mew, .eq, .num 0⟩, ⟨.mop, .eq, .num 2⟩, ⟨.width, .eq, .num 7⟩, ⟨.opcode, .eq, .num 7⟩]⟩,
   ⟨.vluxsegei8, .VMem, [⟨.nf, .ne, .num 0⟩, ⟨.mew, .eq, .num 0⟩, ⟨.mop, .eq, .num 1⟩, ⟨.width, .eq, .num 0⟩, ⟨.opcode, .eq, .num 7⟩]⟩,
   ⟨.vluxsegei16, .VMem, [⟨.nf, .ne, .num 0⟩, ⟨.mew, .eq, .num 0⟩, ⟨.mop, .eq, .num 1⟩, ⟨.width, .eq, .num 5⟩, ⟨.opcode, .eq, .num 7⟩]⟩,
   ⟨.vluxsegei32, .VMem, [⟨.nf, .ne, .num 0⟩, ⟨.mew, .eq, .num 0⟩, ⟨.mop, .eq, .num 1⟩, ⟨.width, .eq, .num 6⟩, ⟨.opcode, .eq, .num 7⟩]⟩,
   ⟨.vluxsegei64, .VMem, [⟨.nf, .ne, .num 0⟩, ⟨.mew, .eq, .num 0⟩, ⟨.mop, .eq, .num 1⟩, ⟨.width, .eq, .num 7⟩, ⟨.opcode, .eq, .num 7⟩]⟩,
   ⟨.vloxsegei8, .VMem, [⟨.nf, .ne, .num 0⟩, ⟨.mew, .eq, .num 0⟩, ⟨.mop, .eq, .num 3⟩, ⟨.width, .eq, .num 0⟩, ⟨.opcode, .eq, .num 7⟩]⟩,
   ⟨.vloxsegei16, .VMem, [⟨.nf, .ne, .num 0⟩, ⟨.mew, .eq, .num 0⟩, ⟨.mop, .eq, .num 3⟩, ⟨.width, .eq, .num 5⟩, ⟨.opcode, .eq, .num 7⟩]⟩,
   ⟨.vloxsegei32, .VMem, [⟨.nf, .ne, .num 0⟩, ⟨.mew, .eq, .num 0⟩, ⟨.mop, .eq, .num 3⟩, ⟨.width, .eq, .num 6⟩, ⟨.opcode, .eq, .num 7⟩]⟩,
   ⟨.vloxsegei64, .VMem, [⟨.nf, .ne, .num 0⟩, ⟨.mew, .eq, .num 0⟩, ⟨.mop, .eq, .num 3⟩, ⟨.width, .eq, .num 7⟩, ⟨.opcode, .eq, .num 7⟩]⟩,
   ⟨.vse8, .VMem, [⟨.nf, .eq, .num 0⟩, ⟨.mew, .eq, .num 0⟩, ⟨.mop, .eq, .num 0⟩, ⟨.sumop, .eq, .num 0⟩, ⟨.width, .eq, .num 0⟩, ⟨.opcode, .eq, .num 39⟩]⟩,
   ⟨.vse16, .VMem, [⟨.nf, .eq, .num 0⟩, ⟨.mew, .eq, .num 0⟩, ⟨.mop, .eq, .num 0⟩, ⟨.sumop, .eq, .num 0⟩, ⟨.width, .eq, .num 5⟩, ⟨.opcode, .eq, .num 39⟩]⟩,
   ⟨.vse32, .VMem, [⟨.nf, .eq, .num 0⟩, ⟨.mew, .eq, .num 0⟩, ⟨.mop, .eq, .num 0⟩, ⟨.sumop, .eq, .num 0⟩, ⟨.width, .eq, .num 6⟩, ⟨.opcode, .eq, .num 39⟩]⟩,
   ⟨.vse64, .VMem, [⟨.nf, .eq, .num 0⟩, ⟨.mew, .eq, .num 0⟩, ⟨.mop, .eq, .num 0⟩, ⟨.sumop, .eq, .num 0⟩, ⟨.width, .eq, .num 7⟩, ⟨.opcode, .eq, .num 39⟩]⟩,
   ⟨.vsm, .VMem, [⟨.nf, .eq, .num 0⟩, ⟨.mew, .eq, .num 0⟩, ⟨.mop, .eq, .num 0⟩, ⟨.sumop, .eq, .num 11⟩, ⟨.width, .eq, .num 0⟩, ⟨.opcode, .eq, .num 39⟩]⟩,
   ⟨.vse8ff, .VMem, [⟨.nf, .eq, .num 0⟩, ⟨.mew, .eq, .num 0⟩, ⟨.mop, .eq, .num 0⟩, ⟨.sumop, .eq, .num 16⟩, ⟨.width, .eq, .num 0⟩, ⟨.opcode, .eq, .num 39⟩]⟩,
   ⟨.vse16ff, .VMem, [⟨.nf, .eq, .num 0⟩, ⟨.mew, .eq, .num 0⟩, ⟨.mop, .eq, .num 0⟩, ⟨.sumop, .eq, .num 16⟩, ⟨.width, .eq, .num 5⟩, ⟨.opcode, .eq, .num 39⟩]⟩,
   ⟨.vse32ff, .VMem, [⟨.nf, .eq, .num 0⟩, ⟨.mew, .eq, .num 0⟩, ⟨.mop, .eq, .num 0⟩, ⟨.sumop, .eq, .num 16⟩, ⟨.width, .eq, .num 6⟩, ⟨.opcode, .eq, .num 39⟩]⟩,
   ⟨.vse64ff, .VMem, [⟨.nf, .eq, .num 0⟩, ⟨.mew, .eq, .num 0⟩, ⟨.mop, .eq, .num 0⟩, ⟨.sumop, .eq, .num 16⟩, ⟨.width, .eq, .num 7⟩, ⟨.opcode, .eq, .num 39⟩]⟩,
   ⟨.vs1re8, .VMem, [⟨.nf, .eq, .num 0⟩, ⟨.mop, .eq, .num 0⟩, ⟨.vm, .eq, .num 1⟩, ⟨.sumop, .eq, .num 8⟩, ⟨.width, .eq, .num 0⟩, ⟨.opcode, .eq, .num 39⟩]⟩,
   ⟨.vs1re16, .VMem, [⟨.nf, .eq, .num 0⟩, ⟨.mop, .eq, .num 0⟩, ⟨.vm, .eq, .num 1⟩, ⟨.sumop, .eq, .num 8⟩, ⟨.width, .eq, .num 5⟩, ⟨.opcode, .eq, .num 39⟩]⟩,
   ⟨.vs1re32, .VMem, [⟨.nf, .eq, .num 0⟩, ⟨.mop, .eq, .num 0⟩, ⟨.vm, .eq, .num 1⟩, ⟨.sumop, .eq, .num 8⟩, ⟨.width, .eq, .num 6⟩, ⟨.opcode, .eq, .num 39⟩]⟩,
   ⟨.vs1re64, .VMem, [⟨.nf, .eq, .num 0⟩, ⟨.mop, .eq, .num 0⟩, ⟨.vm, .eq, .num 1⟩, ⟨.sumop, .eq, .num 8⟩, ⟨.width, .eq, .num 7⟩, ⟨.opcode, .eq, .num 39⟩]⟩,
   ⟨.vs2re8, .VMem, [⟨.nf, .eq, .num 1⟩, ⟨.mop, .eq, .num 0⟩, ⟨.vm, .eq, .num 1⟩, ⟨.sumop, .eq, .num 8⟩, ⟨.width, .eq, .num 0⟩, ⟨.opcode, .eq, .num 39⟩]⟩,
   ⟨.vs2re16, .VMem, [⟨.nf, .eq, .num 1⟩, ⟨.mop, .eq, .num 0⟩, ⟨.vm, .eq, .num 1⟩, ⟨.sumop, .eq, .num 8⟩, ⟨.width, .eq, .num 5⟩, ⟨.opcode, .eq, .num 39⟩]⟩,
   ⟨.vs2re32, .VMem, [⟨.nf, .eq, .num 1⟩, ⟨.mop, .eq, .num 0⟩, ⟨.vm, .eq, .num 1⟩, ⟨.sumop, .eq, .num 8⟩, ⟨.width, .eq, .num 6⟩, ⟨.opcode, .eq, .num 39⟩]⟩,
   ⟨.vs2re64, .VMem, [⟨.nf, .eq, .num 1⟩, ⟨.mop, .eq, .num 0⟩, ⟨.vm, .eq, .num 1⟩, ⟨.sumop, .eq, .num 8⟩, ⟨.width, .eq, .num 7⟩, ⟨.opcode, .eq, .num 39⟩]⟩,
   ⟨.vs4re8, .VMem, [⟨.nf, .eq, .num 3⟩, ⟨.mop, .eq, .num 0⟩, ⟨.vm, .eq, .num 1⟩, ⟨.sumop, .eq, .num 8⟩, ⟨.width, .eq, .num 0⟩, ⟨.opcode, .eq, .num 39⟩]⟩,
   ⟨.vs4re16, .VMem, [⟨.nf, .eq, .num 3⟩, ⟨.mop, .eq, .num 0⟩, ⟨.vm, .eq, .num 1⟩, ⟨.sumop, .eq, .num 8⟩, ⟨.width, .eq, .num 5⟩, ⟨.opcode, .eq, .num 39⟩]⟩,
   ⟨.vs4re32, .VMem, [⟨.nf, .eq, .num 3⟩, ⟨.mop, .eq, .num 0⟩, ⟨.vm, .eq, .num 1⟩, ⟨.sumop, .eq, .num 8⟩, ⟨.width, .eq, .num 6⟩, ⟨.opcode, .eq, .num 39⟩]⟩,
   ⟨.vs4re64, .VMem, [⟨.nf, .eq, .num 3⟩, ⟨.mop, .eq, .num 0⟩, ⟨.vm, .eq, .num 1⟩, ⟨.sumop, .eq, .num 8⟩, ⟨.width, .eq, .num 7⟩, ⟨.opcode, .eq, .num 39⟩]⟩,
   ⟨.vs8re8, .VMem, [⟨.nf, .eq, .num 7⟩, ⟨.mop, .eq, .num 0⟩, ⟨.vm, .eq, .num 1⟩, ⟨.sumop, .eq, .num 8⟩, ⟨.width, .eq, .num 0⟩, ⟨.opcode, .eq, .num 39⟩]⟩,
   ⟨.vs8re16, .VMem, [⟨.nf, .eq, .num 7⟩, ⟨.mop, .eq, .num 0⟩, ⟨.vm, .eq, .num 1⟩, ⟨.sumop, .eq, .num 8⟩, ⟨.width, .eq, .num 5⟩, ⟨.opcode, .eq, .num 39⟩]⟩,
   ⟨.vs8re32, .VMem, [⟨.nf, .eq, .num 7⟩, ⟨.mop, .eq, .num 0⟩, ⟨.vm, .eq, .num 1⟩, ⟨.sumop, .eq, .num 8⟩, ⟨.width, .eq, .num 6⟩, ⟨.opcode, .eq, .num 39⟩]⟩,
   ⟨.vs8re64, .VMem, [⟨.nf, .eq, .num 7⟩, ⟨.mop, .eq, .num 0⟩, ⟨.vm, .eq, .num 1⟩, ⟨.sumop, .eq, .num 8⟩, ⟨.width, .eq, .num 7⟩, ⟨.opcode, .eq, .num 39⟩]⟩,
   ⟨.vsse8, .VMem, [⟨.nf, .eq, .num 0⟩, ⟨.mew, .eq, .num 0⟩, ⟨.mop, .eq, .num 2⟩, ⟨.width, .eq, .num 0⟩, ⟨.opcode, .eq, .num 39⟩]⟩,
   ⟨.vsse16, .VMem, [⟨.nf, .eq, .num 0⟩, ⟨.mew, .eq, .num 0⟩, ⟨.mop, .eq, .num 2⟩, ⟨.width, .eq, .num 5⟩, ⟨.opcode, .eq, .num 39⟩]⟩,
   ⟨.vsse32, .VMem, [⟨.nf, .eq, .num 0⟩, ⟨.mew, .eq, .num 0⟩, ⟨.mop, .eq, .num 2⟩, ⟨.width, .eq, .num 6⟩, ⟨.opcode, .eq, .num 39⟩]⟩,
   ⟨.vsse64, .VMem, [⟨.nf, .eq, .num 0⟩, ⟨.mew, .eq, .num 0⟩, ⟨.mop, .eq, .num 2⟩, ⟨.width, .eq, .num 7⟩, ⟨.opcode, .eq, .num 39⟩]⟩,
   ⟨.vsuxei8, .VMem, [⟨.nf, .eq, .num 0⟩, ⟨.mew, .eq, .num 0⟩, ⟨.mop, .eq, .num 1⟩, ⟨.width, .eq, .num 0⟩, ⟨.opcode, .eq, .num 39⟩]⟩,
   ⟨.vsuxei16, .VMem, [⟨.nf, .eq, .num 0⟩, ⟨.mew, .eq, .num 0⟩, ⟨.mop, .eq, .num 1⟩, ⟨.width, .eq, .num 5⟩, ⟨.opcode, .eq, .num 39⟩]⟩,
   ⟨.vsuxei32, .VMem, [⟨.nf, .eq, .num 0⟩, ⟨.mew, .eq, .num 0⟩, ⟨.mop, .eq, .num 1⟩, ⟨.width, .eq, .num 6⟩, ⟨.opcode, .eq, .num 39⟩]⟩,
   ⟨.vsuxei64, .VMem, [⟨.nf, .eq, .num 0⟩, ⟨.mew, .eq, .num 0⟩, ⟨.mop, .eq, .num 1⟩, ⟨.width, .eq, .num 7⟩, ⟨.opcode, .eq, .num 39⟩]⟩,
   ⟨.vsoxei8, .VMem, [⟨.nf, .eq, .num 0⟩, ⟨.mew, .eq, .num 0⟩, ⟨.mop, .eq, .num 3⟩, ⟨.width, .eq, .num 0⟩, ⟨.opcode, .eq, .num 39⟩]⟩,
   ⟨.vsoxei16, .VMem, [⟨.nf, .eq, .num 0⟩, ⟨.mew, .eq, .num 0⟩, ⟨.mop, .eq, .num 3⟩, ⟨.width, .eq, .num 5⟩, ⟨.opcode, .eq, .num 39⟩]⟩,
   ⟨.vsoxei32, .VMem, [⟨.nf, .eq, .num 0⟩, ⟨.mew, .eq, .num 0⟩, ⟨.mop, .eq, .num 3⟩, ⟨.width, .eq, .num 6⟩, ⟨.opcode, .eq, .num 39⟩]⟩,
   ⟨.vsoxei64, .VMem, [⟨.nf, .eq, .num 0⟩, ⟨.mew, .eq, .num 0⟩, ⟨.mop, .eq, .num 3⟩, ⟨.width, .eq, .num 7⟩, ⟨.opcode, .eq, .num 39⟩]⟩,
   ⟨.vssege8, .VMem, [⟨.nf, .ne, .num 0⟩, ⟨.mew, .eq, .num 0⟩, ⟨.mop, .eq, .num 0⟩, ⟨.sumop, .eq, .num 0⟩, ⟨.width, .eq, .num 0⟩, ⟨.opcode, .eq, .num 39⟩]⟩,
   ⟨.vssege16, .VMem, [⟨.nf, .ne, .num 0⟩, ⟨.mew, .eq, .num 0⟩, ⟨.mop, .eq, .num 0⟩, ⟨.sumop, .eq, .num 0⟩, ⟨.width, .eq, .num 5⟩, ⟨.opcode, .eq, .num 39⟩]⟩,
   ⟨.vssege32, .VMem, [⟨.nf, .ne, .num 0⟩, ⟨.mew, .eq, .num 0⟩, ⟨.mop, .eq, .num 0⟩, ⟨.sumop, .eq, .num 0⟩, ⟨.width, .eq, .num 6⟩, ⟨.opcode, .eq, .num 39⟩]⟩,
   ⟨.vssege64, .VMem, [⟨.nf, .ne, .num 0⟩, ⟨.mew, .eq, .num 0⟩, ⟨.mop, .eq, .num 0⟩, ⟨.sumop, .eq, .num 0⟩, ⟨.width, .eq, .num 7⟩, ⟨.opcode, .eq, .num 39⟩]⟩,
   ⟨.vsssege8, .VMem, [⟨.nf, .ne, .num 0⟩, ⟨.mew, .eq, .num 0⟩, ⟨.mop, .eq, .num 2⟩, ⟨.width, .eq, .num 0⟩, ⟨.opcode, .eq, .num 39⟩]⟩,
   ⟨.vsssege16, .VMem, [⟨.nf, .ne, .num 0⟩, ⟨.mew, .eq, .num 0⟩, ⟨.mop, .eq, .num 2⟩, ⟨.width, .eq, .num 5⟩, ⟨.opcode, .eq, .num 39⟩]⟩,
   ⟨.vsssege32, .VMem, [⟨.nf, .ne, .num 0⟩, ⟨.mew, .eq, .num 0⟩, ⟨.mop, .eq, .num 2⟩, ⟨.width, .eq, .num 6⟩, ⟨.opcode, .eq, .num 39⟩]⟩,
   ⟨.vsssege64, .VMem, [⟨.nf, .ne, .num 0⟩, ⟨.mew, .eq, .num 0⟩, ⟨.mop, .eq, .num 2⟩, ⟨.width, .eq, .num 7⟩, ⟨.opcode, .eq, .num 39⟩]⟩,
   ⟨.vsuxsegei8, .VMem, [⟨.nf, .ne, .num 0⟩, ⟨.mew, .eq, .num 0⟩, ⟨.mop, .eq, .num 1⟩, ⟨.width, .eq, .num 0⟩, ⟨.opcode, .eq, .num 39⟩]⟩,
   ⟨.vsuxsegei16, .VMem, [⟨.nf, .ne, .num 0⟩, ⟨.mew, .eq, .num 0⟩, ⟨.mop, .eq, .num 1⟩, ⟨.width, .eq, .num 5⟩, ⟨.opcode, .eq, .num 39⟩]⟩,
   ⟨.vsuxsegei32, .VMem, [⟨.nf, .ne, .num 0⟩, ⟨.mew, .eq, .num 0⟩, ⟨.mop, .eq, .num 1⟩, ⟨.width, .eq, .num 6⟩, ⟨.opcode, .eq, .num 39⟩]⟩,
   ⟨.vsuxsegei64, .VMem, [⟨.nf, .ne, .num 0⟩, ⟨.mew, .eq, .num 0⟩, ⟨.mop, .eq, .num 1⟩, ⟨.width, .eq, .num 7⟩, ⟨.opcode, .eq, .num 39⟩]⟩,
   ⟨.vsoxsegei8, .VMem, [⟨.nf, .ne, .num 0⟩, ⟨.mew, .eq, .num 0⟩, ⟨.mop, .eq, .num 3⟩, ⟨.width, .eq, .num 0⟩, ⟨.opcode, .eq, .num 39⟩]⟩,
   ⟨.vsoxsegei16, .VMem, [⟨.nf, .ne, .num 0⟩, ⟨.mew, .eq, .num 0⟩, ⟨.mop, .eq, .num 3⟩, ⟨.width, .eq, .num 5⟩, ⟨.opcode, .eq, .num 39⟩]⟩,
   ⟨.vsoxsegei32, .VMem, [⟨.nf, .ne, .num 0⟩, ⟨.mew, .eq, .num 0⟩, ⟨.mop, .eq, .num 3⟩, ⟨.width, .eq, .num 6⟩, ⟨.opcode, .eq, .num 39⟩]⟩,
   ⟨.vsoxsegei64, .VMem, [⟨.nf, .ne, .num 0⟩, ⟨.mew, .eq, .num 0⟩, ⟨.mop, .eq, .num 3⟩, ⟨.width, .eq, .num 7⟩, ⟨.opcode, .eq, .num 39⟩]⟩,
   ⟨.vadd_vv, .VArith, [⟨.func6, .eq, .num 0⟩, ⟨.func3, .eq, .num 0⟩, ⟨.opcode, .eq, .num 87⟩]⟩,
   ⟨.vadd_vx, .VArith, [⟨.func6, .eq, .num 0⟩, ⟨.func3, .eq, .num 4⟩, ⟨.opcode, .eq, .num 87⟩]⟩,
   ⟨.vadd_vi, .VArith, [⟨.func6, .eq, .num 0⟩, ⟨.func3, .eq, .num 3⟩, ⟨.opcode, .eq, .num 87⟩]⟩,
   ⟨.vsub_vv, .VArith, [⟨.func6, .eq, .num 2⟩, ⟨.func3, .eq, .num 0⟩, ⟨.opcode, .eq, .num 87⟩]⟩,
   ⟨.vsub_vx, .VArith, [⟨.func6, .eq, .num 2⟩, ⟨.func3, .eq, .num 4⟩, ⟨.opcode, .eq, .num 87⟩]⟩,
   ⟨.vrsub_vx, .VArith, [⟨.func6, .eq, .num 3⟩, ⟨.func3, .eq, .num 4⟩, ⟨.opcode, .eq, .num 87⟩]⟩,
   ⟨.vrsub_vi, .VArith, [⟨.func6, .eq, .num 3⟩, ⟨.func3, .eq, .num 3⟩, ⟨.opcode, .eq, .num 87⟩]⟩,
   ⟨.vminu_vv, .VArith, [⟨.func6, .eq, .num 4⟩, ⟨.func3, .eq, .num 0⟩, ⟨.opcode, .eq, .num 87⟩]⟩,
   ⟨.vminu_vx, .VArith, [⟨.func6, .eq, .num 4⟩, ⟨.func3, .eq, .num 4⟩, ⟨.opcode, .eq, .num 87⟩]⟩,
   ⟨.vmin_vv, .VArith, [⟨.func6, .eq, .num 5⟩, ⟨.func3, .eq, .num 0⟩, ⟨.opcode, .eq, .num 87⟩]⟩,
   ⟨.vmin_vx, .VArith, [⟨.func6, .eq, .num 5⟩, ⟨.func3, .eq, .num 4⟩, ⟨.opcode, .eq, .num 87⟩]⟩,
   ⟨.vmaxu_vv, .VArith, [⟨.func6, .eq, .num 6⟩, ⟨.func3, .eq, .num 0⟩, ⟨.opcode, .eq, .num 87⟩]⟩,
   ⟨.vmaxu_vx, .VArith, [⟨.func6, .eq, .num 6⟩, ⟨.func3, .eq, .num 4⟩, ⟨.opcode, .eq, .num 87⟩]⟩,
   ⟨.vmax_vv, .VArith, [⟨.func6, .eq, .num 7⟩, ⟨.func3, .eq, .num 0⟩, ⟨.opcode, .eq, .num 87⟩]⟩,
   ⟨.vmax_vx, .VArith, [⟨.func6, .eq, .num 7⟩, ⟨.func3, .eq, .num 4⟩, ⟨.opcode, .eq, .num 87⟩]⟩,
   ⟨.vand_vv, .VArith, [⟨.func6, .eq, .num 9⟩, ⟨.func3, .eq, .num 0⟩, ⟨.opcode, .eq, .num 87⟩]⟩,
   ⟨.vand_vx, .VArith, [⟨.func6, .eq, .num 9⟩, ⟨.func3, .eq, .num 4⟩, ⟨.opcode, .eq, .num 87⟩]⟩,
   ⟨.vand_vi, .VArith, [⟨.func6, .eq, .num 9⟩, ⟨.func3, .eq, .num 3⟩, ⟨.opcode, .eq, .num 87⟩]⟩,
   ⟨.vor_vv, .VArith, [⟨.func6, .eq, .num 10⟩, ⟨.func3, .eq, .num 0⟩, ⟨.opcode, .eq, .num 87⟩]⟩,
   ⟨.vor_vx, .VArith, [⟨.func6, .eq, .num 10⟩, ⟨.func3, .eq, .num 4⟩, ⟨.opcode, .eq, .num 87⟩]⟩,
   ⟨.vor_vi, .VArith, [⟨.func6, .eq, .num 10⟩, ⟨.func3, .eq, .num 3⟩, ⟨.opcode, .eq, .num 87⟩]⟩,
   ⟨.vxor_vv, .VArith, [⟨.func6, .eq, .num 11⟩, ⟨.func3, .eq, .num 0⟩, ⟨.opcode, .eq, .num 87⟩]⟩,
   ⟨.vxor_vx, .VArith, [⟨.func6, .eq, .num 11⟩, ⟨.func3, .eq, .num 4⟩, ⟨.opcode, .eq, .num 87⟩]⟩,
   ⟨.vxor_vi, .VArith, [⟨.func6, .eq, .num 11⟩, ⟨.func3, .eq, .num 3⟩, ⟨.opcode, .eq, .num 87⟩]⟩,
   ⟨.vrgather_vv, .VArith, [⟨.func6, .eq, .num 12⟩, ⟨.func3, .eq, .num 0⟩, ⟨.opcode, .eq, .num 87⟩]⟩,
   ⟨.vrgather_vx, .VArith, [⟨.func6, .eq, .num 12⟩, ⟨.func3, .eq, .num 4⟩, ⟨.opcode, .eq, .num 87⟩]⟩,
   ⟨.vrgather_vi, .VArith, [⟨.func6, .eq, .num 12⟩, ⟨.func3, .eq, .num 3⟩, ⟨.opcode, .eq, .num 87⟩]⟩,
   ⟨.vslideup_vx, .VArith, [⟨.func6, .eq, .num 14⟩, ⟨.func3, .eq, .num 4⟩, ⟨.opcode, .eq, .num 87⟩]⟩,
   ⟨.vslideup_vi, .VArith, [⟨.func6, .eq, .num 14⟩, ⟨.func3, .eq, .num 3⟩, ⟨.opcode, .eq, .num 87⟩]⟩,
   ⟨.vrgatherei16_vv, .VArith, [⟨.func6, .eq, .num 14⟩, ⟨.func3, .eq, .num 0⟩, ⟨.opcode, .eq, .num 87⟩]⟩,
   ⟨.vslidedown_vx, .VArith, [⟨.func6, .eq, .num 15⟩, ⟨.func3, .eq, .num 4⟩, ⟨.opcode, .eq, .num 87⟩]⟩,
   ⟨.vslidedown_vi, .VArith, [⟨.func6, .eq, .num 15⟩, ⟨.func3, .eq, .num 3⟩, ⟨.opcode, .eq, .num 87⟩]⟩,
   ⟨.vadc_vv, .VArith, [⟨.func6, .eq, .num 16⟩, ⟨.vd, .ne, .num 0⟩, ⟨.vm, .eq, .num 0⟩, ⟨.func3, .eq, .num 0⟩, ⟨.opcode, .eq, .num 87⟩]⟩,
   ⟨.vadc_vx, .VArith, [⟨.func6, .eq, .num 16⟩, ⟨.vd, .ne, .num 0⟩, ⟨.vm, .eq, .num 0⟩, ⟨.func3, .eq, .num 4⟩, ⟨.opcode, .eq, .num 87⟩]⟩,
   ⟨.vadc_vi, .VArith, [⟨.func6, .eq, .num 16⟩, ⟨.vd, .ne, .num 0⟩, ⟨.vm, .eq, .num 0⟩, ⟨.func3, .eq, .num 3⟩, ⟨.opcode, .eq, .num 87⟩]⟩,
   ⟨.vmadc_vv, .VArith, [⟨.func6, .eq, .num 17⟩, ⟨.func3, .eq, .num 0⟩, ⟨.opcode, .eq, .num 87⟩]⟩,
   ⟨.vmadc_vx, .VArith, [⟨.func6, .eq, .num 17⟩, ⟨.func3, .eq, .num 4⟩, ⟨.opcode, .eq, .num 87⟩]⟩,
   ⟨.vmadc_vi, .VArith, [⟨.func6, .eq, .num 17⟩, ⟨.func3, .eq, .num 3⟩, ⟨.opcode, .eq, .num 87⟩]⟩,
   ⟨.vsbc_vv, .VArith, [⟨.func6, .eq, .num 18⟩, ⟨.vd, .ne, .num 0⟩, ⟨.vm, .eq, .num 0⟩, ⟨.func3, .eq, .num 0⟩, ⟨.opcode, .eq, .num 87⟩]⟩,
   ⟨.vsbc_vx, .VArith, [⟨.func6, .eq, .num 18⟩, ⟨.vd, .ne, .num 0⟩, ⟨.vm, .eq, .num 0⟩, ⟨.func3, .eq, .num 4⟩, ⟨.opcode, .eq, .num 87⟩]⟩,
   ⟨.vmsbc_vv, .VArith, [⟨.func6, .eq, .num 19⟩, ⟨.func3, .eq, .num 0⟩, ⟨.opcode, .eq, .num 87⟩]⟩,
   ⟨.vmsbc_vx, .VArith, [⟨.func6, .eq, .num 19⟩, ⟨.func3, .eq, .num 4⟩, ⟨.opcode, .eq, .num 87⟩]⟩,
   ⟨.vmerge_vv, .VArith, [⟨.func6, .eq, .num 23⟩, ⟨.vm, .eq, .num 0⟩, ⟨.func3, .eq, .num 0⟩, ⟨.opcode, .eq, .num 87⟩]⟩,
   ⟨.vmerge_vx, .VArith, [⟨.func6, .eq, .num 23⟩, ⟨.vm, .eq, .num 0⟩, ⟨.func3, .eq, .num 4⟩, ⟨.opcode, .eq, .num 87⟩]⟩,
   ⟨.vmerge_vi, .VArith, [⟨.func6, .eq, .num 23⟩, ⟨.vm, .eq, .num 0⟩, ⟨.func3, .eq, .num 3⟩, ⟨.opcode, .eq, .num 87⟩]⟩,
   ⟨.vmv_vv, .VArith, [⟨.func6, .eq, .num 23⟩, ⟨.vm, .eq, .num 1⟩, ⟨.vs2, .eq, .num 0⟩, ⟨.func3, .eq, .num 0⟩, ⟨.opcode, .eq, .num 87⟩]⟩,
   ⟨.vmv_vx, .VArith, [⟨.func6, .eq, .num 23⟩, ⟨.vm, .eq, .num 1⟩, ⟨.vs2, .eq, .num 0⟩, ⟨.func3, .eq, .num 4⟩, ⟨.opcode, .eq, .num 87⟩]⟩,
   ⟨.vmv_vi, .VArith, [⟨.func6, .eq, .num 23⟩, ⟨.vm, .eq, .num 1⟩, ⟨.vs2, .eq, .num 0⟩, ⟨.func3, .eq, .num 3⟩, ⟨.opcode, .eq, .num 87⟩]⟩,
   ⟨.vmseq_vv, .VArith, [⟨.func6, .eq, .num 24⟩, ⟨.func3, .eq, .num 0⟩, ⟨.opcode, .eq, .num 87⟩]⟩,
   ⟨.vmseq_vx, .VArith, [⟨.func6, .eq, .num 24⟩, ⟨.func3, .eq, .num 4⟩, ⟨.opcode, .eq, .num 87⟩]⟩,
   ⟨.vmseq_vi, .VArith, [⟨.func6, .eq, .num 24⟩, ⟨.func3, .eq, .num 3⟩, ⟨.opcode, .eq, .num 87⟩]⟩,
   ⟨.vmsne_vv, .VArith, [⟨.func6, .eq, .num 25⟩, ⟨.func3, .eq, .num 0⟩, ⟨.opcode, .eq, .num 87⟩]⟩,
   ⟨.vmsne_vx, .VArith, [⟨.func6, .eq, .num 25⟩, ⟨.func3, .eq, .num 4⟩, ⟨.opcode, .eq, .num 87⟩]⟩,
   ⟨.vmsne_vi, .VArith, [⟨.func6, .eq, .num 25⟩, ⟨.func3, .eq, .num 3⟩, ⟨.opcode, .eq, .num 87⟩]⟩,
   ⟨.vmsltu_vv, .VArith, [⟨.func6, .eq, .num 26⟩, ⟨.func3, .eq, .num 0⟩, ⟨.opcode, .eq, .num 87⟩]⟩,
   ⟨.vmsltu_vx, .VArith, [⟨.func6, .eq, .num 26⟩, ⟨.func3, .eq, .num 4⟩, ⟨.opcode, .eq, .num 87⟩]⟩,
   ⟨.vmslt_vv, .VArith, [⟨.func6, .eq, .num 27⟩, ⟨.func3, .eq, .num 0⟩, ⟨.opcode, .eq, .num 87⟩]⟩,
   ⟨.vmslt_vx, .VArith, [⟨.func6, .eq, .num 27⟩, ⟨.func3, .eq, .num 4⟩, ⟨.opcode, .eq, .num 87⟩]⟩,
   ⟨.vmsleu_vv, .VArith, [⟨.func6, .eq, .num 28⟩, ⟨.func3, .eq, .num 0⟩, ⟨.opcode, .eq, .num 87⟩]⟩,
   ⟨.vmsleu_vx, .VArith, [⟨.func6, .eq, .num 28⟩, ⟨.func3, .eq, .num 4⟩, ⟨.opcode, .eq, .num 87⟩]⟩,
   ⟨.vmsleu_vi, .VArith, [⟨.func6, .eq, .num 28⟩, ⟨.func3, .eq, .num 3⟩, ⟨.opcode, .eq, .num 87⟩]⟩,
   ⟨.vmsle_vv, .VArith, [⟨.func6, .eq, .num 29⟩, ⟨.func3, .eq, .num 0⟩, ⟨.opcode, .eq, .num 87⟩]⟩,
   ⟨.vmsle_vx, .VArith, [⟨.func6, .eq, .num 29⟩, ⟨.func3, .eq, .num 4⟩, ⟨.opcode, .eq, .num 87⟩]⟩,
   ⟨.vmsle_vi, .VArith, [⟨.func6, .eq, .num 29⟩, ⟨.func3, .eq, .num 3⟩, ⟨.opcode, .eq, .num 87⟩]⟩,
   ⟨.vmsgtu_vx, .VArith, [⟨.func6, .eq, .num 30⟩, ⟨.func3, .eq, .num 4⟩, ⟨.opcode, .eq, .num 87⟩]⟩,
   ⟨.vmsgtu_vi, .VArith, [⟨.func6, .eq, .num 30⟩, ⟨.func3, .eq, .num 3⟩, ⟨.opcode, .eq, .num 87⟩]⟩,
   ⟨.vmsgt_vx, .VArith, [⟨.func6, .eq, .num 31⟩, ⟨.func3, .eq, .num 4⟩, ⟨.opcode, .eq, .num 87⟩]⟩,
   ⟨.vmsgt_vi, .VArith, [⟨.func6, .eq, .num 31⟩, ⟨.func3, .eq, .num 3⟩, ⟨.opcode, .eq, .num 87⟩]⟩,
   ⟨.vsaddu_vv, .VArith, [⟨.func6, .eq, .num 32⟩, ⟨.func3, .eq, .num 0⟩, ⟨.opcode, .eq, .num 87⟩]⟩,
   ⟨.vsaddu_vx, .VArith, [⟨.func6, .eq, .num 32⟩, ⟨.func3, .eq, .num 4⟩, ⟨.opcode, .eq, .num 87⟩]⟩,
   ⟨.vsaddu_vi, .VArith, [⟨.func6, .eq, .num 32⟩, ⟨.func3, .eq, .num 3⟩, ⟨.opcode, .eq, .num 87⟩]⟩,
   ⟨.vsadd_vv, .VArith, [⟨.func6, .eq, .num 33⟩, ⟨.func3, .eq, .num 0⟩, ⟨.opcode, .eq, .num 87⟩]⟩,
   ⟨.vsadd_vx, .VArith, [⟨.func6, .eq, .num 33⟩, ⟨.func3, .eq, .num 4⟩, ⟨.opcode, .eq, .num 87⟩]⟩,
   ⟨.vsadd_vi, .VArith, [⟨.func6, .eq, .num 33⟩, ⟨.func3, .eq, .num 3⟩, ⟨.opcode, .eq, .num 87⟩]⟩,
   ⟨.vssubu_vv, .VArith, [⟨.func6, .eq, .num 34⟩, ⟨.func3, .eq, .num 0⟩, ⟨.opcode, .eq, .num 87⟩]⟩,
   ⟨.vssubu_vx, .VArith, [⟨.func6, .eq, .num 34⟩, ⟨.func3, .eq, .num 4⟩, ⟨.opcode, .eq, .num 87⟩]⟩,
   ⟨.vssub_vv, .VArith, [⟨.func6, .eq, .num 35⟩, ⟨.func3, .eq, .num 0⟩, ⟨.opcode, .eq, .num 87⟩]⟩,
   ⟨.vssub_vx, .VArith, [⟨.func6, .eq, .num 35⟩, ⟨.func3, .eq, .num 4⟩, ⟨.opcode, .eq, .num 87⟩]⟩,
   ⟨.vsll_vv, .VArith, [⟨.func6, .eq, .num 37⟩, ⟨.func3, .eq, .num 0⟩, ⟨.opcode, .eq, .num 87⟩]⟩,
   ⟨.vsll_vx, .VArith, [⟨.func6, .eq, .num 37⟩, ⟨.func3, .eq, .num 4⟩, ⟨.opcode, .eq, .num 87⟩]⟩,
   ⟨.vsll_vi, .VArith, [⟨.func6, .eq, .num 37⟩, ⟨.func3, .eq, .num 3⟩, ⟨.opcode, .eq, .num 87⟩]⟩,
   ⟨.vsmul_vv, .VArith, [⟨.func6, .eq, .num 39⟩, ⟨.func3, .eq, .num 0⟩, ⟨.opcode, .eq, .num 87⟩]⟩,
   ⟨.vsmul_vx, .VArith, [⟨.func6, .eq, .num 39⟩, ⟨.func3, .eq, .num 4⟩, ⟨.opcode, .eq, .num 87⟩]⟩,
   ⟨.vmv1r_vi, .VArith, [⟨.func6, .eq, .num 39⟩, ⟨.uimm5, .eq, .num 0⟩, ⟨.func3, .eq, .num 3⟩, ⟨.opcode, .eq, .num 87⟩]⟩,
   ⟨.vmv2r_vi, .VArith, [⟨.func6, .eq, .num 39⟩, ⟨.uimm5, .eq, .num 1⟩, ⟨.func3, .eq, .num 3⟩, ⟨.opcode, .eq, .num 87⟩]⟩,
   ⟨.vmv4r_vi, .VArith, [⟨.func6, .eq, .num 39⟩, ⟨.uimm5, .eq, .num 3⟩, ⟨.func3, .eq, .num 3⟩, ⟨.opcode, .eq, .num 87⟩]⟩,
   ⟨.vmv8r_vi, .VArith, [⟨.func6, .eq, .num 39⟩, ⟨.uimm5, .eq, .num 7⟩, ⟨.func3, .eq, .num 3⟩, ⟨.opcode, .eq, .num 87⟩]⟩,
   ⟨.vsrl_vv, .VArith, [⟨.func6, .eq, .num 40⟩, ⟨.func3, .eq, .num 0⟩, ⟨.opcode, .eq, .num 87⟩]⟩,
   ⟨.vsrl_vx, .VArith, [⟨.func6, .eq, .num 40⟩, ⟨.func3, .eq, .num 4⟩, ⟨.opcode, .eq, .num 87⟩]⟩,
   ⟨.vsrl_vi, .VArith, [⟨.func6, .eq, .num 40⟩, ⟨.func3, .eq, .num 3⟩, ⟨.opcode, .eq, .num 87⟩]⟩,
   ⟨.vsra_vv, .VArith, [⟨.func6, .eq, .num 41⟩, ⟨.func3, .eq, .num 0⟩, ⟨.opcode, .eq, .num 87⟩]⟩,
   ⟨.vsra_vx, .VArith, [⟨.func6, .eq, .num 41⟩, ⟨.func3, .eq, .num 4⟩, ⟨.opcode, .eq, .num 87⟩]⟩,
   ⟨.vsra_vi, .VArith, [⟨.func6, .eq, .num 41⟩, ⟨.func3, .eq, .num 3⟩, ⟨.opcode, .eq, .num 87⟩]⟩,
   ⟨.vssrl_vv, .VArith, [⟨.func6, .eq, .num 42⟩, ⟨.func3, .eq, .num 0⟩, ⟨.opcode, .eq, .num 87⟩]⟩,
   ⟨.vssrl_vx, .VArith, [⟨.func6, .eq, .num 42⟩, ⟨.func3, .eq, .num 4⟩, ⟨.opcode, .eq, .num 87⟩]⟩,
   ⟨.vssrl_vi, .VArith, [⟨.func6, .eq, .num 42⟩, ⟨.func3, .eq, .num 3⟩, ⟨.opcode, .eq, .num 87⟩]⟩,
   ⟨.vssra_vv, .VArith, [⟨.func6, .eq, .num 43⟩, ⟨.func3, .eq, .num 0⟩, ⟨.opcode, .eq, .num 87⟩]⟩,
   ⟨.vssra_vx, .VArith, [⟨.func6, .eq, .num 43⟩, ⟨.func3, .eq, .num 4⟩, ⟨.opcode, .eq, .num 87⟩]⟩,
   ⟨.vssra_vi, .VArith, [⟨.func6, .eq, .num 43⟩, ⟨.func3, .eq, .num 3⟩, ⟨.opcode, .eq, .num 87⟩]⟩,
   ⟨.vnsrl_vv, .VArith, [⟨.func6, .eq, .num 44⟩, ⟨.func3, .eq, .num 0⟩, ⟨.opcode, .eq, .num 87⟩]⟩,
   ⟨.vnsrl_vx, .VArith, [⟨.func6, .eq, .num 44⟩, ⟨.func3, .eq, .num 4⟩, ⟨.opcode, .eq, .num 87⟩]⟩,
   ⟨.vnsrl_vi, .VArith, [⟨.func6, .eq, .num 44⟩, ⟨.func3, .eq, .num 3⟩, ⟨.opcode, .eq, .num 87⟩]⟩,
   ⟨.vnsra_vv, .VArith, [⟨.func6, .eq, .num 45⟩, ⟨.func3, .eq, .num 0⟩, ⟨.opcode, .eq, .num 87⟩]⟩,
   ⟨.vnsra_vx, .VArith, [⟨.func6, .eq, .num 45⟩, ⟨.func3, .eq, .num 4⟩, ⟨.opcode, .eq, .num 87⟩]⟩,
   ⟨.vnsra_vi, .VArith, [⟨.func6, .eq, .num 45⟩, ⟨.func3, .eq, .num 3⟩, ⟨.opcode, .eq, .num 87⟩]⟩,
   ⟨.vnclipu_vv, .VArith, [⟨.func6, .eq, .num 46⟩, ⟨.func3, .eq, .num 0⟩, ⟨.opcode, .eq, .num 87⟩]⟩,
   ⟨.vnclipu_vx, .VArith, [⟨.func6, .eq, .num 46⟩, ⟨.func3, .eq, .num 4⟩, ⟨.opcode, .eq, .num 87⟩]⟩,
   ⟨.vnclipu_vi, .VArith, [⟨.func6, .eq, .num 46⟩, ⟨.func3, .eq, .num 3⟩, ⟨.opcode, .eq, .num 87⟩]⟩,
   ⟨.vnclip_vv, .VArith, [⟨.func6, .eq, .num 47⟩, ⟨.func3, .eq, .num 0⟩, ⟨.opcode, .eq, .num 87⟩]⟩,
   ⟨.vnclip_vx, .VArith, [⟨.func6, .eq, .num 47⟩, ⟨.func3, .eq, .num 4⟩, ⟨.opcode, .eq, .num 87⟩]⟩,
   ⟨.vnclip_vi, .VArith, [⟨.func6, .eq, .num 47⟩, ⟨.func3, .eq, .num 3⟩, ⟨.opcode, .eq, .num 87⟩]⟩,
   ⟨.vwredsumu_vv, .VArith, [⟨.func6, .eq, .num 48⟩, ⟨.func3, .eq, .num 0⟩, ⟨.opcode, .eq, .num 87⟩]⟩,
   ⟨.vwredsum_vv, .VArith, [⟨.func6, .eq, .num 49⟩, ⟨.func3, .eq, .num 0⟩, ⟨.opcode, .eq, .num 87⟩]⟩,
   ⟨.vredsum_vv, .VArith, [⟨.func6, .eq, .num 0⟩, ⟨.func3, .eq, .num 2⟩, ⟨.opcode, .eq, .num 87⟩]⟩,
   ⟨.vredand_vv, .VArith, [⟨.func6, .eq, .num 1⟩, ⟨.func3, .eq, .num 2⟩, ⟨.opcode, .eq, .num 87⟩]⟩,
   ⟨.vredor_vv, .VArith, [⟨.func6, .eq, .num 2⟩, ⟨.func3, .eq, .num 2⟩, ⟨.opcode, .eq, .num 87⟩]⟩,
   ⟨.vredxor_vv, .VArith, [⟨.func6, .eq, .num 3⟩, ⟨.func3, .eq, .num 2⟩, ⟨.opcode, .eq, .num 87⟩]⟩,
   ⟨.vredminu_vv, .VArith, [⟨.func6, .eq, .num 4⟩, ⟨.func3, .eq, .num 2⟩, ⟨.opcode, .eq, .num 87⟩]⟩,
   ⟨.vredmin_vv, .VArith, [⟨.func6, .eq, .num 5⟩, ⟨.func3, .eq, .num 2⟩, ⟨.opcode, .eq, .num 87⟩]⟩,
   ⟨.vredmaxu_vv, .VArith, [⟨.func6, .eq, .num 6⟩, ⟨.func3, .eq, .num 2⟩, ⟨.opcode, .eq, .num 87⟩]⟩,
   ⟨.vredmax_vv, .VArith, [⟨.func6, .eq, .num 7⟩, ⟨.func3, .eq, .num 2⟩, ⟨.opcode, .eq, .num 87⟩]⟩,
   ⟨.vaaddu_vv, .VArith, [⟨.func6, .eq, .num 8⟩, ⟨.func3, .eq, .num 2⟩, ⟨.opcode, .eq, .num 87⟩]⟩,
   ⟨.vaaddu_vx, .VArith, [⟨.func6, .eq, .num 8⟩, ⟨.func3, .eq, .num 6⟩, ⟨.opcode, .eq, .num 87⟩]⟩,
   ⟨.vaadd_vv, .VArith, [⟨.func6, .eq, .num 9⟩, ⟨.func3, .eq, .num 2⟩, ⟨.opcode, .eq, .num 87⟩]⟩,
   ⟨.vaadd_vx, .VArith, [⟨.func6, .eq, .num 9⟩, ⟨.func3, .eq, .num 6⟩, ⟨.opcode, .eq, .num 87⟩]⟩,
   ⟨.vasubu_vv, .VArith, [⟨.func6, .eq, .num 10⟩, ⟨.func3, .eq, .num 2⟩, ⟨.opcode, .eq, .num 87⟩]⟩,
   ⟨.vasubu_vx, .VArith, [⟨.func6, .eq, .num 10⟩, ⟨.func3, .eq, .num 6⟩, ⟨.opcode, .eq, .num 87⟩]⟩,
   ⟨.vasub_vv, .VArith, [⟨.func6, .eq, .num 11⟩, ⟨.func3, .eq, .num 2⟩, ⟨.opcode, .eq, .num 87⟩]⟩,
   ⟨.vasub_vx, .VArith, [⟨.func6, .eq, .num 11⟩, ⟨.func3, .eq, .num 6⟩, ⟨.opcode, .eq, .num 87⟩]⟩,
   ⟨.vslide1up_vx, .VArith, [⟨.func6, .eq, .num 14⟩, ⟨.func3, .eq, .num 6⟩, ⟨.opcode, .eq, .num 87⟩]⟩,
   ⟨.vslide1down_vx, .VArith, [⟨.func6, .eq, .num 15⟩, ⟨.func3, .eq, .num 6⟩, ⟨.opcode, .eq, .num 87⟩]⟩,
   ⟨.vcompress_vv, .VArith, [⟨.func6, .eq, .num 23⟩, ⟨.func3, .eq, .num 2⟩, ⟨.opcode, .eq, .num 87⟩]⟩,
   ⟨.vmandnot_vv, .VArith, [⟨.func6, .eq, .num 24⟩, ⟨.func3, .eq, .num 2⟩, ⟨.opcode, .eq, .num 87⟩]⟩,
   ⟨.vmand_vv, .VArith, [⟨.func6, .eq, .num 25⟩, ⟨.func3, .eq, .num 2⟩, ⟨.opcode, .eq, .num 87⟩]⟩,
   ⟨.vmor_vv, .VArith, [⟨.func6, .eq, .num 26⟩, ⟨.func3, .eq, .num 2⟩, ⟨.opcode, .eq, .num 87⟩]⟩,
   ⟨.vmxor_vv, .VArith, [⟨.func6, .eq, .num 27⟩, ⟨.func3, .eq, .num 2⟩, ⟨.opcode, .eq, .num 87⟩]⟩,
   ⟨.vmornot_vv, .VArith, [⟨.func6, .eq, .num 28⟩, ⟨.func3, .eq, .num 2⟩, ⟨.opcode, .eq, .num 87⟩]⟩,
   ⟨.vmnand_vv, .VArith, [⟨.func6, .eq, .num 29⟩, ⟨.func3, .eq, .num 2⟩, ⟨.opcode, .eq, .num 87⟩]⟩,
   ⟨.vmnor_vv, .VArith, [⟨.func6, .eq, .num 30⟩, ⟨.func3, .eq, .num 2⟩, ⟨.opcode, .eq, .num 87⟩]⟩,
   ⟨.vmxnor_vv, .VArith, [⟨.func6, .eq, .num 31⟩, ⟨.func3, .eq, .num 2⟩, ⟨.opcode, .eq, .num 87⟩]⟩,
   ⟨.vdivu_vv, .VArith, [⟨.func6, .eq, .num 32⟩, ⟨.func3, .eq, .num 2⟩, ⟨.opcode, .eq, .num 87⟩]⟩,
   ⟨.vdivu_vx, .VArith, [⟨.func6, .eq, .num 32⟩, ⟨.func3, .eq, .num 6⟩, ⟨.opcode, .eq, .num 87⟩]⟩,
   ⟨.vdiv_vv, .VArith, [⟨.func6, .eq, .num 33⟩, ⟨.func3, .eq, .num 2⟩, ⟨.opcode, .eq, .num 87⟩]⟩,
   ⟨.vdiv_vx, .VArith, [⟨.func6, .eq, .num 33⟩, ⟨.func3, .eq, .num 6⟩, ⟨.opcode, .eq, .num 87⟩]⟩,
   ⟨.vremu_vv, .VArith, [⟨.func6, .eq, .num 34⟩, ⟨.func3, .eq, .num 2⟩, ⟨.opcode, .eq, .num 87⟩]⟩,
   ⟨.vremu_vx, .VArith, [⟨.func6, .eq, .num 34⟩, ⟨.func3, .eq, .num 6⟩, ⟨.opcode, .eq, .num 87⟩]⟩,
   ⟨.vrem_vv, .VArith, [⟨.func6, .eq, .num 35⟩, ⟨.func3, .eq, .num 2⟩, ⟨.opcode, .eq, .num 87⟩]⟩,
   ⟨.vrem_vx, .VArith, [⟨.func6, .eq, .num 35⟩, ⟨.func3, .eq, .num 6⟩, ⟨.opcode, .eq, .num 87⟩]⟩,
   ⟨.vmulhu_vv, .VArith, [⟨.func6, .eq, .num 36⟩, ⟨.func3, .eq, .num 2⟩, ⟨.opcode, .eq, .num 87⟩]⟩,
   ⟨.vmulhu_vx, .VArith, [⟨.func6, .eq, .num 36⟩, ⟨.func3, .eq, .num 6⟩, ⟨.opcode, .eq, .num 87⟩]⟩,
   ⟨.vmul_vv, .VArith, [⟨.func6, .eq, .num 37⟩, ⟨.func3, .eq, .num 2⟩, ⟨.opcode, .eq, .num 87⟩]⟩,
   ⟨.vmul_vx, .VArith, [⟨.func6, .eq, .num 37⟩, ⟨.func3, .eq, .num 6⟩, ⟨.opcode, .eq, .num 87⟩]⟩,
   ⟨.vmulhsu_vv, .VArith, [⟨.func6, .eq, .num 38⟩, ⟨.func3, .eq, .num 2⟩, ⟨.opcode, .eq, .num 87⟩]⟩,
   ⟨.vmulhsu_vx, .VArith, [⟨.func6, .eq, .num 38⟩, ⟨.func3, .eq, .num 6⟩, ⟨.opcode, .eq, .num 87⟩]⟩,
   ⟨.vmulh_vv, .VArith, [⟨.func6, .eq, .num 39⟩, ⟨.func3, .eq, .num 2⟩, ⟨.opcode, .eq, .num 87⟩]⟩,
   ⟨.vmulh_vx, .VArith, [⟨.func6, .eq, .num 39⟩, ⟨.func3, .eq, .num 6⟩, ⟨.opcode, .eq, .num 87⟩]⟩,
   ⟨.vmadd_vv, .VArith, [⟨.func6, .eq, .num 41⟩, ⟨.func3, .eq, .num 2⟩, ⟨.opcode, .eq, .num 87⟩]⟩,
   ⟨.vmadd_vx, .VArith, [⟨.func6, .eq, .num 41⟩, ⟨.func3, .eq, .num 6⟩, ⟨.opcode, .eq, .num 87⟩]⟩,
   ⟨.vnmsub_vv, .VArith, [⟨.func6, .eq, .num 43⟩, ⟨.func3, .eq, .num 2⟩, ⟨.opcode, .eq, .num 87⟩]⟩,
   ⟨.vnmsub_vx, .VArith, [⟨.func6, .eq, .num 43⟩, ⟨.func3, .eq, .num 6⟩, ⟨.opcode, .eq, .num 87⟩]⟩,
   ⟨.vmacc_vv, .VArith, [⟨.func6, .eq, .num 45⟩, ⟨.func3, .eq, .num 2⟩, ⟨.opcode, .eq, .num 87⟩]⟩,
   ⟨.vmacc_vx, .VArith, [⟨.func6, .eq, .num 45⟩, ⟨.func3, .eq, .num 6⟩, ⟨.opcode, .eq, .num 87⟩]⟩,
   ⟨.vnmsac_vv, .VArith, [⟨.func6, .eq, .num 47⟩, ⟨.func3, .eq, .num 2⟩, ⟨.opcode, .eq, .num 87⟩]⟩,
   ⟨.vnmsac_vx, .VArith, [⟨.func6, .eq, .num 47⟩, ⟨.func3, .eq, .num 6⟩, ⟨.opcode, .eq, .num 87⟩]⟩,
   ⟨.vwaddu_vv, .VArith, [⟨.func6, .eq, .num 48⟩, ⟨.func3, .eq, .num 2⟩, ⟨.opcode, .eq, .num 87⟩]⟩,
   ⟨.vwaddu_vx, .VArith, [⟨.func6, .eq, .num 48⟩, ⟨.func3, .eq, .num 6⟩, ⟨.opcode, .eq, .num 87⟩]⟩,
   ⟨.vwadd_vv, .VArith, [⟨.func6, .eq, .num 49⟩, ⟨.func3, .eq, .num 2⟩, ⟨.opcode, .eq, .num 87⟩]⟩,
   ⟨.vwadd_vx, .VArith, [⟨.func6, .eq, .num 49⟩, ⟨.func3, .eq, .num 6⟩, ⟨.opcode, .eq, .num 87⟩]⟩,
   ⟨.vwsubu_vv, .VArith, [⟨.func6, .eq, .num 50⟩, ⟨.func3, .eq, .num 2⟩, ⟨.opcode, .eq, .num 87⟩]⟩,
   ⟨.vwsubu_vx, .VArith, [⟨.func6, .eq, .num 50⟩, ⟨.func3, .eq, .num 6⟩, ⟨.opcode, .eq, .num 87⟩]⟩,
   ⟨.vwsub_vv, .VArith, [⟨.func6, .eq, .num 51⟩, ⟨.func3, .eq, .num 2⟩, ⟨.opcode, .eq, .num 87⟩]⟩,
   ⟨.vwsub_vx, .VArith, [⟨.func6, .eq, .num 51⟩, ⟨.func3, .eq, .num 6⟩, ⟨.opcode, .eq, .num 87⟩]⟩,
   ⟨.vwaddu_w_vv, .VArith, [⟨.func6, .eq, .num 52⟩, ⟨.func3, .eq, .num 2⟩, ⟨.opcode, .eq, .num 87⟩]⟩,
   ⟨.vwaddu_w_vx, .VArith, [⟨.func6, .eq, .num 52⟩, ⟨.func3, .eq, .num 6⟩, ⟨.opcode, .eq, .num 87⟩]⟩,
   ⟨.vwadd_w_vv, .VArith, [⟨.func6, .eq, .num 53⟩, ⟨.func3, .eq, .num 2⟩, ⟨.opcode, .eq, .num 87⟩]⟩,
   ⟨.vwadd_w_vx, .VArith, [⟨.func6, .eq, .num 53⟩, ⟨.func3, .eq, .num 6⟩, ⟨.opcode, .eq, .num 87⟩]⟩,
   ⟨.vwsubu_w_vv, .VArith, [⟨.func6, .eq, .num 54⟩, ⟨.func3, .eq, .num 2⟩, ⟨.opcode, .eq, .num 87⟩]⟩,
   ⟨.vwsubu_w_vx, .VArith, [⟨.func6, .eq, .num 54⟩, ⟨.func3, .eq, .num 6⟩, ⟨.opcode, .eq, .num 87⟩]⟩,
   ⟨.vwsub_w_vv, .VArith, [⟨.func6, .eq, .num 55⟩, ⟨.func3, .eq, .num 2⟩, ⟨.opcode, .eq, .num 87⟩]⟩,
   ⟨.vwsub_w_vx, .VArith, [⟨.func6, .eq, .num 55⟩, ⟨.func3, .eq, .num 6⟩, ⟨.opcode, .eq, .num 87⟩]⟩,
   ⟨.vwmulu_vv, .VArith, [⟨.func6, .eq, .num 56⟩, ⟨.func3, .eq, .num 2⟩, ⟨.opcode, .eq, .num 87⟩]⟩,
   ⟨.vwmulu_vx, .VArith, [⟨.func6, .eq, .num 56⟩, ⟨.func3, .eq, .num 6⟩, ⟨.opcode, .eq, .num 87⟩]⟩,
   ⟨.vwmulsu_vv, .VArith, [⟨.func6, .eq, .num 58⟩, ⟨.func3, .eq, .num 2⟩, ⟨.opcode, .eq, .num 87⟩]⟩,
   ⟨.vwmulsu_vx, .VArith, [⟨.func6, .eq, .num 58⟩, ⟨.func3, .eq, .num 6⟩, ⟨.opcode, .eq, .num 87⟩]⟩,
   ⟨.vwmul_vv, .VArith, [⟨.func6, .eq, .num 59⟩, ⟨.func3, .eq, .num 2⟩, ⟨.opcode, .eq, .num 87⟩]⟩,
   ⟨.vwmul_vx, .VArith, [⟨.func6, .eq, .num 59⟩, ⟨.func3, .eq, .num 6⟩, ⟨.opcode, .eq, .num 87⟩]⟩,
   ⟨.vwmaccu_vv, .VArith, [⟨.func6, .eq, .num 60⟩, ⟨.func3, .eq, .num 2⟩, ⟨.opcode, .eq, .num 87⟩]⟩,
   ⟨.vwmaccu_vx, .VArith, [⟨.func6, .eq, .num 60⟩, ⟨.func3, .eq, .num 6⟩, ⟨.opcode, .eq, .num 87⟩]⟩,
   ⟨.vwmacc_vv, .VArith, [⟨.func6, .eq, .num 61⟩, ⟨.func3, .eq, .num 2⟩, ⟨.opcode, .eq, .num 87⟩]⟩,
   ⟨.vwmacc_vx, .VArith, [⟨.func6, .eq, .num 61⟩, ⟨.func3, .eq, .num 6⟩, ⟨.opcode, .eq, .num 87⟩]⟩,
   ⟨.vwmaccus_vv, .VArith, [⟨.func6, .eq, .num 62⟩, ⟨.func3, .eq, .num 2⟩, ⟨.opcode, .eq, .num 87⟩]⟩,
   ⟨.vwmaccus_vx, .VArith, [⟨.func6, .eq, .num 62⟩, ⟨.func3, .eq, .num 6⟩, ⟨.opcode, .eq, .num 87⟩]⟩,
   ⟨.vwmaccsu_vv, .VArith, [⟨.func6, .eq, .num 63⟩, ⟨.func3, .eq, .num 2⟩, ⟨.opcode, .eq, .num 87⟩]⟩,
   ⟨.vwmaccsu_vx, .VArith, [⟨.func6, .eq, .num 63⟩, ⟨.func3, .eq, .num 6⟩, ⟨.opcode, .eq, .num 87⟩]⟩,
   ⟨.vfadd_vv, .VArith, [⟨.func6, .eq, .num 0⟩, ⟨.func3, .eq, .num 1⟩, ⟨.opcode, .eq, .num 87⟩]⟩,
   ⟨.vfadd_vf, .VArith, [⟨.func6, .eq, .num 0⟩, ⟨.func3, .eq, .num 5⟩, ⟨.opcode, .eq, .num 87⟩]⟩,
   ⟨.vfredusum_vv, .VArith, [⟨.func6, .eq, .num 1⟩, ⟨.func3, .eq, .num 1⟩, ⟨.opcode, .eq, .num 87⟩]⟩,
   ⟨.vfsub_vv, .VArith, [⟨.func6, .eq, .num 2⟩, ⟨.func3, .eq, .num 1⟩, ⟨.opcode, .eq, .num 87⟩]⟩,
   ⟨.vfsub_vf, .VArith, [⟨.func6, .eq, .num 2⟩, ⟨.func3, .eq, .num 5⟩, ⟨.opcode, .eq, .num 87⟩]⟩,
   ⟨.vfredosum_vv, .VArith, [⟨.func6, .eq, .num 3⟩, ⟨.func3, .eq, .num 1⟩, ⟨.opcode, .eq, .num 87⟩]⟩,
   ⟨.vfmin_vv, .VArith, [⟨.func6, .eq, .num 4⟩, ⟨.func3, .eq, .num 1⟩, ⟨.opcode, .eq, .num 87⟩]⟩,
   ⟨.vfmin_vf, .VArith, [⟨.func6, .eq, .num 4⟩, ⟨.func3, .eq, .num 5⟩, ⟨.opcode, .eq, .num 87⟩]⟩,
   ⟨.vfredmin_vv, .VArith, [⟨.func6, .eq, .num 5⟩, ⟨.func3, .eq, .num 1⟩, ⟨.opcode, .eq, .num 87⟩]⟩,
   ⟨.vfmax_vv, .VArith, [⟨.func6, .eq, .num 6⟩, ⟨.func3, .eq, .num 1⟩, ⟨.opcode, .eq, .num 87⟩]⟩,
   ⟨.vfmax_vf, .VArith, [⟨.func6, .eq, .num 6⟩, ⟨.func3, .eq, .num 5⟩, ⟨.opcode, .eq, .num 87⟩]⟩,
   ⟨.vfredmax_vv, .VArith, [⟨.func6, .eq, .num 7⟩, ⟨.func3, .eq, .num 1⟩, ⟨.opcode, .eq, .num 87⟩]⟩,
   ⟨.vfsgnj_vv, .VArith, [⟨.func6, .eq, .num 8⟩, ⟨.func3, .eq, .num 1⟩, ⟨.opcode, .eq, .num 87⟩]⟩,
   ⟨.vfsgnj_vf, .VArith, [⟨.func6, .eq, .num 8⟩, ⟨.func3, .eq, .num 5⟩, ⟨.opcode, .eq, .num 87⟩]⟩,
   ⟨.vfsgnjn_vv, .VArith, [⟨.func6, .eq, .num 9⟩, ⟨.func3, .eq, .num 1⟩, ⟨.opcode, .eq, .num 87⟩]⟩,
   ⟨.vfsgnjn_vf, .VArith, [⟨.func6, .eq, .num 9⟩, ⟨.func3, .eq, .num 5⟩, ⟨.opcode, .eq, .num 87⟩]⟩,
   ⟨.vfsgnjx_vv, .VArith, [⟨.func6, .eq, .num 10⟩, ⟨.func3, .eq, .num 1⟩, ⟨.opcode, .eq, .num 87⟩]⟩,
   ⟨.vfsgnjx_vf, .VArith, [⟨.func6, .eq, .num 10⟩, ⟨.func3, .eq, .num 5⟩, ⟨.opcode, .eq, .num 87⟩]⟩,
   ⟨.vfslide1up_vf, .VArith, [⟨.func6, .eq, .num 14⟩, ⟨.func3, .eq, .num 5⟩, ⟨.opcode, .eq, .num 87⟩]⟩,
   ⟨.vfslide1down_vf, .VArith, [⟨.func6, .eq, .num 15⟩, ⟨.func3, .eq, .num 5⟩, ⟨.opcode, .eq, .num 87⟩]⟩,
   ⟨.vfmv_vf, .VArith, [⟨.func6, .eq, .num 23⟩, ⟨.vm, .eq, .num 1⟩, ⟨.vs2, .eq, .num 0⟩, ⟨.func3, .eq, .num 5⟩, ⟨.opcode, .eq, .num 87⟩]⟩,
   ⟨.vfmerge_vf, .VArith, [⟨.func6, .eq, .num 23⟩, ⟨.vm, .eq, .num 0⟩, ⟨.func3, .eq, .num 5⟩, ⟨.opcode, .eq, .num 87⟩]⟩,
   ⟨.vmfeq_vv, .VArith, [⟨.func6, .eq, .num 24⟩, ⟨.func3, .eq, .num 1⟩, ⟨.opcode, .eq, .num 87⟩]⟩,
   ⟨.vmfeq_vf, .VArith, [⟨.func6, .eq, .num 24⟩, ⟨.func3, .eq, .num 5⟩, ⟨.opcode, .eq, .num 87⟩]⟩,
   ⟨.vmfle_vv, .VArith, [⟨.func6, .eq, .num 25⟩, ⟨.func3, .eq, .num 1⟩, ⟨.opcode, .eq, .num 87⟩]⟩,
   ⟨.vmfle_vf, .VArith, [⟨.func6, .eq, .num 25⟩, ⟨.func3, .eq, .num 5⟩, ⟨.opcode, .eq, .num 87⟩]⟩,
   ⟨.vmflt_vv, .VArith, [⟨.func6, .eq, .num 27⟩, ⟨.func3, .eq, .num 1⟩, ⟨.opcode, .eq, .num 87⟩]⟩,
   ⟨.vmflt_vf, .VArith, [⟨.func6, .eq, .num 27⟩, ⟨.func3, .eq, .num 5⟩, ⟨.opcode, .eq, .num 87⟩]⟩,
   ⟨.vmfne_vv, .VArith, [⟨.func6, .eq, .num 28⟩, ⟨.func3, .eq, .num 1⟩, ⟨.opcode, .eq, .num 87⟩]⟩,
   ⟨.vmfne_vf, .VArith, [⟨.func6, .eq, .num 28⟩, ⟨.func3, .eq, .num 5⟩, ⟨.opcode, .eq, .num 87⟩]⟩,
   ⟨.vmfgt_vf, .VArith, [⟨.func6, .eq, .num 29⟩, ⟨.func3, .eq, .num 5⟩, ⟨.opcode, .eq, .num 87⟩]⟩,
   ⟨.vmfge_vf, .VArith, [⟨.func6, .eq, .num 31⟩, ⟨.func3, .eq, .num 5⟩, ⟨.opcode, .eq, .num 87⟩]⟩,
   ⟨.vfdiv_vv, .VArith, [⟨.func6, .eq, .num 32⟩, ⟨.func3, .eq, .num 1⟩, ⟨.opcode, .eq, .num 87⟩]⟩,
   ⟨.vfdiv_vf, .VArith, [⟨.func6, .eq, .num 32⟩, ⟨.func3, .eq, .num 5⟩, ⟨.opcode, .eq, .num 87⟩]⟩,
   ⟨.vfrdiv_vf, .VArith, [⟨.func6, .eq, .num 33⟩, ⟨.func3, .eq, .num 5⟩, ⟨.opcode, .eq, .num 87⟩]⟩,
   ⟨.vfmul_vv, .VArith, [⟨.func6, .eq, .num 36⟩, ⟨.func3, .eq, .num 1⟩, ⟨.opcode, .eq, .num 87⟩]⟩,
   ⟨.vfmul_vf, .VArith, [⟨.func6, .eq, .num 36⟩, ⟨.func3, .eq, .num 5⟩, ⟨.opcode, .eq, .num 87⟩]⟩,
   ⟨.vfrsub_vf, .VArith, [⟨.func6, .eq, .num 39⟩, ⟨.func3, .eq, .num 5⟩, ⟨.opcode, .eq, .num 87⟩]⟩,
   ⟨.vfmadd_vv, .VArith, [⟨.func6, .eq, .num 40⟩, ⟨.func3, .eq, .num 1⟩, ⟨.opcode, .eq, .num 87⟩]⟩,
   ⟨.vfmadd_vf, .VArith, [⟨.func6, .eq, .num 40⟩, ⟨.func3, .eq, .num 5⟩, ⟨.opcode, .eq, .num 87⟩]⟩,
   ⟨.vfnmadd_vv, .VArith, [⟨.func6, .eq, .num 41⟩, ⟨.func3, .eq, .num 1⟩, ⟨.opcode, .eq, .num 87⟩]⟩,
   ⟨.vfnmadd_vf, .VArith, [⟨.func6, .eq, .num 41⟩, ⟨.func3, .eq, .num 5⟩, ⟨.opcode, .eq, .num 87⟩]⟩,
   ⟨.vfmsub_vv, .VArith, [⟨.func6, .eq, .num 42⟩, ⟨.func3, .eq, .num 1⟩, ⟨.opcode, .eq, .num 87⟩]⟩,
   ⟨.vfmsub_vf, .VArith, [⟨.func6, .eq, .num 42⟩, ⟨.func3, .eq, .num 5⟩, ⟨.opcode, .eq, .num 87⟩]⟩,
   ⟨.vfnmsub_vv, .VArith, [⟨.func6, .eq, .num 43⟩, ⟨.func3, .eq, .num 1⟩, ⟨.opcode, .eq, .num 87⟩]⟩,
   ⟨.vfnmsub_vf, .VArith, [⟨.func6, .eq, .num 43⟩, ⟨.func3, .eq, .num 5⟩, ⟨.opcode, .eq, .num 87⟩]⟩,
   ⟨.vfmacc_vv, .VArith, [⟨.func6, .eq, .num 44⟩, ⟨.func3, .eq, .num 1⟩, ⟨.opcode, .eq, .num 87⟩]⟩,
   ⟨.vfmacc_vf, .VArith, [⟨.func6, .eq, .num 44⟩, ⟨.func3, .eq, .num 5⟩, ⟨.opcode, .eq, .num 87⟩]⟩,
   ⟨.vfnmacc_vv, .VArith, [⟨.func6, .eq, .num 45⟩, ⟨.func3, .eq, .num 1⟩, ⟨.opcode, .eq, .num 87⟩]⟩,
   ⟨.vfnmacc_vf, .VArith, [⟨.func6, .eq, .num 45⟩, ⟨.func3, .eq, .num 5⟩, ⟨.opcode, .eq, .num 87⟩]⟩,
   ⟨.vfmsac_vv, .VArith, [⟨.func6, .eq, .num 46⟩, ⟨.func3, .eq, .num 1⟩, ⟨.opcode, .eq, .num 87⟩]⟩,
   ⟨.vfmsac_vf, .VArith, [⟨.func6, .eq, .num 46⟩, ⟨.func3, .eq, .num 5⟩, ⟨.opcode, .eq, .num 87⟩]⟩,
   ⟨.vfnmsac_vv, .VArith, [⟨.func6, .eq, .num 47⟩, ⟨.func3, .eq, .num 1⟩, ⟨.opcode, .eq, .num 87⟩]⟩,
   ⟨.vfnmsac_vf, .VArith, [⟨.func6, .eq, .num 47⟩, ⟨.func3, .eq, .num 5⟩, ⟨.opcode, .eq, .num 87⟩]⟩,
   ⟨.vfwadd_vv, .VArith, [⟨.func6, .eq, .num 48⟩, ⟨.func3, .eq, .num 1⟩, ⟨.opcode, .eq, .num 87⟩]⟩,
   ⟨.vfwadd_vf, .VArith, [⟨.func6, .eq, .num 48⟩, ⟨.func3, .eq, .num 5⟩, ⟨.opcode, .eq, .num 87⟩]⟩,
   ⟨.vfwredusum_vv, .VArith, [⟨.func6, .eq, .num 49⟩, ⟨.func3, .eq, .num 1⟩, ⟨.opcode, .eq, .num 87⟩]⟩,
   ⟨.vfwsub_vv, .VArith, [⟨.func6, .eq, .num 50⟩, ⟨.func3, .eq, .num 1⟩, ⟨.opcode, .eq, .num 87⟩]⟩,
   ⟨.vfwsub_vf, .VArith, [⟨.func6, .eq, .num 50⟩, ⟨.func3, .eq, .num 5⟩, ⟨.opcode, .eq, .num 87⟩]⟩,
   ⟨.vfwredosum_vv, .VArith, [⟨.func6, .eq, .num 51⟩, ⟨.func3, .eq, .num 1⟩, ⟨.opcode, .eq, .num 87⟩]⟩,
   ⟨.vfwadd_w_vv, .VArith, [⟨.func6, .eq, .num 52⟩, ⟨.func3, .eq, .num 1⟩, ⟨.opcode, .eq, .num 87⟩]⟩,
   ⟨.vfwadd_w_vf, .VArith, [⟨.func6, .eq, .num 52⟩, ⟨.func3, .eq, .num 5⟩, ⟨.opcode, .eq, .num 87⟩]⟩,
   ⟨.vfwsub_w_vv, .VArith, [⟨.func6, .eq, .num 54⟩, ⟨.func3, .eq, .num 1⟩, ⟨.opcode, .eq, .num 87⟩]⟩,
   ⟨.vfwsub_w_vf, .VArith, [⟨.func6, .eq, .num 54⟩, ⟨.func3, .eq, .num 5⟩, ⟨.opcode, .eq, .num 87⟩]⟩,
   ⟨.vfwmul_vv, .VArith, [⟨.func6, .eq, .num 56⟩, ⟨.func3, .eq, .num 1⟩, ⟨.opcode, .eq, .num 87⟩]⟩,
   ⟨.vfwmul_vf, .VArith, [⟨.func6, .eq, .num 56⟩, ⟨.func3, .eq, .num 5⟩, ⟨.opcode, .eq, .num 87⟩]⟩,
   ⟨.vfwmacc_vv, .VArith, [⟨.func6, .eq, .num 60⟩, ⟨.func3, .eq, .num 1⟩, ⟨.opcode, .eq, .num 87⟩]⟩,
   ⟨.vfwmacc_vf, .VArith, [⟨.func6, .eq, .num 60⟩, ⟨.func3, .eq, .num 5⟩, ⟨.opcode, .eq, .num 87⟩]⟩,
   ⟨.vfwnmacc_vv, .VArith, [⟨.func6, .eq, .num 61⟩, ⟨.func3, .eq, .num 1⟩, ⟨.opcode, .eq, .num 87⟩]⟩,
   ⟨.vfwnmacc_vf, .VArith, [⟨.func6, .eq, .num 61⟩, ⟨.func3, .eq, .num 5⟩, ⟨.opcode, .eq, .num 87⟩]⟩,
   ⟨.vfwmsac_vv, .VArith, [⟨.func6, .eq, .num 62⟩, ⟨.func3, .eq, .num 1⟩, ⟨.opcode, .eq, .num 87⟩]⟩,
   ⟨.vfwmsac_vf, .VArith, [⟨.func6, .eq, .num 62⟩, ⟨.func3, .eq, .num 5⟩, ⟨.opcode, .eq, .num 87⟩]⟩,
   ⟨.vfwnmsac_vv, .VArith, [⟨.func6, .eq, .num 63⟩, ⟨.func3, .eq, .num 1⟩, ⟨.opcode, .eq, .num 87⟩]⟩,
   ⟨.vfwnmsac_vf, .VArith, [⟨.func6, .eq, .num 63⟩, ⟨.func3, .eq, .num 5⟩, ⟨.opcode, .eq, .num 87⟩]⟩,
   ⟨.vmv_x_s, .VArith, [⟨.func6, .eq, .num 16⟩, ⟨.vs1, .eq, .num 0⟩, ⟨.func3, .eq, .num 2⟩, ⟨.opcode, .eq, .num 87⟩]⟩,
   ⟨.vcpop, .VArith, [⟨.func6, .eq, .num 16⟩, ⟨.vs1, .eq, .num 16⟩, ⟨.func3, .eq, .num 2⟩, ⟨.opcode, .eq, .num 87⟩]⟩,
   ⟨.vfirst, .VArith, [⟨.func6, .eq, .num 16⟩, ⟨.vs1, .eq, .num 17⟩, ⟨.func3, .eq, .num 2⟩, ⟨.opcode, .eq, .num 87⟩]⟩,
   ⟨.vmv_s_x, .VArith, [⟨.func6, .eq, .num 16⟩, ⟨.vs2, .eq, .num 0⟩, ⟨.func3, .eq, .num 6⟩, ⟨.opcode, .eq, .num 87⟩]⟩,
   ⟨.vzext_vf8, .VArith, [⟨.func6, .eq, .num 18⟩, ⟨.vs1, .eq, .num 2⟩, ⟨.func3, .eq, .num 2⟩, ⟨.opcode, .eq, .num 87⟩]⟩,
   ⟨.vsext_vf8, .VArith, [⟨.func6, .eq, .num 18⟩, ⟨.vs1, .eq, .num 3⟩, ⟨.func3, .eq, .num 2⟩, ⟨.opcode, .eq, .num 87⟩]⟩,
   ⟨.vzext_vf4, .VArith, [⟨.func6, .eq, .num 18⟩, ⟨.vs1, .eq, .num 4⟩, ⟨.func3, .eq, .num 2⟩, ⟨.opcode, .eq, .num 87⟩]⟩,
   ⟨.vsext_vf4, .VArith, [⟨.func6, .eq, .num 18⟩, ⟨.vs1, .eq, .num 5⟩, ⟨.func3, .eq, .num 2⟩, ⟨.opcode, .eq, .num 87⟩]⟩,
   ⟨.vzext_vf2, .VArith, [⟨.func6, .eq, .num 18⟩, ⟨.vs1, .eq, .num 6⟩, ⟨.func3, .eq, .num 2⟩, ⟨.opcode, .eq, .num 87⟩]⟩,
   ⟨.vsext_vf2, .VArith, [⟨.func6, .eq, .num 18⟩, ⟨.vs1, .eq, .num 7⟩, ⟨.func3, .eq, .num 2⟩, ⟨.opcode, .eq, .num 87⟩]⟩,
   ⟨.vmsbf, .VArith, [⟨.func6, .eq, .num 20⟩, ⟨.vs1, .eq, .num 1⟩, ⟨.func3, .eq, .num 2⟩, ⟨.opcode, .eq, .num 87⟩]⟩,
   ⟨.vmsof, .VArith, [⟨.func6, .eq, .num 20⟩, ⟨.vs1, .eq, .num 2⟩, ⟨.func3, .eq, .num 2⟩, ⟨.opcode, .eq, .num 87⟩]⟩,
   ⟨.vmsif, .VArith, [⟨.func6, .eq, .num 20⟩, ⟨.vs1, .eq, .num 3⟩, ⟨.func3, .eq, .num 2⟩, ⟨.opcode, .eq, .num 87⟩]⟩,
   ⟨.viota, .VArith, [⟨.func6, .eq, .num 20⟩, ⟨.vs1, .eq, .num 16⟩, ⟨.func3, .eq, .num 2⟩, ⟨.opcode, .eq, .num 87⟩]⟩,
   ⟨.vid, .VArith, [⟨.func6, .eq, .num 20⟩, ⟨.vs1, .eq, .num 17⟩, ⟨.func3, .eq, .num 2⟩, ⟨.opcode, .eq, .num 87⟩]⟩,
   ⟨.vfmv_f_s, .VArith, [⟨.func6, .eq, .num 16⟩, ⟨.vs1, .eq, .num 0⟩, ⟨.func3, .eq, .num 1⟩, ⟨.opcode, .eq, .num 87⟩]⟩,
   ⟨.vfmv_s_f, .VArith, [⟨.func6, .eq, .num 16⟩, ⟨.vs2, .eq, .num 0⟩, ⟨.func3, .eq, .num 5⟩, ⟨.opcode, .eq, .num 87⟩]⟩,
   ⟨.vfcvt_xu_f_v, .VArith, [⟨.func6, .eq, .num 18⟩, ⟨.vs1, .eq, .num 0⟩, ⟨.func3, .eq, .num 1⟩, ⟨.opcode, .eq, .num 87⟩]⟩,
   ⟨.vfcvt_x_f_v, .VArith, [⟨.func6, .eq, .num 18⟩, ⟨.vs1, .eq, .num 1⟩, ⟨.func3, .eq, .num 1⟩, ⟨.opcode, .eq, .num 87⟩]⟩,
   ⟨.vfcvt_f_xu_v, .VArith, [⟨.func6, .eq, .num 18⟩, ⟨.vs1, .eq, .num 2⟩, ⟨.func3, .eq, .num 1⟩, ⟨.opcode, .eq, .num 87⟩]⟩,
   ⟨.vfcvt_f_x_v, .VArith, [⟨.func6, .eq, .num 18⟩, ⟨.vs1, .eq, .num 3⟩, ⟨.func3, .eq, .num 1⟩, ⟨.opcode, .eq, .num 87⟩]⟩,
   ⟨.vfcvt_rtz_xu_f_v, .VArith, [⟨.func6, .eq, .num 18⟩, ⟨.vs1, .eq, .num 6⟩, ⟨.func3, .eq, .num 1⟩, ⟨.opcode, .eq, .num 87⟩]⟩,
   ⟨.vfcvt_rtz_x_f_v, .VArith, [⟨.func6, .eq, .num 18⟩, ⟨.vs1, .eq, .num 7⟩, ⟨.func3, .eq, .num 1⟩, ⟨.opcode, .eq, .num 87⟩]⟩,
   ⟨.vfwcvt_xu_f_v, .VArith, [⟨.func6, .eq, .num 18⟩, ⟨.vs1, .eq, .num 8⟩, ⟨.func3, .eq, .num 1⟩, ⟨.opcode, .eq, .num 87⟩]⟩,
   ⟨.vfwcvt_x_f_v, .VArith, [⟨.func6, .eq, .num 18⟩, ⟨.vs1, .eq, .num 9⟩, ⟨.func3, .eq, .num 1⟩, ⟨.opcode, .eq, .num 87⟩]⟩,
   ⟨.vfwcvt_f_xu_v, .VArith, [⟨.func6, .eq, .num 18⟩, ⟨.vs1, .eq, .num 10⟩, ⟨.func3, .eq, .num 1⟩, ⟨.opcode, .eq, .num 87⟩]⟩,
   ⟨.vfwcvt_f_x_v, .VArith, [⟨.func6, .eq, .num 18⟩, ⟨.vs1, .eq, .num 11⟩, ⟨.func3, .eq, .num 1⟩, ⟨.opcode, .eq, .num 87⟩]⟩,
   ⟨.vfwcvt_f_f_v, .VArith, [⟨.func6, .eq, .num 18⟩, ⟨.vs1, .eq, .num 12⟩, ⟨.func3, .eq, .num 1⟩, ⟨.opcode, .eq, .num 87⟩]⟩,
   ⟨.vfwcvt_rtz_xu_f_v, .VArith, [⟨.func6, .eq, .num 18⟩, ⟨.vs1, .eq, .num 14⟩, ⟨.func3, .eq, .num 1⟩, ⟨.opcode, .eq, .num 87⟩]⟩,
   ⟨.vfwcvt_rtz_x_f_v, .VArith, [⟨.func6, .eq, .num 18⟩, ⟨.vs1, .eq, .num 15⟩, ⟨.func3, .eq, .num 1⟩, ⟨.opcode, .eq, .num 87⟩]⟩,
   ⟨.vfncvt_xu_f_w, .VArith, [⟨.func6, .eq, .num 18⟩, ⟨.vs1, .eq, .num 16⟩, ⟨.func3, .eq, .num 1⟩, ⟨.opcode, .eq, .num 87⟩]⟩,
   ⟨.vfncvt_x_f_w, .VArith, [⟨.func6, .eq, .num 18⟩, ⟨.vs1, .eq, .num 17⟩, ⟨.func3, .eq, .num 1⟩, ⟨.opcode, .eq, .num 87⟩]⟩,
   ⟨.vfncvt_f_xu_w, .VArith, [⟨.func6, .eq, .num 18⟩, ⟨.vs1, .eq, .num 18⟩, ⟨.func3, .eq, .num 1⟩, ⟨.opcode, .eq, .num 87⟩]⟩,
   ⟨.vfncvt_f_x_w, .VArith, [⟨.func6, .eq, .num 18⟩, ⟨.vs1, .eq, .num 19⟩, ⟨.func3, .eq, .num 1⟩, ⟨.opcode, .eq, .num 87⟩]⟩,
   ⟨.vfncvt_f_f_w, .VArith, [⟨.func6, .eq, .num 18⟩, ⟨.vs1, .eq, .num 20⟩, ⟨.func3, .eq, .num 1⟩, ⟨.opcode, .eq, .num 87⟩]⟩,
   ⟨.vfncvt_rod_f_f_w, .VArith, [⟨.func6, .eq, .num 18⟩, ⟨.vs1, .eq, .num 21⟩, ⟨.func3, .eq, .num 1⟩, ⟨.opcode, .eq, .num 87⟩]⟩,
   ⟨.vfncvt_rtz_xu_f_w, .VArith, [⟨.func6, .eq, .num 18⟩, ⟨.vs1, .eq, .num 22⟩, ⟨.func3, .eq, .num 1⟩, ⟨.opcode, .eq, .num 87⟩]⟩,
   ⟨.vfncvt_rtz_x_f_w, .VArith, [⟨.func6, .eq, .num 18⟩, ⟨.vs1, .eq, .num 23⟩, ⟨.func3, .eq, .num 1⟩, ⟨.opcode, .eq, .num 87⟩]⟩,
   ⟨.vfsqrt_v, .VArith, [⟨.func6, .eq, .num 19⟩, ⟨.vs1, .eq, .num 0⟩, ⟨.func3, .eq, .num 1⟩, ⟨.opcode, .eq, .num 87⟩]⟩,
   ⟨.vfrsqrt7_v, .VArith, [⟨.func6, .eq, .num 19⟩, ⟨.vs1, .eq, .num 4⟩, ⟨.func3, .eq, .num 1⟩, ⟨.opcode, .eq, .num 87⟩]⟩,
   ⟨.vfrec7_v, .VArith, [⟨.func6, .eq, .num 19⟩, ⟨.vs1, .eq, .num 5⟩, ⟨.func3, .eq, .num 1⟩, ⟨.opcode, .eq, .num 87⟩]⟩,
   ⟨.vfclass_v, .VArith, [⟨.func6, .eq, .num 19⟩, ⟨.vs1, .eq, .num 16⟩, ⟨.func3, .eq, .num 1⟩, ⟨.opcode, .eq, .num 87⟩]⟩]

/-- `instruction group RiscVZve32xInst32` (riscv_vector.bin_fmt:515-861). -/
def g_riscv_vector_RiscVZve32xInst32 : List Inst :=
  [⟨.vsetvli_xn, .VConfig, [⟨.rs1, .ne, .num 0⟩, ⟨.func1, .eq, .num 0⟩, ⟨.func3, .eq, .num 7⟩, ⟨.opcode, .eq, .num 87⟩]⟩,
   ⟨.vsetvli_nz, .VConfig, [⟨.rd, .ne, .num 0⟩, ⟨.rs1, .eq, .num 0⟩, ⟨.func1, .eq, .num 0⟩, ⟨.func3, .eq, .num 7⟩, ⟨.opcode, .eq, .num 87⟩]⟩,
   ⟨.vsetvli_zz, .VConfig, [⟨.rd, .eq, .num 0⟩, ⟨.rs1, .eq, .num 0⟩, ⟨.func1, .eq, .num 0⟩, ⟨.func3, .eq, .num 7⟩, ⟨.opcode, .eq, .num 87⟩]⟩,
   ⟨.vsetivli, .VConfig, [⟨.func2, .eq, .num 3⟩, ⟨.func3, .eq, .num 7⟩, ⟨.opcode, .eq, .num 87⟩]⟩,
   ⟨.vsetvl_xn, .VConfig, [⟨.rs1, .ne, .num 0⟩, ⟨.func7, .eq, .num 64⟩, ⟨.func3, .eq, .num 7⟩, ⟨.opcode, .eq, .num 87⟩]⟩,
   ⟨.vsetvl_nz, .VConfig, [⟨.rd, .ne, .num 0⟩, ⟨.rs1, .eq, .num 0⟩, ⟨.func7, .eq, .num 64⟩, ⟨.func3, .eq, .num 7⟩, ⟨.opcode, .eq, .num 87⟩]⟩,
   ⟨.vsetvl_zz, .VConfig, [⟨.rd, .eq, .num 0⟩, ⟨.rs1, .eq, .num 0⟩, ⟨.func7, .eq, .num 64⟩, ⟨.func3, .eq, .num 7⟩, ⟨.opcode, .eq, .num 87⟩]⟩,
   ⟨.vle8, .VMem, [⟨.vm, .eq, .num 0⟩, ⟨.nf, .eq, .num 0⟩, ⟨.mew, .eq, .num 0⟩, ⟨.mop, .eq, .num 0⟩, ⟨.lumop, .eq, .num 0⟩, ⟨.width, .eq, .num 0⟩, ⟨.opcode, .eq, .num 7⟩]⟩,
   ⟨.vle16, .VMem, [⟨.vm, .eq, .num 0⟩, ⟨.nf, .eq, .num 0⟩, ⟨.mew, .eq, .num 0⟩, ⟨.mop, .eq, .num 0⟩, ⟨.lumop, .eq, .num 0⟩, ⟨.width, .eq, .num 5⟩, ⟨.opcode, .eq, .num 7⟩]⟩,
   ⟨.vle32, .VMem, [⟨.vm, .eq, .num 0⟩, ⟨.nf, .eq, .num 0⟩, ⟨.mew, .eq, .num 0⟩, ⟨.mop, .eq, .num 0⟩, ⟨.lumop, .eq, .num 0⟩, ⟨.width, .eq, .num 6⟩, ⟨.opcode, .eq, .num 7⟩]⟩,
   ⟨.vle8_vm1, .VMem, [⟨.vm, .eq, .num 1⟩, ⟨.nf, .eq, .num 0⟩, ⟨.mew, .eq, .num 0⟩, ⟨.mop, .eq, .num 0⟩, ⟨.lumop, .eq, .num 0⟩, ⟨.width, .eq, .num 0⟩, ⟨.opcode, .eq, .num 7⟩]⟩,
   ⟨.vle16_vm1, .VMem, [⟨.vm, .eq, .num 1⟩, ⟨.nf, .eq, .num 0⟩, ⟨.mew, .eq, .num 0⟩, ⟨.mop, .eq, .num 0⟩, ⟨.lumop, .eq, .num 0⟩, ⟨.width, .eq, .num 5⟩, ⟨.opcode, .eq, .num 7⟩]⟩,
   ⟨.vle32_vm1, .VMem, [⟨.vm, .eq, .num 1⟩, ⟨.nf, .eq, .num 0⟩, ⟨.mew, .eq, .num 0⟩, ⟨.mop, .eq, .num 0⟩, ⟨.lumop, .eq, .num 0⟩, ⟨.width, .eq, .num 6⟩, ⟨.opcode, .eq, .num 7⟩]⟩,
   ⟨.vlm, .VMem, [⟨.nf, .eq, .num 0⟩, ⟨.mew, .eq, .num 0⟩, ⟨.mop, .eq, .num 0⟩, ⟨.lumop, .eq, .num 11⟩, ⟨.width, .eq, .num 0⟩, ⟨.opcode, .eq, .num 7⟩]⟩,
   ⟨.vle8ff, .VMem, [⟨.nf, .eq, .num 0⟩, ⟨.mew, .eq, .num 0⟩, ⟨.mop, .eq, .num 0⟩, ⟨.lumop, .eq, .num 16⟩, ⟨.width, .eq, .num 0⟩, ⟨.opcode, .eq, .num 7⟩]⟩,
   ⟨.vle16ff, .VMem, [⟨.nf, .eq, .num 0⟩, ⟨.mew, .eq, .num 0⟩, ⟨.mop, .eq, .num 0⟩, ⟨.lumop, .eq, .num 16⟩, ⟨.width, .eq, .num 5⟩, ⟨.opcode, .eq, .num 7⟩]⟩,
   ⟨.vle32ff, .VMem, [⟨.nf, .eq, .num 0⟩, ⟨.mew, .eq, .num 0⟩, ⟨.mop, .eq, .num 0⟩, ⟨.lumop, .eq, .num 16⟩, ⟨.width, .eq, .num 6⟩, ⟨.opcode, .eq, .num 7⟩]⟩,
   ⟨.vl1re8, .VMem, [⟨.nf, .eq, .num 0⟩, ⟨.mop, .eq, .num 0⟩, ⟨.vm, .eq, .num 1⟩, ⟨.lumop, .eq, .num 8⟩, ⟨.width, .eq, .num 0⟩, ⟨.opcode, .eq, .num 7⟩]⟩,
   ⟨.vl1re16, .VMem, [⟨.nf, .eq, .num 0⟩, ⟨.mop, .eq, .num 0⟩, ⟨.vm, .eq, .num 1⟩, ⟨.lumop, .eq, .num 8⟩, ⟨.width, .eq, .num 5⟩, ⟨.opcode, .eq, .num 7⟩]⟩,
   ⟨.vl1re32, .VMem, [⟨.nf, .eq, .num 0⟩, ⟨.mop, .eq, .num 0⟩, ⟨.vm, .eq, .num 1⟩, ⟨.lumop, .eq, .num 8⟩, ⟨.width, .eq, .num 6⟩, ⟨.opcode, .eq, .num 7⟩]⟩,
   ⟨.vl2re8, .VMem, [⟨.nf, .eq, .num 1⟩, ⟨.mop, .eq, .num 0⟩, ⟨.vm, .eq, .num 1⟩, ⟨.lumop, .eq, .num 8⟩, ⟨.width, .eq, .num 0⟩, ⟨.opcode, .eq, .num 7⟩]⟩,
   ⟨.vl2re16, .VMem, [⟨.nf, .eq, .num 1⟩, ⟨.mop, .eq, .num 0⟩, ⟨.vm, .eq, .num 1⟩, ⟨.lumop, .eq, .num 8⟩, ⟨.width, .eq, .num 5⟩, ⟨.opcode, .eq, .num 7⟩]⟩,
   ⟨.vl2re32, .VMem, [⟨.nf, .eq, .num 1⟩, ⟨.mop, .eq, .num 0⟩, ⟨.vm, .eq, .num 1⟩, ⟨.lumop, .eq, .num 8⟩, ⟨.width, .eq, .num 6⟩, ⟨.opcode, .eq, .num 7⟩]⟩,
   ⟨.vl4re8, .VMem, [⟨.nf, .eq, .num 3⟩, ⟨.mop, .eq, .num 0⟩, ⟨.vm, .eq, .num 1⟩, ⟨.lumop, .eq, .num 8⟩, ⟨.width, .eq, .num 0⟩, ⟨.opcode, .eq, .num 7⟩]⟩,
   ⟨.vl4re16, .VMem, [⟨.nf, .eq, .num 3⟩, ⟨.mop, .eq, .num 0⟩, ⟨.vm, .eq, .num 1⟩, ⟨.lumop, .eq, .num 8⟩, ⟨.width, .eq, .num 5⟩, ⟨.opcode, .eq, .num 7⟩]⟩,
   ⟨.vl4re32, .VMem, [⟨.nf, .eq, .num 3⟩, ⟨.mop, .eq, .num 0⟩, ⟨.vm, .eq, .num 1⟩, ⟨.lumop, .eq, .num 8⟩, ⟨.width, .eq, .num 6⟩, ⟨.opcode, .eq, .num 7⟩]⟩,
   ⟨.vl8re8, .VMem, [⟨.nf, .eq, .num 7⟩, ⟨.mop, .eq, .num 0⟩, ⟨.vm, .eq, .num 1⟩, ⟨.lumop, .eq, .num 8⟩, ⟨.width, .eq, .num 0⟩, ⟨.opcode, .eq, .num 7⟩]⟩,
   ⟨.vl8re16, .VMem, [⟨.nf, .eq, .num 7⟩, ⟨.mop, .eq, .num 0⟩, ⟨.vm, .eq, .num 1⟩, ⟨.lumop, .eq, .num 8⟩, ⟨.width, .eq, .num 5⟩, ⟨.opcode, .eq, .num 7⟩]⟩,
   ⟨.vl8re32, .VMem, [⟨.nf, .eq, .num 7⟩, ⟨.mop, .eq, .num 0⟩, ⟨.vm, .eq, .num 1⟩, ⟨.lumop, .eq, .num 8⟩, ⟨.width, .eq, .num 6⟩, ⟨.opcode, .eq, .num 7⟩]⟩,
   ⟨.vlse8, .VMem, [⟨.nf, .eq, .num 0⟩, ⟨.mew, .eq, .num 0⟩, ⟨.mop, .eq, .num 2⟩, ⟨.width, .eq, .num 0⟩, ⟨.opcode, .eq, .num 7⟩]⟩,
   ⟨.vlse16, .VMem, [⟨.nf, .eq, .num 0⟩, ⟨.mew, .eq, .num 0⟩, ⟨.mop, .eq, .num 2⟩, ⟨.width, .eq, .num 5⟩, ⟨.opcode, .eq, .num 7⟩]⟩,
   ⟨.vlse32, .VMem, [⟨.nf, .eq, .num 0⟩, ⟨.mew, .eq, .num 0⟩, ⟨.mop, .eq, .num 2⟩, ⟨.width, .eq, .num 6⟩, ⟨.opcode, .eq, .num 7⟩]⟩,
   ⟨.vluxei8, .VMem, [⟨.nf, .eq, .num 0⟩, ⟨.mew, .eq, .num 0⟩, ⟨.mop, .eq, .num 1⟩, ⟨.width, .eq, .num 0⟩, ⟨.opcode, .eq, .num 7⟩]⟩,
   ⟨.vluxei16, .VMem, [⟨.nf, .eq, .num 0⟩, ⟨.mew, .eq, .num 0⟩, ⟨.mop, .eq, .num 1⟩, ⟨.width, .eq, .num 5⟩, ⟨.opcode, .eq, .num 7⟩]⟩,
   ⟨.vluxei32, .VMem, [⟨.nf, .eq, .num 0⟩, ⟨.mew, .eq, .num 0⟩, ⟨.mop, .eq, .num 1⟩, ⟨.width, .eq, .num 6⟩, ⟨.opcode, .eq, .num 7⟩]⟩,
   ⟨.vloxei8, .VMem, [⟨.nf, .eq, .num 0⟩, ⟨.mew, .eq, .num 0⟩, ⟨.mop, .eq, .num 3⟩, ⟨.width, .eq, .num 0⟩, ⟨.opcode, .eq, .num 7⟩]⟩,
   ⟨.vloxei16, .VMem, [⟨.nf, .eq, .num 0⟩, ⟨.mew, .eq, .num 0⟩, ⟨.mop, .eq, .num 3⟩, ⟨.width, .eq, .num 5⟩, ⟨.opcode, .eq, .num 7⟩]⟩,
   ⟨.vloxei32, .VMem, [⟨.nf, .eq, .num 0⟩, ⟨.mew, .eq, .num 0⟩, ⟨.mop, .eq, .num 3⟩, ⟨.width, .eq, .num 6⟩, ⟨.opcode, .eq, .num 7⟩]⟩,
   ⟨.vlsege8, .VMem, [⟨.nf, .ne, .num 0⟩, ⟨.mew, .eq, .num 0⟩, ⟨.mop, .eq, .num 0⟩, ⟨.lumop, .eq, .num 0⟩, ⟨.width, .eq, .num 0⟩, ⟨.opcode, .eq, .num 7⟩]⟩,
   ⟨.vlsege16, .VMem, [⟨.nf, .ne, .num 0⟩, ⟨.mew, .eq, .num 0⟩, ⟨.mop, .eq, .num 0⟩, ⟨.lumop, .eq, .num 0⟩, ⟨.width, .eq, .num 5⟩, ⟨.opcode, .eq, .num 7⟩]⟩,
   ⟨.vlsege32, .VMem, [⟨.nf, .ne, .num 0⟩, ⟨.mew, .eq, .num 0⟩, ⟨.mop, .eq, .num 0⟩, ⟨.lumop, .eq, .num 0⟩, ⟨.width, .eq, .num 6⟩, ⟨.opcode, .eq, .num 7⟩]⟩,
   ⟨.vlssege8, .VMem, [⟨.nf, .ne, .num 0⟩, ⟨.mew, .eq, .num 0⟩, ⟨.mop, .eq, .num 2⟩, ⟨.width, .eq, .num 0⟩, ⟨.opcode, .eq, .num 7⟩]⟩,
   ⟨.vlssege16, .VMem, [⟨.nf, .ne, .num 0⟩, ⟨.mew, .eq, .num 0⟩, ⟨.mop, .eq, .num 2⟩, ⟨.width, .eq, .num 5⟩, ⟨.opcode, .eq, .num 7⟩]⟩,
   ⟨.vlssege32, .VMem, [⟨.nf, .ne, .num 0⟩, ⟨.mew, .eq, .num 0⟩, ⟨.mop, .eq, .num 2⟩, ⟨.width, .eq, .num 6⟩, ⟨.opcode, .eq, .num 7⟩]⟩,
   ⟨.vluxsegei8, .VMem, [⟨.nf, .ne, .num 0⟩, ⟨.mew, .eq, .num 0⟩, ⟨.mop, .eq, .num 1⟩, ⟨.width, .eq, .num 0⟩, ⟨.opcode, .eq, .num 7⟩]⟩,
   ⟨.vluxsegei16, .VMem, [⟨.nf, .ne, .num 0⟩, ⟨.mew, .eq, .num 0⟩, ⟨.mop, .eq, .num 1⟩, ⟨.width, .eq, .num 5⟩, ⟨.opcode, .eq, .num 7⟩]⟩,
   ⟨.vluxsegei32, .VMem, [⟨.nf, .ne, .num 0⟩, ⟨.mew, .eq, .num 0⟩, ⟨.mop, .eq, .num 1⟩, ⟨.width, .eq, .num 6⟩, ⟨.opcode, .eq, .num 7⟩]⟩,
   ⟨.vloxsegei8, .VMem, [⟨.nf, .ne, .num 0⟩, ⟨.mew, .eq, .num 0⟩, ⟨.mop, .eq, .num 3⟩, ⟨.width, .eq, .num 0⟩, ⟨.opcode, .eq, .num 7⟩]⟩,
   ⟨.vloxsegei16, .VMem, [⟨.nf, .ne, .num 0⟩, ⟨.mew, .eq, .num 0⟩, ⟨.mop, .eq, .num 3⟩, ⟨.width, .eq, .num 5⟩, ⟨.opcode, .eq, .num 7⟩]⟩,
   ⟨.vloxsegei32, .VMem, [⟨.nf, .ne, .num 0⟩, ⟨.mew, .eq, .num 0⟩, ⟨.mop, .eq, .num 3⟩, ⟨.width, .eq, .num 6⟩, ⟨.opcode, .eq, .num 7⟩]⟩,
   ⟨.vse8, .VMem, [⟨.nf, .eq, .num 0⟩, ⟨.mew, .eq, .num 0⟩, ⟨.mop, .eq, .num 0⟩, ⟨.sumop, .eq, .num 0⟩, ⟨.width, .eq, .num 0⟩, ⟨.opcode, .eq, .num 39⟩]⟩,
   ⟨.vse16, .VMem, [⟨.nf, .eq, .num 0⟩, ⟨.mew, .eq, .num 0⟩, ⟨.mop, .eq, .num 0⟩, ⟨.sumop, .eq, .num 0⟩, ⟨.width, .eq, .num 5⟩, ⟨.opcode, .eq, .num 39⟩]⟩,
   ⟨.vse32, .VMem, [⟨.nf, .eq, .num 0⟩, ⟨.mew, .eq, .num 0⟩, ⟨.mop, .eq, .num 0⟩, ⟨.sumop, .eq, .num 0⟩, ⟨.width, .eq, .num 6⟩, ⟨.opcode, .eq, .num 39⟩]⟩,
   ⟨.vsm, .VMem, [⟨.nf, .eq, .num 0⟩, ⟨.mew, .eq, .num 0⟩, ⟨.mop, .eq, .num 0⟩, ⟨.sumop, .eq, .num 11⟩, ⟨.width, .eq, .num 0⟩, ⟨.opcode, .eq, .num 39⟩]⟩,
   ⟨.vse8ff, .VMem, [⟨.nf, .eq, .num 0⟩, ⟨.mew, .eq, .num 0⟩, ⟨.mop, .eq, .num 0⟩, ⟨.sumop, .eq, .num 16⟩, ⟨.width, .eq, .num 0⟩, ⟨.opcode, .eq, .num 39⟩]⟩,
   ⟨.vse16ff, .VMem, [⟨.nf, .eq, .num 0⟩, ⟨.mew, .eq, .num 0⟩, ⟨.mop, .eq, .num 0⟩, ⟨.sumop, .eq, .num 16⟩, ⟨.width, .eq, .num 5⟩, ⟨.opcode, .eq, .num 39⟩]⟩,
   ⟨.vse32ff, .VMem, [⟨.nf, .eq, .num 0⟩, ⟨.mew, .eq, .num 0⟩, ⟨.mop, .eq, .num 0⟩, ⟨.sumop, .eq, .num 16⟩, ⟨.width, .eq, .num 6⟩, ⟨.opcode, .eq, .num 39⟩]⟩,
   ⟨.vs1re8, .VMem, [⟨.nf, .eq, .num 0⟩, ⟨.mop, .eq, .num 0⟩, ⟨.vm, .eq, .num 1⟩, ⟨.sumop, .eq, .num 8⟩, ⟨.width, .eq, .num 0⟩, ⟨.opcode, .eq, .num 39⟩]⟩,
   ⟨.vs1re16, .VMem, [⟨.nf, .eq, .num 0⟩, ⟨.mop, .eq, .num 0⟩, ⟨.vm, .eq, .num 1⟩, ⟨.sumop, .eq, .num 8⟩, ⟨.width, .eq, .num 5⟩, ⟨.opcode, .eq, .num 39⟩]⟩,
   ⟨.vs1re32, .VMem, [⟨.nf, .eq, .num 0⟩, ⟨.mop, .eq, .num 0⟩, ⟨.vm, .eq, .num 1⟩, ⟨.sumop, .eq, .num 8⟩, ⟨.width, .eq, .num 6⟩, ⟨.opcode, .eq, .num 39⟩]⟩,
   ⟨.vs2re8, .VMem, [⟨.nf, .eq, .num 1⟩, ⟨.mop, .eq, .num 0⟩, ⟨.vm, .eq, .num 1⟩, ⟨.sumop, .eq, .num 8⟩, ⟨.width, .eq, .num 0⟩, ⟨.opcode, .eq, .num 39⟩]⟩,
   ⟨.vs2re16, .VMem, [⟨.nf, .eq, .num 1⟩, ⟨.mop, .eq, .num 0⟩, ⟨.vm, .eq, .num 1⟩, ⟨.sumop, .eq, .num 8⟩, ⟨.width, .eq, .num 5⟩, ⟨.opcode, .eq, .num 39⟩]⟩,
   ⟨.vs2re32, .VMem, [⟨.nf, .eq, .num 1⟩, ⟨.mop, .eq, .num 0⟩, ⟨.vm, .eq, .num 1⟩, ⟨.sumop, .eq, .num 8⟩, ⟨.width, .eq, .num 6⟩, ⟨.opcode, .eq, .num 39⟩]⟩,
   ⟨.vs4re8, .VMem, [⟨.nf, .eq, .num 3⟩, ⟨.mop, .eq, .num 0⟩, ⟨.vm, .eq, .num 1⟩, ⟨.sumop, .eq, .num 8⟩, ⟨.width, .eq, .num 0⟩, ⟨.opcode, .eq, .num 39⟩]⟩,
   ⟨.vs4re16, .VMem, [⟨.nf, .eq, .num 3⟩, ⟨.mop, .eq, .num 0⟩, ⟨.vm, .eq, .num 1⟩, ⟨.sumop, .eq, .num 8⟩, ⟨.width, .eq, .num 5⟩, ⟨.opcode, .eq, .num 39⟩]⟩,
   ⟨.vs4re32, .VMem, [⟨.nf, .eq, .num 3⟩, ⟨.mop, .eq, .num 0⟩, ⟨.vm, .eq, .num 1⟩, ⟨.sumop, .eq, .num 8⟩, ⟨.width, .eq, .num 6⟩, ⟨.opcode, .eq, .num 39⟩]⟩,
   ⟨.vs8re8, .VMem, [⟨.nf, .eq, .num 7⟩, ⟨.mop, .eq, .num 0⟩, ⟨.vm, .eq, .num 1⟩, ⟨.sumop, .eq, .num 8⟩, ⟨.width, .eq, .num 0⟩, ⟨.opcode, .eq, .num 39⟩]⟩,
   ⟨.vs8re16, .VMem, [⟨.nf, .eq, .num 7⟩, ⟨.mop, .eq, .num 0⟩, ⟨.vm, .eq, .num 1⟩, ⟨.sumop, .eq, .num 8⟩, ⟨.width, .eq, .num 5⟩, ⟨.opcode, .eq, .num 39⟩]⟩,
   ⟨.vs8re32, .VMem, [⟨.nf, .eq, .num 7⟩, ⟨.mop, .eq, .num 0⟩, ⟨.vm, .eq, .num 1⟩, ⟨.sumop, .eq, .num 8⟩, ⟨.width, .eq, .num 6⟩, ⟨.opcode, .eq, .num 39⟩]⟩,
   ⟨.vsse8, .VMem, [⟨.nf, .eq, .num 0⟩, ⟨.mew, .eq, .num 0⟩, ⟨.mop, .eq, .num 2⟩, ⟨.width, .eq, .num 0⟩, ⟨.opcode, .eq, .num 39⟩]⟩,
   ⟨.vsse16, .VMem, [⟨.nf, .eq, .num 0⟩, ⟨.mew, .eq, .num 0⟩, ⟨.mop, .eq, .num 2⟩, ⟨.width, .eq, .num 5⟩, ⟨.opcode, .eq, .num 39⟩]⟩,
   ⟨.vsse32, .VMem, [⟨.nf, .eq, .num 0⟩, ⟨.mew, .eq, .num 0⟩, ⟨.mop, .eq, .num 2⟩, ⟨.width, .eq, .num 6⟩, ⟨.opcode, .eq, .num 39⟩]⟩,
   ⟨.vsuxei8, .VMem, [⟨.nf, .eq, .num 0⟩, ⟨.mew, .eq, .num 0⟩, ⟨.mop, .eq, .num 1⟩, ⟨.width, .eq, .num 0⟩, ⟨.opcode, .eq, .num 39⟩]⟩,
   ⟨.vsuxei16, .VMem, [⟨.nf, .eq, .num 0⟩, ⟨.mew, .eq, .num 0⟩, ⟨.mop, .eq, .num 1⟩, ⟨.width, .eq, .num 5⟩, ⟨.opcode, .eq, .num 39⟩]⟩,
   ⟨.vsuxei32, .VMem, [⟨.nf, .eq, .num 0⟩, ⟨.mew, .eq, .num 0⟩, ⟨.mop, .eq, .num 1⟩, ⟨.width, .eq, .num 6⟩, ⟨.opcode, .eq, .num 39⟩]⟩,
   ⟨.vsoxei8, .VMem, [⟨.nf, .eq, .num 0⟩, ⟨.mew, .eq, .num 0⟩, ⟨.mop, .eq, .num 3⟩, ⟨.width, .eq, .num 0⟩, ⟨.opcode, .eq, .num 39⟩]⟩,
   ⟨.vsoxei16, .VMem, [⟨.nf, .eq, .num 0⟩, ⟨.mew, .eq, .num 0⟩, ⟨.mop, .eq, .num 3⟩, ⟨.width, .eq, .num 5⟩, ⟨.opcode, .eq, .num 39⟩]⟩,
   ⟨.vsoxei32, .VMem, [⟨.nf, .eq, .num 0⟩, ⟨.mew, .eq, .num 0⟩, ⟨.mop, .eq, .num 3⟩, ⟨.width, .eq, .num 6⟩, ⟨.opcode, .eq, .num 39⟩]⟩,
   ⟨.vssege8, .VMem, [⟨.nf, .ne, .num 0⟩, ⟨.mew, .eq, .num 0⟩, ⟨.mop, .eq, .num 0⟩, ⟨.sumop, .eq, .num 0⟩, ⟨.width, .eq, .num 0⟩, ⟨.opcode, .eq, .num 39⟩]⟩,
   ⟨.vssege16, .VMem, [⟨.nf, .ne, .num 0⟩, ⟨.mew, .eq, .num 0⟩, ⟨.mop, .eq, .num 0⟩, ⟨.sumop, .eq, .num 0⟩, ⟨.width, .eq, .num 5⟩, ⟨.opcode, .eq, .num 39⟩]⟩,
   ⟨.vssege32, .VMem, [⟨.nf, .ne, .num 0⟩, ⟨.mew, .eq, .num 0⟩, ⟨.mop, .eq, .num 0⟩, ⟨.sumop, .eq, .num 0⟩, ⟨.width, .eq, .num 6⟩, ⟨.opcode, .eq, .num 39⟩]⟩,
   ⟨.vsssege8, .VMem, [⟨.nf, .ne, .num 0⟩, ⟨.mew, .eq, .num 0⟩, ⟨.mop, .eq, .num 2⟩, ⟨.width, .eq, .num 0⟩, ⟨.opcode, .eq, .num 39⟩]⟩,
   ⟨.vsssege16, .VMem, [⟨.nf, .ne, .num 0⟩, ⟨.mew, .eq, .num 0⟩, ⟨.mop, .eq, .num 2⟩, ⟨.width, .eq, .num 5⟩, ⟨.opcode, .eq, .num 39⟩]⟩,
   ⟨.vsssege32, .VMem, [⟨.nf, .ne, .num 0⟩, ⟨.mew, .eq, .num 0⟩, ⟨.mop, .eq, .num 2⟩, ⟨.width, .eq, .num 6⟩, ⟨.opcode, .eq, .num 39⟩]⟩,
   ⟨.vsuxsegei8, .VMem, [⟨.nf, .ne, .num 0⟩, ⟨.mew, .eq, .num 0⟩, ⟨.mop, .eq, .num 1⟩, ⟨.width, .eq, .num 0⟩, ⟨.opcode, .eq, .num 39⟩]⟩,
   ⟨.vsuxsegei16, .VMem, [⟨.nf, .ne, .num 0⟩, ⟨.mew, .eq, .num 0⟩, ⟨.mop, .eq, .num 1⟩, ⟨.width, .eq, .num 5⟩, ⟨.opcode, .eq, .num 39⟩]⟩,
   ⟨.vsuxsegei32, .VMem, [⟨.nf, .ne, .num 0⟩, ⟨.mew, .eq, .num 0⟩, ⟨.mop, .eq, .num 1⟩, ⟨.width, .eq, .num 6⟩, ⟨.opcode, .eq, .num 39⟩]⟩,
   ⟨.vsoxsegei8, .VMem, [⟨.nf, .ne, .num 0⟩, ⟨.mew, .eq, .num 0⟩, ⟨.mop, .eq, .num 3⟩, ⟨.width, .eq, .num 0⟩, ⟨.opcode, .eq, .num 39⟩]⟩,
   ⟨.vsoxsegei16, .VMem, [⟨.nf, .ne, .num 0⟩, ⟨.mew, .eq, .num 0⟩, ⟨.mop, .eq, .num 3⟩, ⟨.width, .eq, .num 5⟩, ⟨.opcode, .eq, .num 39⟩]⟩,
   ⟨.vsoxsegei32, .VMem, [⟨.nf, .ne, .num 0⟩, ⟨.mew, .eq, .num 0⟩, ⟨.mop, .eq, .num 3⟩, ⟨.width, .eq, .num 6⟩, ⟨.opcode, .eq, .num 39⟩]⟩,
   ⟨.vadd_vv, .VArith, [⟨.func6, .eq, .num 0⟩, ⟨.func3, .eq, .num 0⟩, ⟨.opcode, .eq, .num 87⟩]⟩,
   ⟨.vadd_vx, .VArith, [⟨.func6, .eq, .num 0⟩, ⟨.func3, .eq, .num 4⟩, ⟨.opcode, .eq, .num 87⟩]⟩,
   ⟨.vadd_vi, .VArith, [⟨.func6, .eq, .num 0⟩, ⟨.func3, .eq, .num 3⟩, ⟨.opcode, .eq, .num 87⟩]⟩,
   ⟨.vsub_vv, .VArith, [⟨.func6, .eq, .num 2⟩, ⟨.func3, .eq, .num 0⟩, ⟨.opcode, .eq, .num 87⟩]⟩,
   ⟨.vsub_vx, .VArith, [⟨.func6, .eq, .num 2⟩, ⟨.func3, .eq, .num 4⟩, ⟨.opcode, .eq, .num 87⟩]⟩,
   ⟨.vrsub_vx, .VArith, [⟨.func6, .eq, .num 3⟩, ⟨.func3, .eq, .num 4⟩, ⟨.opcode, .eq, .num 87⟩]⟩,
   ⟨.vrsub_vi, .VArith, [⟨.func6, .eq, .num 3⟩, ⟨.func3, .eq, .num 3⟩, ⟨.opcode, .eq, .num 87⟩]⟩,
   ⟨.vminu_vv, .VArith, [⟨.func6, .eq, .num 4⟩, ⟨.func3, .eq, .num 0⟩, ⟨.opcode, .eq, .num 87⟩]⟩,
   ⟨.vminu_vx, .VArith, [⟨.func6, .eq, .num 4⟩, ⟨.func3, .eq, .num 4⟩, ⟨.opcode, .eq, .num 87⟩]⟩,
   ⟨.vmin_vv, .VArith, [⟨.func6, .eq, .num 5⟩, ⟨.func3, .eq, .num 0⟩, ⟨.opcode, .eq, .num 87⟩]⟩,
   ⟨.vmin_vx, .VArith, [⟨.func6, .eq, .num 5⟩, ⟨.func3, .eq, .num 4⟩, ⟨.opcode, .eq, .num 87⟩]⟩,
   ⟨.vmaxu_vv, .VArith, [⟨.func6, .eq, .num 6⟩, ⟨.func3, .eq, .num 0⟩, ⟨.opcode, .eq, .num 87⟩]⟩,
   ⟨.vmaxu_vx, .VArith, [⟨.func6, .eq, .num 6⟩, ⟨.func3, .eq, .num 4⟩, ⟨.opcode, .eq, .num 87⟩]⟩,
   ⟨.vmax_vv, .VArith, [⟨.func6, .eq, .num 7⟩, ⟨.func3, .eq, .num 0⟩, ⟨.opcode, .eq, .num 87⟩]⟩,
   ⟨.vmax_vx, .VArith, [⟨.func6, .eq, .num 7⟩, ⟨.func3, .eq, .num 4⟩, ⟨.opcode, .eq, .num 87⟩]⟩,
   ⟨.vand_vv, .VArith, [⟨.func6, .eq, .num 9⟩, ⟨.func3, .eq, .num 0⟩, ⟨.opcode, .eq, .num 87⟩]⟩,
   ⟨.vand_vx, .VArith, [⟨.func6, .eq, .num 9⟩, ⟨.func3, .eq, .num 4⟩, ⟨.opcode, .eq, .num 87⟩]⟩,
   ⟨.vand_vi, .VArith, [⟨.func6, .eq, .num 9⟩, ⟨.func3, .eq, .num 3⟩, ⟨.opcode, .eq, .num 87⟩]⟩,
   ⟨.vor_vv, .VArith, [⟨.func6, .eq, .num 10⟩, ⟨.func3, .eq, .num 0⟩, ⟨.opcode, .eq, .num 87⟩]⟩,
   ⟨.vor_vx, .VArith, [⟨.func6, .eq, .num 10⟩, ⟨.func3, .eq, .num 4⟩, ⟨.opcode, .eq, .num 87⟩]⟩,
   ⟨.vor_vi, .VArith, [⟨.func6, .eq, .num 10⟩, ⟨.func3, .eq, .num 3⟩, ⟨.opcode, .eq, .num 87⟩]⟩,
   ⟨.vxor_vv, .VArith, [⟨.func6, .eq, .num 11⟩, ⟨.func3, .eq, .num 0⟩, ⟨.opcode, .eq, .num 87⟩]⟩,
   ⟨.vxor_vx, .VArith, [⟨.func6, .eq, .num 11⟩, ⟨.func3, .eq, .num 4⟩, ⟨.opcode, .eq, .num 87⟩]⟩,
   ⟨.vxor_vi, .VArith, [⟨.func6, .eq, .num 11⟩, ⟨.func3, .eq, .num 3⟩, ⟨.opcode, .eq, .num 87⟩]⟩,
   ⟨.vrgather_vv, .VArith, [⟨.func6, .eq, .num 12⟩, ⟨.func3, .eq, .num 0⟩, ⟨.opcode, .eq, .num 87⟩]⟩,
   ⟨.vrgather_vx, .VArith, [⟨.func6, .eq, .num 12⟩, ⟨.func3, .eq, .num 4⟩, ⟨.opcode, .eq, .num 87⟩]⟩,
   ⟨.vrgather_vi, .VArith, [⟨.func6, .eq, .num 12⟩, ⟨.func3, .eq, .num 3⟩, ⟨.opcode, .eq, .num 87⟩]⟩,
   ⟨.vslideup_vx, .VArith, [⟨.func6, .eq, .num 14⟩, ⟨.func3, .eq, .num 4⟩, ⟨.opcode, .eq, .num 87⟩]⟩,
   ⟨.vslideup_vi, .VArith, [⟨.func6, .eq, .num 14⟩, ⟨.func3, .eq, .num 3⟩, ⟨.opcode, .eq, .num 87⟩]⟩,
   ⟨.vrgatherei16_vv, .VArith, [⟨.func6, .eq, .num 14⟩, ⟨.func3, .eq, .num 0⟩, ⟨.opcode, .eq, .num 87⟩]⟩,
   ⟨.vslidedown_vx, .VArith, [⟨.func6, .eq, .num 15⟩, ⟨.func3, .eq, .num 4⟩, ⟨.opcode, .eq, .num 87⟩]⟩,
   ⟨.vslidedown_vi, .VArith, [⟨.func6, .eq, .num 15⟩, ⟨.func3, .eq, .num 3⟩, ⟨.opcode, .eq, .num 87⟩]⟩,
   ⟨.vadc_vv, .VArith, [⟨.func6, .eq, .num 16⟩, ⟨.vd, .ne, .num 0⟩, ⟨.vm, .eq, .num 0⟩, ⟨.func3, .eq, .num 0⟩, ⟨.opcode, .eq, .num 87⟩]⟩,
   ⟨.vadc_vx, .VArith, [⟨.func6, .eq, .num 16⟩, ⟨.vd, .ne, .num 0⟩, ⟨.vm, .eq, .num 0⟩, ⟨.func3, .eq, .num 4⟩, ⟨.opcode, .eq, .num 87⟩]⟩,
   ⟨.vadc_vi, .VArith, [⟨.func6, .eq, .num 16⟩, ⟨.vd, .ne, .num 0⟩, ⟨.vm, .eq, .num 0⟩, ⟨.func3, .eq, .num 3⟩, ⟨.opcode, .eq, .num 87⟩]⟩,
   ⟨.vmadc_vv, .VArith, [⟨.func6, .eq, .num 17⟩, ⟨.func3, .eq, .num 0⟩, ⟨.opcode, .eq, .num 87⟩]⟩,
   ⟨.vmadc_vx, .VArith, [⟨.func6, .eq, .num 17⟩, ⟨.func3, .eq, .num 4⟩, ⟨.opcode, .eq, .num 87⟩]⟩,
   ⟨.vmadc_vi, .VArith, [⟨.func6, .eq, .num 17⟩, ⟨.func3, .eq, .num 3⟩, ⟨.opcode, .eq, .num 87⟩]⟩,
   ⟨.vsbc_vv, .VArith, [⟨.func6, .eq, .num 18⟩, ⟨.vd, .ne, .num 0⟩, ⟨.vm, .eq, .num 0⟩, ⟨.func3, .eq, .num 0⟩, ⟨.opcode, .eq, .num 87⟩]⟩,
   ⟨.vsbc_vx, .VArith, [⟨.func6, .eq, .num 18⟩, ⟨.vd, .ne, .num 0⟩, ⟨.vm, .eq, .num 0⟩, ⟨.func3, .eq, .num 4⟩, ⟨.opcode, .eq, .num 87⟩]⟩,
   ⟨.vmsbc_vv, .VArith, [⟨.func6, .eq, .num 19⟩, ⟨.func3, .eq, .num 0⟩, ⟨.opcode, .eq, .num 87⟩]⟩,
   ⟨.vmsbc_vx, .VArith, [⟨.func6, .eq, .num 19⟩, ⟨.func3, .eq, .num 4⟩, ⟨.opcode, .eq, .num 87⟩]⟩,
   ⟨.vmerge_vv, .VArith, [⟨.func6, .eq, .num 23⟩, ⟨.vm, .eq, .num 0⟩, ⟨.func3, .eq, .num 0⟩, ⟨.opcode, .eq, .num 87⟩]⟩,
   ⟨.vmerge_vx, .VArith, [⟨.func6, .eq, .num 23⟩, ⟨.vm, .eq, .num 0⟩, ⟨.func3, .eq, .num 4⟩, ⟨.opcode, .eq, .num 87⟩]⟩,
   ⟨.vmerge_vi, .VArith, [⟨.func6, .eq, .num 23⟩, ⟨.vm, .eq, .num 0⟩, ⟨.func3, .eq, .num 3⟩, ⟨.opcode, .eq, .num 87⟩]⟩,
   ⟨.vmv_vv, .VArith, [⟨.func6, .eq, .num 23⟩, ⟨.vm, .eq, .num 1⟩, ⟨.vs2, .eq, .num 0⟩, ⟨.func3, .eq, .num 0⟩, ⟨.opcode, .eq, .num 87⟩]⟩,
   ⟨.vmv_vx, .VArith, [⟨.func6, .eq, .num 23⟩, ⟨.vm, .eq, .num 1⟩, ⟨.vs2, .eq, .num 0⟩, ⟨.func3, .eq, .num 4⟩, ⟨.opcode, .eq, .num 87⟩]⟩,
   ⟨.vmv_vi, .VArith, [⟨.func6, .eq, .num 23⟩, ⟨.vm, .eq, .num 1⟩, ⟨.vs2, .eq, .num 0⟩, ⟨.func3, .eq, .num 3⟩, ⟨.opcode, .eq, .num 87⟩]⟩,
   ⟨.vmseq_vv, .VArith, [⟨.func6, .eq, .num 24⟩, ⟨.func3, .eq, .num 0⟩, ⟨.opcode, .eq, .num 87⟩]⟩,
   ⟨.vmseq_vx, .VArith, [⟨.func6, .eq, .num 24⟩, ⟨.func3, .eq, .num 4⟩, ⟨.opcode, .eq, .num 87⟩]⟩,
   ⟨.vmseq_vi, .VArith, [⟨.func6, .eq, .num 24⟩, ⟨.func3, .eq, .num 3⟩, ⟨.opcode, .eq, .num 87⟩]⟩,
   ⟨.vmsne_vv, .VArith, [⟨.func6, .eq, .num 25⟩, ⟨.func3, .eq, .num 0⟩, ⟨.opcode, .eq, .num 87⟩]⟩,
   ⟨.vmsne_vx, .VArith, [⟨.func6, .eq, .num 25⟩, ⟨.func3, .eq, .num 4⟩, ⟨.opcode, .eq, .num 87⟩]⟩,
   ⟨.vmsne_vi, .VArith, [⟨.func6, .eq, .num 25⟩, ⟨.func3, .eq, .num 3⟩, ⟨.opcode, .eq, .num 87⟩]⟩,
   ⟨.vmsltu_vv, .VArith, [⟨.func6, .eq, .num 26⟩, ⟨.func3, .eq, .num 0⟩, ⟨.opcode, .eq, .num 87⟩]⟩,
   ⟨.vmsltu_vx, .VArith, [⟨.func6, .eq, .num 26⟩, ⟨.func3, .eq, .num 4⟩, ⟨.opcode, .eq, .num 87⟩]⟩,
   ⟨.vmslt_vv, .VArith, [⟨.func6, .eq, .num 27⟩, ⟨.func3, .eq, .num 0⟩, ⟨.opcode, .eq, .num 87⟩]⟩,
   ⟨.vmslt_vx, .VArith, [⟨.func6, .eq, .num 27⟩, ⟨.func3, .eq, .num 4⟩, ⟨.opcode, .eq, .num 87⟩]⟩,
   ⟨.vmsleu_vv, .VArith, [⟨.func6, .eq, .num 28⟩, ⟨.func3, .eq, .num 0⟩, ⟨.opcode, .eq, .num 87⟩]⟩,
   ⟨.vmsleu_vx, .VArith, [⟨.func6, .eq, .num 28⟩, ⟨.func3, .eq, .num 4⟩, ⟨.opcode, .eq, .num 87⟩]⟩,
   ⟨.vmsleu_vi, .VArith, [⟨.func6, .eq, .num 28⟩, ⟨.func3, .eq, .num 3⟩, ⟨.opcode, .eq, .num 87⟩]⟩,
   ⟨.vmsle_vv, .VArith, [⟨.func6, .eq, .num 29⟩, ⟨.func3, .eq, .num 0⟩, ⟨.opcode, .eq, .num 87⟩]⟩,
   ⟨.vmsle_vx, .VArith, [⟨.func6, .eq, .num 29⟩, ⟨.func3, .eq, .num 4⟩, ⟨.opcode, .eq, .num 87⟩]⟩,
   ⟨.vmsle_vi, .VArith, [⟨.func6, .eq, .num 29⟩, ⟨.func3, .eq, .num 3⟩, ⟨.opcode, .eq, .num 87⟩]⟩,
   ⟨.vmsgtu_vx, .VArith, [⟨.func6, .eq, .num 30⟩, ⟨.func3, .eq, .num 4⟩, ⟨.opcode, .eq, .num 87⟩]⟩,
   ⟨.vmsgtu_vi, .VArith, [⟨.func6, .eq, .num 30⟩, ⟨.func3, .eq, .num 3⟩, ⟨.opcode, .eq, .num 87⟩]⟩,
   ⟨.vmsgt_vx, .VArith, [⟨.func6, .eq, .num 31⟩, ⟨.func3, .eq, .num 4⟩, ⟨.opcode, .eq, .num 87⟩]⟩,
   ⟨.vmsgt_vi, .VArith, [⟨.func6, .eq, .num 31⟩, ⟨.func3, .eq, .num 3⟩, ⟨.opcode, .eq, .num 87⟩]⟩,
   ⟨.vsaddu_vv, .VArith, [⟨.func6, .eq, .num 32⟩, ⟨.func3, .eq, .num 0⟩, ⟨.opcode, .eq, .num 87⟩]⟩,
   ⟨.vsaddu_vx, .VArith, [⟨.func6, .eq, .num 32⟩, ⟨.func3, .eq, .num 4⟩, ⟨.opcode, .eq, .num 87⟩]⟩,
   ⟨.vsaddu_vi, .VArith, [⟨.func6, .eq, .num 32⟩, ⟨.func3, .eq, .num 3⟩, ⟨.opcode, .eq, .num 87⟩]⟩,
   ⟨.vsadd_vv, .VArith, [⟨.func6, .eq, .num 33⟩, ⟨.func3, .eq, .num 0⟩, ⟨.opcode, .eq, .num 87⟩]⟩,
   ⟨.vsadd_vx, .VArith, [⟨.func6, .eq, .num 33⟩, ⟨.func3, .eq, .num 4⟩, ⟨.opcode, .eq, .num 87⟩]⟩,
   ⟨.vsadd_vi, .VArith, [⟨.func6, .eq, .num 33⟩, ⟨.func3, .eq, .num 3⟩, ⟨.opcode, .eq, .num 87⟩]⟩,
   ⟨.vssubu_vv, .VArith, [⟨.func6, .eq, .num 34⟩, ⟨.func3, .eq, .num 0⟩, ⟨.opcode, .eq, .num 87⟩]⟩,
   ⟨.vssubu_vx, .VArith, [⟨.func6, .eq, .num 34⟩, ⟨.func3, .eq, .num 4⟩, ⟨.opcode, .eq, .num 87⟩]⟩,
   ⟨.vssub_vv, .VArith, [⟨.func6, .eq, .num 35⟩, ⟨.func3, .eq, .num 0⟩, ⟨.opcode, .eq, .num 87⟩]⟩,
   ⟨.vssub_vx, .VArith, [⟨.func6, .eq, .num 35⟩, ⟨.func3, .eq, .num 4⟩, ⟨.opcode, .eq, .num 87⟩]⟩,
   ⟨.vsll_vv, .VArith, [⟨.func6, .eq, .num 37⟩, ⟨.func3, .eq, .num 0⟩, ⟨.opcode, .eq, .num 87⟩]⟩,
   ⟨.vsll_vx, .VArith, [⟨.func6, .eq, .num 37⟩, ⟨.func3, .eq, .num 4⟩, ⟨.opcode, .eq, .num 87⟩]⟩,
   ⟨.vsll_vi, .VArith, [⟨.func6, .eq, .num 37⟩, ⟨.func3, .eq, .num 3⟩, ⟨.opcode, .eq, .num 87⟩]⟩,
   ⟨.vsmul_vv, .VArith, [⟨.func6, .eq, .num 39⟩, ⟨.func3, .eq, .num 0⟩, ⟨.opcode, .eq, .num 87⟩]⟩,
   ⟨.vsmul_vx, .VArith, [⟨.func6, .eq, .num 39⟩, ⟨.func3, .eq, .num 4⟩, ⟨.opcode, .eq, .num 87⟩]⟩,
   ⟨.vmv1r_vi, .VArith, [⟨.func6, .eq, .num 39⟩, ⟨.uimm5, .eq, .num 0⟩, ⟨.func3, .eq, .num 3⟩, ⟨.opcode, .eq, .num 87⟩]⟩,
   ⟨.vmv2r_vi, .VArith, [⟨.func6, .eq, .num 39⟩, ⟨.uimm5, .eq, .num 1⟩, ⟨.func3, .eq, .num 3⟩, ⟨.opcode, .eq, .num 87⟩]⟩,
   ⟨.vmv4r_vi, .VArith, [⟨.func6, .eq, .num 39⟩, ⟨.uimm5, .eq, .num 3⟩, ⟨.func3, .eq, .num 3⟩, ⟨.opcode, .eq, .num 87⟩]⟩,
   ⟨.vmv8r_vi, .VArith, [⟨.func6, .eq, .num 39⟩, ⟨.uimm5, .eq, .num 7⟩, ⟨.func3, .eq, .num 3⟩, ⟨.opcode, .eq, .num 87⟩]⟩,
   ⟨.vsrl_vv, .VArith, [⟨.func6, .eq, .num 40⟩, ⟨.func3, .eq, .num 0⟩, ⟨.opcode, .eq, .num 87⟩]⟩,
   ⟨.vsrl_vx, .VArith, [⟨.func6, .eq, .num 40⟩, ⟨.func3, .eq, .num 4⟩, ⟨.opcode, .eq, .num 87⟩]⟩,
   ⟨.vsrl_vi, .VArith, [⟨.func6, .eq, .num 40⟩, ⟨.func3, .eq, .num 3⟩, ⟨.opcode, .eq, .num 87⟩]⟩,
   ⟨.vsra_vv, .VArith, [⟨.func6, .eq, .num 41⟩, ⟨.func3, .eq, .num 0⟩, ⟨.opcode, .eq, .num 87⟩]⟩,
   ⟨.vsra_vx, .VArith, [⟨.func6, .eq, .num 41⟩, ⟨.func3, .eq, .num 4⟩, ⟨.opcode, .eq, .num 87⟩]⟩,
   ⟨.vsra_vi, .VArith, [⟨.func6, .eq, .num 41⟩, ⟨.func3, .eq, .num 3⟩, ⟨.opcode, .eq, .num 87⟩]⟩,
   ⟨.vssrl_vv, .VArith, [⟨.func6, .eq, .num 42⟩, ⟨.func3, .eq, .num 0⟩, ⟨.opcode, .eq, .num 87⟩]⟩,
   ⟨.vssrl_vx, .VArith, [⟨.func6, .eq, .num 42⟩, ⟨.func3, .eq, .num 4⟩, ⟨.opcode, .eq, .num 87⟩]⟩,
   ⟨.vssrl_vi, .VArith, [⟨.func6, .eq, .num 42⟩, ⟨.func3, .eq, .num 3⟩, ⟨.opcode, .eq, .num 87⟩]⟩,
   ⟨.vssra_vv, .VArith, [⟨.func6, .eq, .num 43⟩, ⟨.func3, .eq, .num 0⟩, ⟨.opcode, .eq, .num 87⟩]⟩,
   ⟨.vssra_vx, .VArith, [⟨.func6, .eq, .num 43⟩, ⟨.func3, .eq, .num 4⟩, ⟨.opcode, .eq, .num 87⟩]⟩,
   ⟨.vssra_vi, .VArith, [⟨.func6, .eq, .num 43⟩, ⟨.func3, .eq, .num 3⟩, ⟨.opcode, .eq, .num 87⟩]⟩,
   ⟨.vnsrl_vv, .VArith, [⟨.func6, .eq, .num 44⟩, ⟨.func3, .eq, .num 0⟩, ⟨.opcode, .eq, .num 87⟩]⟩,
   ⟨.vnsrl_vx, .VArith, [⟨.func6, .eq, .num 44⟩, ⟨.func3, .eq, .num 4⟩, ⟨.opcode, .eq, .num 87⟩]⟩,
   ⟨.vnsrl_vi, .VArith, [⟨.func6, .eq, .num 44⟩, ⟨.func3, .eq, .num 3⟩, ⟨.opcode, .eq, .num 87⟩]⟩,
   ⟨.vnsra_vv, .VArith, [⟨.func6, .eq, .num 45⟩, ⟨.func3, .eq, .num 0⟩, ⟨.opcode, .eq, .num 87⟩]⟩,
   ⟨.vnsra_vx, .VArith, [⟨.func6, .eq, .num 45⟩, ⟨.func3, .eq, .num 4⟩, ⟨.opcode, .eq, .num 87⟩]⟩,
   ⟨.vnsra_vi, .VArith, [⟨.func6, .eq, .num 45⟩, ⟨.func3, .eq, .num 3⟩, ⟨.opcode, .eq, .num 87⟩]⟩,
   ⟨.vnclipu_vv, .VArith, [⟨.func6, .eq, .num 46⟩, ⟨.func3, .eq, .num 0⟩, ⟨.opcode, .eq, .num 87⟩]⟩,
   ⟨.vnclipu_vx, .VArith, [⟨.func6, .eq, .num 46⟩, ⟨.func3, .eq, .num 4⟩, ⟨.opcode, .eq, .num 87⟩]⟩,
   ⟨.vnclipu_vi, .VArith, [⟨.func6, .eq, .num 46⟩, ⟨.func3, .eq, .num 3⟩, ⟨.opcode, .eq, .num 87⟩]⟩,
   ⟨.vnclip_vv, .VArith, [⟨.func6, .eq, .num 47⟩, ⟨.func3, .eq, .num 0⟩, ⟨.opcode, .eq, .num 87⟩]⟩,
   ⟨.vnclip_vx, .VArith, [⟨.func6, .eq, .num 47⟩, ⟨.func3, .eq, .num 4⟩, ⟨.opcode, .eq, .num 87⟩]⟩,
   ⟨.vnclip_vi, .VArith, [⟨.func6, .eq, .num 47⟩, ⟨.func3, .eq, .num 3⟩, ⟨.opcode, .eq, .num 87⟩]⟩,
   ⟨.vwredsumu_vv, .VArith, [⟨.func6, .eq, .num 48⟩, ⟨.func3, .eq, .num 0⟩, ⟨.opcode, .eq, .num 87⟩]⟩,
   ⟨.vwredsum_vv, .VArith, [⟨.func6, .eq, .num 49⟩, ⟨.func3, .eq, .num 0⟩, ⟨.opcode, .eq, .num 87⟩]⟩,
   ⟨.vredsum_vv, .VArith, [⟨.func6, .eq, .num 0⟩, ⟨.func3, .eq, .num 2⟩, ⟨.opcode, .eq, .num 87⟩]⟩,
   ⟨.vredand_vv, .VArith, [⟨.func6, .eq, .num 1⟩, ⟨.func3, .eq, .num 2⟩, ⟨.opcode, .eq, .num 87⟩]⟩,
   ⟨.vredor_vv, .VArith, [⟨.func6, .eq, .num 2⟩, ⟨.func3, .eq, .num 2⟩, ⟨.opcode, .eq, .num 87⟩]⟩,
   ⟨.vredxor_vv, .VArith, [⟨.func6, .eq, .num 3⟩, ⟨.func3, .eq, .num 2⟩, ⟨.opcode, .eq, .num 87⟩]⟩,
   ⟨.vredminu_vv, .VArith, [⟨.func6, .eq, .num 4⟩, ⟨.func3, .eq, .num 2⟩, ⟨.opcode, .eq, .num 87⟩]⟩,
   ⟨.vredmin_vv, .VArith, [⟨.func6, .eq, .num 5⟩, ⟨.func3, .eq, .num 2⟩, ⟨.opcode, .eq, .num 87⟩]⟩,
   ⟨.vredmaxu_vv, .VArith, [⟨.func6, .eq, .num 6⟩, ⟨.func3, .eq, .num 2⟩, ⟨.opcode, .eq, .num 87⟩]⟩,
   ⟨.vredmax_vv, .VArith, [⟨.func6, .eq, .num 7⟩, ⟨.func3, .eq, .num 2⟩, ⟨.opcode, .eq, .num 87⟩]⟩,
   ⟨.vaaddu_vv, .VArith, [⟨.func6, .eq, .num 8⟩, ⟨.func3, .eq, .num 2⟩, ⟨.opcode, .eq, .num 87⟩]⟩,
   ⟨.vaaddu_vx, .VArith, [⟨.func6, .eq, .num 8⟩, ⟨.func3, .eq, .num 6⟩, ⟨.opcode, .eq, .num 87⟩]⟩,
   ⟨.vaadd_vv, .VArith, [⟨.func6, .eq, .num 9⟩, ⟨.func3, .eq, .num 2⟩, ⟨.opcode, .eq, .num 87⟩]⟩,
   ⟨.vaadd_vx, .VArith, [⟨.func6, .eq, .num 9⟩, ⟨.func3, .eq, .num 6⟩, ⟨.opcode, .eq, .num 87⟩]⟩,
   ⟨.vasubu_vv, .VArith, [⟨.func6, .eq, .num 10⟩, ⟨.func3, .eq, .num 2⟩, ⟨.opcode, .eq, .num 87⟩]⟩,
   ⟨.vasubu_vx, .VArith, [⟨.func6, .eq, .num 10⟩, ⟨.func3, .eq, .num 6⟩, ⟨.opcode, .eq, .num 87⟩]⟩,
   ⟨.vasub_vv, .VArith, [⟨.func6, .eq, .num 11⟩, ⟨.func3, .eq, .num 2⟩, ⟨.opcode, .eq, .num 87⟩]⟩,
   ⟨.vasub_vx, .VArith, [⟨.func6, .eq, .num 11⟩, ⟨.func3, .eq, .num 6⟩, ⟨.opcode, .eq, .num 87⟩]⟩,
   ⟨.vslide1up_vx, .VArith, [⟨.func6, .eq, .num 14⟩, ⟨.func3, .eq, .num 6⟩, ⟨.opcode, .eq, .num 87⟩]⟩,
   ⟨.vslide1down_vx, .VArith, [⟨.func6, .eq, .num 15⟩, ⟨.func3, .eq, .num 6⟩, ⟨.opcode, .eq, .num 87⟩]⟩,
   ⟨.vcompress_vv, .VArith, [⟨.func6, .eq, .num 23⟩, ⟨.func3, .eq, .num 2⟩, ⟨.opcode, .eq, .num 87⟩]⟩,
   ⟨.vmandnot_vv, .VArith, [⟨.func6, .eq, .num 24⟩, ⟨.func3, .eq, .num 2⟩, ⟨.opcode, .eq, .num 87⟩]⟩,
   ⟨.vmand_vv, .VArith, [⟨.func6, .eq, .num 25⟩, ⟨.func3, .eq, .num 2⟩, ⟨.opcode, .eq, .num 87⟩]⟩,
   ⟨.vmor_vv, .VArith, [⟨.func6, .eq, .num 26⟩, ⟨.func3, .eq, .num 2⟩, ⟨.opcode, .eq, .num 87⟩]⟩,
   ⟨.vmxor_vv, .VArith, [⟨.func6, .eq, .num 27⟩, ⟨.func3, .eq, .num 2⟩, ⟨.opcode, .eq, .num 87⟩]⟩,
   ⟨.vmornot_vv, .VArith, [⟨.func6, .eq, .num 28⟩, ⟨.func3, .eq, .num 2⟩, ⟨.opcode, .eq, .num 87⟩]⟩,
   ⟨.vmnand_vv, .VArith, [⟨.func6, .eq, .num 29⟩, ⟨.func3, .eq, .num 2⟩, ⟨.opcode, .eq, .num 87⟩]⟩,
   ⟨.vmnor_vv, .VArith, [⟨.func6, .eq, .num 30⟩, ⟨.func3, .eq, .num 2⟩, ⟨.opcode, .eq, .num 87⟩]⟩,
   ⟨.vmxnor_vv, .VArith, [⟨.func6, .eq, .num 31⟩, ⟨.func3, .eq, .num 2⟩, ⟨.opcode, .eq, .num 87⟩]⟩,
   ⟨.vdivu_vv, .VArith, [⟨.func6, .eq, .num 32⟩, ⟨.func3, .eq, .num 2⟩, ⟨.opcode, .eq, .num 87⟩]⟩,
   ⟨.vdivu_vx, .VArith, [⟨.func6, .eq, .num 32⟩, ⟨.func3, .eq, .num 6⟩, ⟨.opcode, .eq, .num 87⟩]⟩,
   ⟨.vdiv_vv, .VArith, [⟨.func6, .eq, .num 33⟩, ⟨.func3, .eq, .num 2⟩, ⟨.opcode, .eq, .num 87⟩]⟩,
   ⟨.vdiv_vx, .VArith, [⟨.func6, .eq, .num 33⟩, ⟨.func3, .eq, .num 6⟩, ⟨.opcode, .eq, .num 87⟩]⟩,
   ⟨.vremu_vv, .VArith, [⟨.func6, .eq, .num 34⟩, ⟨.func3, .eq, .num 2⟩, ⟨.opcode, .eq, .num 87⟩]⟩,
   ⟨.vremu_vx, .VArith, [⟨.func6, .eq, .num 34⟩, ⟨.func3, .eq, .num 6⟩, ⟨.opcode, .eq, .num 87⟩]⟩,
   ⟨.vrem_vv, .VArith, [⟨.func6, .eq, .num 35⟩, ⟨.func3, .eq, .num 2⟩, ⟨.opcode, .eq, .num 87⟩]⟩,
   ⟨.vrem_vx, .VArith, [⟨.func6, .eq, .num 35⟩, ⟨.func3, .eq, .num 6⟩, ⟨.opcode, .eq, .num 87⟩]⟩,
   ⟨.vmulhu_vv, .VArith, [⟨.func6, .eq, .num 36⟩, ⟨.func3, .eq, .num 2⟩, ⟨.opcode, .eq, .num 87⟩]⟩,
   ⟨.vmulhu_vx, .VArith, [⟨.func6, .eq, .num 36⟩, ⟨.func3, .eq, .num 6⟩, ⟨.opcode, .eq, .num 87⟩]⟩,
   ⟨.vmul_vv, .VArith, [⟨.func6, .eq, .num 37⟩, ⟨.func3, .eq, .num 2⟩, ⟨.opcode, .eq, .num 87⟩]⟩,
   ⟨.vmul_vx, .VArith, [⟨.func6, .eq, .num 37⟩, ⟨.func3, .eq, .num 6⟩, ⟨.opcode, .eq, .num 87⟩]⟩,
   ⟨.vmulhsu_vv, .VArith, [⟨.func6, .eq, .num 38⟩, ⟨.func3, .eq, .num 2⟩, ⟨.opcode, .eq, .num 87⟩]⟩,
   ⟨.vmulhsu_vx, .VArith, [⟨.func6, .eq, .num 38⟩, ⟨.func3, .eq, .num 6⟩, ⟨.opcode, .eq, .num 87⟩]⟩,
   ⟨.vmulh_vv, .VArith, [⟨.func6, .eq, .num 39⟩, ⟨.func3, .eq, .num 2⟩, ⟨.opcode, .eq, .num 87⟩]⟩,
   ⟨.vmulh_vx, .VArith, [⟨.func6, .eq, .num 39⟩, ⟨.func3, .eq, .num 6⟩, ⟨.opcode, .eq, .num 87⟩]⟩,
   ⟨.vmadd_vv, .VArith, [⟨.func6, .eq, .num 41⟩, ⟨.func3, .eq, .num 2⟩, ⟨.opcode, .eq, .num 87⟩]⟩,
   ⟨.vmadd_vx, .VArith, [⟨.func6, .eq, .num 41⟩, ⟨.func3, .eq, .num 6⟩, ⟨.opcode, .eq, .num 87⟩]⟩,
   ⟨.vnmsub_vv, .VArith, [⟨.func6, .eq, .num 43⟩, ⟨.func3, .eq, .num 2⟩, ⟨.opcode, .eq, .num 87⟩]⟩,
   ⟨.vnmsub_vx, .VArith, [⟨.func6, .eq, .num 43⟩, ⟨.func3, .eq, .num 6⟩, ⟨.opcode, .eq, .num 87⟩]⟩,
   ⟨.vmacc_vv, .VArith, [⟨.func6, .eq, .num 45⟩, ⟨.func3, .eq, .num 2⟩, ⟨.opcode, .eq, .num 87⟩]⟩,
   ⟨.vmacc_vx, .VArith, [⟨.func6, .eq, .num 45⟩, ⟨.func3, .eq, .num 6⟩, ⟨.opcode, .eq, .num 87⟩]⟩,
   ⟨.vnmsac_vv, .VArith, [⟨.func6, .eq, .num 47⟩, ⟨.func3, .eq, .num 2⟩, ⟨.opcode, .eq, .num 87⟩]⟩,
   ⟨.vnmsac_vx, .VArith, [⟨.func6, .eq, .num 47⟩, ⟨.func3, .eq, .num 6⟩, ⟨.opcode, .eq, .num 87⟩]⟩,
   ⟨.vwaddu_vv, .VArith, [⟨.func6, .eq, .num 48⟩, ⟨.func3, .eq, .num 2⟩, ⟨.opcode, .eq, .num 87⟩]⟩,
   ⟨.vwaddu_vx, .VArith, [⟨.func6, .eq, .num 48⟩, ⟨.func3, .eq, .num 6⟩, ⟨.opcode, .eq, .num 87⟩]⟩,
   ⟨.vwadd_vv, .VArith, [⟨.func6, .eq, .num 49⟩, ⟨.func3, .eq, .num 2⟩, ⟨.opcode, .eq, .num 87⟩]⟩,
   ⟨.vwadd_vx, .VArith, [⟨.func6, .eq, .num 49⟩, ⟨.func3, .eq, .num 6⟩, ⟨.opcode, .eq, .num 87⟩]⟩,
   ⟨.vwsubu_vv, .VArith, [⟨.func6, .eq, .num 50⟩, ⟨.func3, .eq, .num 2⟩, ⟨.opcode, .eq, .num 87⟩]⟩,
   ⟨.vwsubu_vx, .VArith, [⟨.func6, .eq, .num 50⟩, ⟨.func3, .eq, .num 6⟩, ⟨.opcode, .eq, .num 87⟩]⟩,
   ⟨.vwsub_vv, .VArith, [⟨.func6, .eq, .num 51⟩, ⟨.func3, .eq, .num 2⟩, ⟨.opcode, .eq, .num 87⟩]⟩,
   ⟨.vwsub_vx, .VArith, [⟨.func6, .eq, .num 51⟩, ⟨.func3, .eq, .num 6⟩, ⟨.opcode, .eq, .num 87⟩]⟩,
   ⟨.vwaddu_w_vv, .VArith, [⟨.func6, .eq, .num 52⟩, ⟨.func3, .eq, .num 2⟩, ⟨.opcode, .eq, .num 87⟩]⟩,
   ⟨.vwaddu_w_vx, .VArith, [⟨.func6, .eq, .num 52⟩, ⟨.func3, .eq, .num 6⟩, ⟨.opcode, .eq, .num 87⟩]⟩,
   ⟨.vwadd_w_vv, .VArith, [⟨.func6, .eq, .num 53⟩, ⟨.func3, .eq, .num 2⟩, ⟨.opcode, .eq, .num 87⟩]⟩,
   ⟨.vwadd_w_vx, .VArith, [⟨.func6, .eq, .num 53⟩, ⟨.func3, .eq, .num 6⟩, ⟨.opcode, .eq, .num 87⟩]⟩,
   ⟨.vwsubu_w_vv, .VArith, [⟨.func6, .eq, .num 54⟩, ⟨.func3, .eq, .num 2⟩, ⟨.opcode, .eq, .num 87⟩]⟩,
   ⟨.vwsubu_w_vx, .VArith, [⟨.func6, .eq, .num 54⟩, ⟨.func3, .eq, .num 6⟩, ⟨.opcode, .eq, .num 87⟩]⟩,
   ⟨.vwsub_w_vv, .VArith, [⟨.func6, .eq, .num 55⟩, ⟨.func3, .eq, .num 2⟩, ⟨.opcode, .eq, .num 87⟩]⟩,
   ⟨.vwsub_w_vx, .VArith, [⟨.func6, .eq, .num 55⟩, ⟨.func3, .eq, .num 6⟩, ⟨.opcode, .eq, .num 87⟩]⟩,
   ⟨.vwmulu_vv, .VArith, [⟨.func6, .eq, .num 56⟩, ⟨.func3, .eq, .num 2⟩, ⟨.opcode, .eq, .num 87⟩]⟩,
   ⟨.vwmulu_vx, .VArith, [⟨.func6, .eq, .num 56⟩, ⟨.func3, .eq, .num 6⟩, ⟨.opcode, .eq, .num 87⟩]⟩,
   ⟨.vwmulsu_vv, .VArith, [⟨.func6, .eq, .num 58⟩, ⟨.func3, .eq, .num 2⟩, ⟨.opcode, .eq, .num 87⟩]⟩,
   ⟨.vwmulsu_vx, .VArith, [⟨.func6, .eq, .num 58⟩, ⟨.func3, .eq, .num 6⟩, ⟨.opcode, .eq, .num 87⟩]⟩,
   ⟨.vwmul_vv, .VArith, [⟨.func6, .eq, .num 59⟩, ⟨.func3, .eq, .num 2⟩, ⟨.opcode, .eq, .num 87⟩]⟩,
   ⟨.vwmul_vx, .VArith, [⟨.func6, .eq, .num 59⟩, ⟨.func3, .eq, .num 6⟩, ⟨.opcode, .eq, .num 87⟩]⟩,
   ⟨.vwmaccu_vv, .VArith, [⟨.func6, .eq, .num 60⟩, ⟨.func3, .eq, .num 2⟩, ⟨.opcode, .eq, .num 87⟩]⟩,
   ⟨.vwmaccu_vx, .VArith, [⟨.func6, .eq, .num 60⟩, ⟨.func3, .eq, .num 6⟩, ⟨.opcode, .eq, .num 87⟩]⟩,
   ⟨.vwmacc_vv, .VArith, [⟨.func6, .eq, .num 61⟩, ⟨.func3, .eq, .num 2⟩, ⟨.opcode, .eq, .num 87⟩]⟩,
   ⟨.vwmacc_vx, .VArith, [⟨.func6, .eq, .num 61⟩, ⟨.func3, .eq, .num 6⟩, ⟨.opcode, .eq, .num 87⟩]⟩,
   ⟨.vwmaccus_vv, .VArith, [⟨.func6, .eq, .num 62⟩, ⟨.func3, .eq, .num 2⟩, ⟨.opcode, .eq, .num 87⟩]⟩,
   ⟨.vwmaccus_vx, .VArith, [⟨.func6, .eq, .num 62⟩, ⟨.func3, .eq, .num 6⟩, ⟨.opcode, .eq, .num 87⟩]⟩,
   ⟨.vwmaccsu_vv, .VArith, [⟨.func6, .eq, .num 63⟩, ⟨.func3, .eq, .num 2⟩, ⟨.opcode, .eq, .num 87⟩]⟩,
   ⟨.vwmaccsu_vx, .VArith, [⟨.func6, .eq, .num 63⟩, ⟨.func3, .eq, .num 6⟩, ⟨.opcode, .eq, .num 87⟩]⟩,
   ⟨.vmv_x_s, .VArith, [⟨.func6, .eq, .num 16⟩, ⟨.vs1, .eq, .num 0⟩, ⟨.func3, .eq, .num 2⟩, ⟨.opcode, .eq, .num 87⟩]⟩,
   ⟨.vcpop, .VArith, [⟨.func6, .eq, .num 16⟩, ⟨.vs1, .eq, .num 16⟩, ⟨.func3, .eq, .num 2⟩, ⟨.opcode, .eq, .num 87⟩]⟩,
   ⟨.vfirst, .VArith, [⟨.func6, .eq, .num 16⟩, ⟨.vs1, .eq, .num 17⟩, ⟨.func3, .eq, .num 2⟩, ⟨.opcode, .eq, .num 87⟩]⟩,
   ⟨.vmv_s_x, .VArith, [⟨.func6, .eq, .num 16⟩, ⟨.vs2, .eq, .num 0⟩, ⟨.func3, .eq, .num 6⟩, ⟨.opcode, .eq, .num 87⟩]⟩,
   ⟨.vzext_vf8, .VArith, [⟨.func6, .eq, .num 18⟩, ⟨.vs1, .eq, .num 2⟩, ⟨.func3, .eq, .num 2⟩, ⟨.opcode, .eq, .num 87⟩]⟩,
   ⟨.vsext_vf8, .VArith, [⟨.func6, .eq, .num 18⟩, ⟨.vs1, .eq, .num 3⟩, ⟨.func3, .eq, .num 2⟩, ⟨.opcode, .eq, .num 87⟩]⟩,
   ⟨.vzext_vf4, .VArith, [⟨.func6, .eq, .num 18⟩, ⟨.vs1, .eq, .num 4⟩, ⟨.func3, .eq, .num 2⟩, ⟨.opcode, .eq, .num 87⟩]⟩,
   ⟨.vsext_vf4, .VArith, [⟨.func6, .eq, .num 18⟩, ⟨.vs1, .eq, .num 5⟩, ⟨.func3, .eq, .num 2⟩, ⟨.opcode, .eq, .num 87⟩]⟩,
   ⟨.vzext_vf2, .VArith, [⟨.func6, .eq, .num 18⟩, ⟨.vs1, .eq, .num 6⟩, ⟨.func3, .eq, .num 2⟩, ⟨.opcode, .eq, .num 87⟩]⟩,
   ⟨.vsext_vf2, .VArith, [⟨.func6, .eq, .num 18⟩, ⟨.vs1, .eq, .num 7⟩, ⟨.func3, .eq, .num 2⟩, ⟨.opcode, .eq, .num 87⟩]⟩,
   ⟨.vmsbf, .VArith, [⟨.func6, .eq, .num 20⟩, ⟨.vs1, .eq, .num 1⟩, ⟨.func3, .eq, .num 2⟩, ⟨.opcode, .eq, .num 87⟩]⟩,
   ⟨.vmsof, .VArith, [⟨.func6, .eq, .num 20⟩, ⟨.vs1, .eq, .num 2⟩, ⟨.func3, .eq, .num 2⟩, ⟨.opcode, .eq, .num 87⟩]⟩,
   ⟨.vmsif, .VArith, [⟨.func6, .eq, .num 20⟩, ⟨.vs1, .eq, .num 3⟩, ⟨.func3, .eq, .num 2⟩, ⟨.opcode, .eq, .num 87⟩]⟩,
   ⟨.viota, .VArith, [⟨.func6, .eq, .num 20⟩, ⟨.vs1, .eq, .num 16⟩, ⟨.func3, .eq, .num 2⟩, ⟨.opcode, .eq, .num 87⟩]⟩,
   ⟨.vid, .VArith, [⟨.func6, .eq, .num 20⟩, ⟨.vs1, .eq, .num 17⟩, ⟨.func3, .eq, .num 2⟩, ⟨.opcode, .eq, .num 87⟩]⟩]

/-- `instruction group RiscVZfh32Inst32` (riscv_zfh32.bin_fmt:27-56). -/
def g_riscv_zfh32_RiscVZfh32Inst32 : List Inst :=
  [⟨.flh, .IType, [⟨.func3, .eq, .num 1⟩, ⟨.opcode, .eq, .num 7⟩]⟩,
   ⟨.fsh, .SType, [⟨.func3, .eq, .num 1⟩, ⟨.opcode, .eq, .num 39⟩]⟩,
   ⟨.fmv_xh, .RType, [⟨.func7, .eq, .num 114⟩, ⟨.rs2, .eq, .num 0⟩, ⟨.func3, .eq, .num 0⟩, ⟨.opcode, .eq, .num 83⟩]⟩,
   ⟨.fmv_hx, .RType, [⟨.func7, .eq, .num 122⟩, ⟨.rs2, .eq, .num 0⟩, ⟨.func3, .eq, .num 0⟩, ⟨.opcode, .eq, .num 83⟩]⟩,
   ⟨.fcvt_sh, .RType, [⟨.func7, .eq, .num 32⟩, ⟨.rs2, .eq, .num 2⟩, ⟨.opcode, .eq, .num 83⟩]⟩,
   ⟨.fcvt_hs, .RType, [⟨.func7, .eq, .num 34⟩, ⟨.rs2, .eq, .num 0⟩, ⟨.opcode, .eq, .num 83⟩]⟩,
   ⟨.fcvt_dh, .RType, [⟨.func7, .eq, .num 33⟩, ⟨.rs2, .eq, .num 2⟩, ⟨.opcode, .eq, .num 83⟩]⟩,
   ⟨.fcvt_hd, .RType, [⟨.func7, .eq, .num 34⟩, ⟨.rs2, .eq, .num 1⟩, ⟨.opcode, .eq, .num 83⟩]⟩,
   ⟨.fadd_h, .RType, [⟨.func7, .eq, .num 2⟩, ⟨.opcode, .eq, .num 83⟩]⟩,
   ⟨.fsub_h, .RType, [⟨.func7, .eq, .num 6⟩, ⟨.opcode, .eq, .num 83⟩]⟩,
   ⟨.fmul_h, .RType, [⟨.func7, .eq, .num 10⟩, ⟨.opcode, .eq, .num 83⟩]⟩,
   ⟨.fdiv_h, .RType, [⟨.func7, .eq, .num 14⟩, ⟨.opcode, .eq, .num 83⟩]⟩,
   ⟨.fmin_h, .RType, [⟨.func7, .eq, .num 22⟩, ⟨.func3, .eq, .num 0⟩, ⟨.opcode, .eq, .num 83⟩]⟩,
   ⟨.fmax_h, .RType, [⟨.func7, .eq, .num 22⟩, ⟨.func3, .eq, .num 1⟩, ⟨.opcode, .eq, .num 83⟩]⟩,
   ⟨.fsgnj_h, .RType, [⟨.func7, .eq, .num 18⟩, ⟨.func3, .eq, .num 0⟩, ⟨.opcode, .eq, .num 83⟩]⟩,
   ⟨.fsgnjn_h, .RType, [⟨.func7, .eq, .num 18⟩, ⟨.func3, .eq, .num 1⟩, ⟨.opcode, .eq, .num 83⟩]⟩,
   ⟨.fsgnjx_h, .RType, [⟨.func7, .eq, .num 18⟩, ⟨.func3, .eq, .num 2⟩, ⟨.opcode, .eq, .num 83⟩]⟩,
   ⟨.fsqrt_h, .RType, [⟨.func7, .eq, .num 46⟩, ⟨.rs2, .eq, .num 0⟩, ⟨.opcode, .eq, .num 83⟩]⟩,
   ⟨.fcvt_hw, .RType, [⟨.func7, .eq, .num 106⟩, ⟨.rs2, .eq, .num 0⟩, ⟨.opcode, .eq, .num 83⟩]⟩,
   ⟨.fcvt_wh, .RType, [⟨.func7, .eq, .num 98⟩, ⟨.rs2, .eq, .num 0⟩, ⟨.opcode, .eq, .num 83⟩]⟩,
   ⟨.fcvt_hwu, .RType, [⟨.func7, .eq, .num 106⟩, ⟨.rs2, .eq, .num 1⟩, ⟨.opcode, .eq, .num 83⟩]⟩,
   ⟨.fcvt_wuh, .RType, [⟨.func7, .eq, .num 98⟩, ⟨.rs2, .eq, .num 1⟩, ⟨.opcode, .eq, .num 83⟩]⟩,
   ⟨.fcmpeq_h, .RType, [⟨.func7, .eq, .num 82⟩, ⟨.func3, .eq, .num 2⟩, ⟨.opcode, .eq, .num 83⟩]⟩,
   ⟨.fcmplt_h, .RType, [⟨.func7, .eq, .num 82⟩, ⟨.func3, .eq, .num 1⟩, ⟨.opcode, .eq, .num 83⟩]⟩,
   ⟨.fcmple_h, .RType, [⟨.func7, .eq, .num 82⟩, ⟨.func3, .eq, .num 0⟩, ⟨.opcode, .eq, .num 83⟩]⟩,
   ⟨.fclass_h, .RType, [⟨.func7, .eq, .num 114⟩, ⟨.rs2, .eq, .num 0⟩, ⟨.func3, .eq, .num 1⟩, ⟨.opcode, .eq, .num 83⟩]⟩,
   ⟨.fmadd_h, .R4Type, [⟨.func2, .eq, .num 2⟩, ⟨.opcode, .eq, .num 67⟩]⟩,
   ⟨.fmsub_h, .R4Type, [⟨.func2, .eq, .num 2⟩, ⟨.opcode, .eq, .num 71⟩]⟩,
   ⟨.fnmsub_h, .R4Type, [⟨.func2, .eq, .num 2⟩, ⟨.opcode, .eq, .num 75⟩]⟩,
   ⟨.fnmadd_h, .R4Type, [⟨.func2, .eq, .num 2⟩, ⟨.opcode, .eq, .num 79⟩]⟩]

/-- `instruction group RiscVZfh64Inst32` (riscv_zfh64.bin_fmt:27-60). -/
def g_riscv_zfh64_RiscVZfh64Inst32 : List Inst :=
  [⟨.flh, .IType, [⟨.func3, .eq, .num 1⟩, ⟨.opcode, .eq, .num 7⟩]⟩,
   ⟨.fsh, .SType, [⟨.func3, .eq, .num 1⟩, ⟨.opcode, .eq, .num 39⟩]⟩,
   ⟨.fmv_xh, .RType, [⟨.func7, .eq, .num 114⟩, ⟨.rs2, .eq, .num 0⟩, ⟨.func3, .eq, .num 0⟩, ⟨.opcode, .eq, .num 83⟩]⟩,
   ⟨.fmv_hx, .RType, [⟨.func7, .eq, .num 122⟩, ⟨.rs2, .eq, .num 0⟩, ⟨.func3, .eq, .num 0⟩, ⟨.opcode, .eq, .num 83⟩]⟩,
   ⟨.fcvt_sh, .RType, [⟨.func7, .eq, .num 32⟩, ⟨.rs2, .eq, .num 2⟩, ⟨.opcode, .eq, .num 83⟩]⟩,
   ⟨.fcvt_hs, .RType, [⟨.func7, .eq, .num 34⟩, ⟨.rs2, .eq, .num 0⟩, ⟨.opcode, .eq, .num 83⟩]⟩,
   ⟨.fcvt_dh, .RType, [⟨.func7, .eq, .num 33⟩, ⟨.rs2, .eq, .num 2⟩, ⟨.opcode, .eq, .num 83⟩]⟩,
   ⟨.fcvt_hd, .RType, [⟨.func7, .eq, .num 34⟩, ⟨.rs2, .eq, .num 1⟩, ⟨.opcode, .eq, .num 83⟩]⟩,
   ⟨.fadd_h, .RType, [⟨.func7, .eq, .num 2⟩, ⟨.opcode, .eq, .num 83⟩]⟩,
   ⟨.fsub_h, .RType, [⟨.func7, .eq, .num 6⟩, ⟨.opcode, .eq, .num 83⟩]⟩,
   ⟨.fmul_h, .RType, [⟨.func7, .eq, .num 10⟩, ⟨.opcode, .eq, .num 83⟩]⟩,
   ⟨.fdiv_h, .RType, [⟨.func7, .eq, .num 14⟩, ⟨.opcode, .eq, .num 83⟩]⟩,
   ⟨.fmin_h, .RType, [⟨.func7, .eq, .num 22⟩, ⟨.func3, .eq, .num 0⟩, ⟨.opcode, .eq, .num 83⟩]⟩,
   ⟨.fmax_h, .RType, [⟨.func7, .eq, .num 22⟩, ⟨.func3, .eq, .num 1⟩, ⟨.opcode, .eq, .num 83⟩]⟩,
   ⟨.fsgnj_h, .RType, [⟨.func7, .eq, .num 18⟩, ⟨.func3, .eq, .num 0⟩, ⟨.opcode, .eq, .num 83⟩]⟩,
   ⟨.fsgnjn_h, .RType, [⟨.func7, .eq, .num 18⟩, ⟨.func3, .eq, .num 1⟩, ⟨.opcode, .eq, .num 83⟩]⟩,
   ⟨.fsgnjx_h, .RType, [⟨.func7, .eq, .num 18⟩, ⟨.func3, .eq, .num 2⟩, ⟨.opcode, .eq, .num 83⟩]⟩,
   ⟨.fsqrt_h, .RType, [⟨.func7, .eq, .num 46⟩, ⟨.rs2, .eq, .num 0⟩, ⟨.opcode, .eq, .num 83⟩]⟩,
   ⟨.fcvt_hw, .RType, [⟨.func7, .eq, .num 106⟩, ⟨.rs2, .eq, .num 0⟩, ⟨.opcode, .eq, .num 83⟩]⟩,
   ⟨.fcvt_wh, .RType, [⟨.func7, .eq, .num 98⟩, ⟨.rs2, .eq, .num 0⟩, ⟨.opcode, .eq, .num 83⟩]⟩,
   ⟨.fcvt_hwu, .RType, [⟨.func7, .eq, .num 106⟩, ⟨.rs2, .eq, .num 1⟩, ⟨.opcode, .eq, .num 83⟩]⟩,
   ⟨.fcvt_wuh, .RType, [⟨.func7, .eq, .num 98⟩, ⟨.rs2, .eq, .num 1⟩, ⟨.opcode, .eq, .num 83⟩]⟩,
   ⟨.fcmpeq_h, .RType, [⟨.func7, .eq, .num 82⟩, ⟨.func3, .eq, .num 2⟩, ⟨.opcode, .eq, .num 83⟩]⟩,
   ⟨.fcmplt_h, .RType, [⟨.func7, .eq, .num 82⟩, ⟨.func3, .eq, .num 1⟩, ⟨.opcode, .eq, .num 83⟩]⟩,
   ⟨.fcmple_h, .RType, [⟨.func7, .eq, .num 82⟩, ⟨.func3, .eq, .num 0⟩, ⟨.opcode, .eq, .num 83⟩]⟩,
   ⟨.fclass_h, .RType, [⟨.func7, .eq, .num 114⟩, ⟨.rs2, .eq, .num 0⟩, ⟨.func3, .eq, .num 1⟩, ⟨.opcode, .eq, .num 83⟩]⟩,
   ⟨.fmadd_h, .R4Type, [⟨.func2, .eq, .num 2⟩, ⟨.opcode, .eq, .num 67⟩]⟩,
   ⟨.fmsub_h, .R4Type, [⟨.func2, .eq, .num 2⟩, ⟨.opcode, .eq, .num 71⟩]⟩,
   ⟨.fnmsub_h, .R4Type, [⟨.func2, .eq, .num 2⟩, ⟨.opcode, .eq, .num 75⟩]⟩,
   ⟨.fnmadd_h, .R4Type, [⟨.func2, .eq, .num 2⟩, ⟨.opcode, .eq, .num 79⟩]⟩,
   ⟨.fcvt_lh, .RType, [⟨.func7, .eq, .num 98⟩, ⟨.rs2, .eq, .num 2⟩, ⟨.opcode, .eq, .num 83⟩]⟩,
   ⟨.fcvt_luh, .RType, [⟨.func7, .eq, .num 98⟩, ⟨.rs2, .eq, .num 3⟩, ⟨.opcode, .eq, .num 83⟩]⟩,
   ⟨.fcvt_hl, .RType, [⟨.func7, .eq, .num 106⟩, ⟨.rs2, .eq, .num 2⟩, ⟨.opcode, .eq, .num 83⟩]⟩,
   ⟨.fcvt_hlu, .RType, [⟨.func7, .eq, .num 106⟩, ⟨.rs2, .eq, .num 3⟩, ⟨.opcode, .eq, .num 83⟩]⟩]

/-- `instruction group RiscVZvkbInst32` (riscv_zvbb.bin_fmt:28-36). -/
def g_riscv_zvbb_RiscVZvkbInst32 : List Inst :=
  [⟨.vandn_vv, .VArith, [⟨.func6, .eq, .num 1⟩, ⟨.func3, .eq, .num 0⟩, ⟨.opcode, .eq, .num 87⟩]⟩,
   ⟨.vandn_vx, .VArith, [⟨.func6, .eq, .num 1⟩, ⟨.func3, .eq, .num 4⟩, ⟨.opcode, .eq, .num 87⟩]⟩,
   ⟨.vbrev8_v, .VArith, [⟨.func6, .eq, .num 18⟩, ⟨.func3, .eq, .num 2⟩, ⟨.opcode, .eq, .num 87⟩, ⟨.vs1, .eq, .num 8⟩]⟩,
   ⟨.vrev8_v, .VArith, [⟨.func6, .eq, .num 18⟩, ⟨.func3, .eq, .num 2⟩, ⟨.opcode, .eq, .num 87⟩, ⟨.vs1, .eq, .num 9⟩]⟩,
   ⟨.vrol_vv, .VArith, [⟨.func6, .eq, .num 21⟩, ⟨.func3, .eq, .num 0⟩, ⟨.opcode, .eq, .num 87⟩]⟩,
   ⟨.vrol_vx, .VArith, [⟨.func6, .eq, .num 21⟩, ⟨.func3, .eq, .num 4⟩, ⟨.opcode, .eq, .num 87⟩]⟩,
   ⟨.vror_vv, .VArith, [⟨.func6, .eq, .num 20⟩, ⟨.func3, .eq, .num 0⟩, ⟨.opcode, .eq, .num 87⟩]⟩,
   ⟨.vror_vx, .VArith, [⟨.func6, .eq, .num 20⟩, ⟨.func3, .eq, .num 4⟩, ⟨.opcode, .eq, .num 87⟩]⟩,
   ⟨.vror_vi, .VArith, [⟨.func5, .eq, .num 10⟩, ⟨.func3, .eq, .num 3⟩, ⟨.opcode, .eq, .num 87⟩]⟩]

/-- `instruction group RiscVBasicBitInst32` (riscv_zvbb.bin_fmt:40-46). -/
def g_riscv_zvbb_RiscVBasicBitInst32 : List Inst :=
  [⟨.vbrev_v, .VArith, [⟨.func6, .eq, .num 18⟩, ⟨.func3, .eq, .num 2⟩, ⟨.opcode, .eq, .num 87⟩, ⟨.vs1, .eq, .num 10⟩]⟩,
   ⟨.vclz_v, .VArith, [⟨.func6, .eq, .num 18⟩, ⟨.func3, .eq, .num 2⟩, ⟨.opcode, .eq, .num 87⟩, ⟨.vs1, .eq, .num 12⟩]⟩,
   ⟨.vctz_v, .VArith, [⟨.func6, .eq, .num 18⟩, ⟨.func3, .eq, .num 2⟩, ⟨.opcode, .eq, .num 87⟩, ⟨.vs1, .eq, .num 13⟩]⟩,
   ⟨.vcpop_v, .VArith, [⟨.func6, .eq, .num 18⟩, ⟨.func3, .eq, .num 2⟩, ⟨.opcode, .eq, .num 87⟩, ⟨.vs1, .eq, .num 14⟩]⟩,
   ⟨.vwsll_vv, .VArith, [⟨.func6, .eq, .num 53⟩, ⟨.func3, .eq, .num 0⟩, ⟨.opcode, .eq, .num 87⟩]⟩,
   ⟨.vwsll_vx, .VArith, [⟨.func6, .eq, .num 53⟩, ⟨.func3, .eq, .num 4⟩, ⟨.opcode, .eq, .num 87⟩]⟩,
   ⟨.vwsll_vi, .VArith, [⟨.func6, .eq, .num 53⟩, ⟨.func3, .eq, .num 3⟩, ⟨.opcode, .eq, .num 87⟩]⟩]

/-- `instruction group RiscVZicond` (riscv_zicond.bin_fmt:18-19). -/
def g_riscv_zicond_RiscVZicond : List Inst :=
  [⟨.czero_eqz, .RType, [⟨.func7, .eq, .num 7⟩, ⟨.func3, .eq, .num 5⟩, ⟨.opcode, .eq, .num 51⟩]⟩,
   ⟨.czero_nez, .RType, [⟨.func7, .eq, .num 7⟩, ⟨.func3, .eq, .num 7⟩, ⟨.opcode, .eq, .num 51⟩]⟩]

/-- `instruction group RiscVZimop` (riscv_zimop.bin_fmt:21-60). -/
def g_riscv_zimop_RiscVZimop : List Inst :=
  [⟨.mop_r_0, .MopRType, [⟨.mop_no, .eq, .num 0⟩, ⟨.func1, .eq, .num 1⟩, ⟨.func2, .eq, .num 0⟩, ⟨.func4, .eq, .num 7⟩, ⟨.func3, .eq, .num 4⟩, ⟨.opcode, .eq, .num 115⟩]⟩,
   ⟨.mop_r_1, .MopRType, [⟨.mop_no, .eq, .num 1⟩, ⟨.func1, .eq, .num 1⟩, ⟨.func2, .eq, .num 0⟩, ⟨.func4, .eq, .num 7⟩, ⟨.func3, .eq, .num 4⟩, ⟨.opcode, .eq, .num 115⟩]⟩,
   ⟨.mop_r_2, .MopRType, [⟨.mop_no, .eq, .num 2⟩, ⟨.func1, .eq, .num 1⟩, ⟨.func2, .eq, .num 0⟩, ⟨.func4, .eq, .num 7⟩, ⟨.func3, .eq, .num 4⟩, ⟨.opcode, .eq, .num 115⟩]⟩,
   ⟨.mop_r_3, .MopRType, [⟨.mop_no, .eq, .num 3⟩, ⟨.func1, .eq, .num 1⟩, ⟨.func2, .eq, .num 0⟩, ⟨.func4, .eq, .num 7⟩, ⟨.func3, .eq, .num 4⟩, ⟨.opcode, .eq, .num 115⟩]⟩,
   ⟨.mop_r_4, .MopRType, [⟨.mop_no, .eq, .num 4⟩, ⟨.func1, .eq, .num 1⟩, ⟨.func2, .eq, .num 0⟩, ⟨.func4, .eq, .num 7⟩, ⟨.func3, .eq, .num 4⟩, ⟨.opcode, .eq, .num 115⟩]⟩,
   ⟨.mop_r_5, .MopRType, [⟨.mop_no, .eq, .num 5⟩, ⟨.func1, .eq, .num 1⟩, ⟨.func2, .eq, .num 0⟩, ⟨.func4, .eq, .num 7⟩, ⟨.func3, .eq, .num 4⟩, ⟨.opcode, .eq, .num 115⟩]⟩,
   ⟨.mop_r_6, .MopRType, [⟨.mop_no, .eq, .num 6⟩, ⟨.func1, .eq, .num 1⟩, ⟨.func2, .eq, .num 0⟩, ⟨.func4, .eq, .num 7⟩, ⟨.func3, .eq, .num 4⟩, ⟨.opcode, .eq, .num 115⟩]⟩,
   ⟨.mop_r_7, .MopRType, [⟨.mop_no, .eq, .num 7⟩, ⟨.func1, .eq, .num 1⟩, ⟨.func2, .eq, .num 0⟩, ⟨.func4, .eq, .num 7⟩, ⟨.func3, .eq, .num 4⟩, ⟨.opcode, .eq, .num 115⟩]⟩,
   ⟨.mop_r_8, .MopRType, [⟨.mop_no, .eq, .num 8⟩, ⟨.func1, .eq, .num 1⟩, ⟨.func2, .eq, .num 0⟩, ⟨.func4, .eq, .num 7⟩, ⟨.func3, .eq, .num 4⟩, ⟨.opcode, .eq, .num 115⟩]⟩,
   ⟨.mop_r_9, .MopRType, [⟨.mop_no, .eq, .num 9⟩, ⟨.func1, .eq, .num 1⟩, ⟨.func2, .eq, .num 0⟩, ⟨.func4, .eq, .num 7⟩, ⟨.func3, .eq, .num 4⟩, ⟨.opcode, .eq, .num 115⟩]⟩,
   ⟨.mop_r_10, .MopRType, [⟨.mop_no, .eq, .num 10⟩, ⟨.func1, .eq, .num 1⟩, ⟨.func2, .eq, .num 0⟩, ⟨.func4, .eq, .num 7⟩, ⟨.func3, .eq, .num 4⟩, ⟨.opcode, .eq, .num 115⟩]⟩,
   ⟨.mop_r_11, .MopRType, [⟨.mop_no, .eq, .num 11⟩, ⟨.func1, .eq, .num 1⟩, ⟨.func2, .eq, .num 0⟩, ⟨.func4, .eq, .num 7⟩, ⟨.func3, .eq, .num 4⟩, ⟨.opcode, .eq, .num 115⟩]⟩,
   ⟨.mop_r_12, .MopRType, [⟨.mop_no, .eq, .num 12⟩, ⟨.func1, .eq, .num 1⟩, ⟨.func2, .eq, .num 0⟩, ⟨.func4, .eq, .num 7⟩, ⟨.func3, .eq, .num 4⟩, ⟨.opcode, .eq, .num 115⟩]⟩,
   ⟨.mop_r_13, .MopRType, [⟨.mop_no, .eq, .num 13⟩, ⟨.func1, .eq, .num 1⟩, ⟨.func2, .eq, .num 0⟩, ⟨.func4, .eq, .num 7⟩, ⟨.func3, .eq, .num 4⟩, ⟨.opcode, .eq, .num 115⟩]⟩,
   ⟨.mop_r_14, .MopRType, [⟨.mop_no, .eq, .num 14⟩, ⟨.func1, .eq, .num 1⟩, ⟨.func2, .eq, .num 0⟩, ⟨.func4, .eq, .num 7⟩, ⟨.func3, .eq, .num 4⟩, ⟨.opcode, .eq, .num 115⟩]⟩,
   ⟨.mop_r_15, .MopRType, [⟨.mop_no, .eq, .num 15⟩, ⟨.func1, .eq, .num 1⟩, ⟨.func2, .eq, .num 0⟩, ⟨.func4, .eq, .num 7⟩, ⟨.func3, .eq, .num 4⟩, ⟨.opcode, .eq, .num 115⟩]⟩,
   ⟨.mop_r_16, .MopRType, [⟨.mop_no, .eq, .num 16⟩, ⟨.func1, .eq, .num 1⟩, ⟨.func2, .eq, .num 0⟩, ⟨.func4, .eq, .num 7⟩, ⟨.func3, .eq, .num 4⟩, ⟨.opcode, .eq, .num 115⟩]⟩,
   ⟨.mop_r_17, .MopRType, [⟨.mop_no, .eq, .num 17⟩, ⟨.func1, .eq, .num 1⟩, ⟨.func2, .eq, .num 0⟩, ⟨.func4, .eq, .num 7⟩, ⟨.func3, .eq, .num 4⟩, ⟨.opcode, .eq, .num 115⟩]⟩,
   ⟨.mop_r_18, .MopRType, [⟨.mop_no, .eq, .num 18⟩, ⟨.func1, .eq, .num 1⟩, ⟨.func2, .eq, .num 0⟩, ⟨.func4, .eq, .num 7⟩, ⟨.func3, .eq, .num 4⟩, ⟨.opcode, .eq, .num 115⟩]⟩,
   ⟨.mop_r_19, .MopRType, [⟨.mop_no, .eq, .num 19⟩, ⟨.func1, .eq, .num 1⟩, ⟨.func2, .eq, .num 0⟩, ⟨.func4, .eq, .num 7⟩, ⟨.func3, .eq, .num 4⟩, ⟨.opcode, .eq, .num 115⟩]⟩,
   ⟨.mop_r_20, .MopRType, [⟨.mop_no, .eq, .num 20⟩, ⟨.func1, .eq, .num 1⟩, ⟨.func2, .eq, .num 0⟩, ⟨.func4, .eq, .num 7⟩, ⟨.func3, .eq, .num 4⟩, ⟨.opcode, .eq, .num 115⟩]⟩,
   ⟨.mop_r_21, .MopRType, [⟨.mop_no, .eq, .num 21⟩, ⟨.func1, .eq, .num 1⟩, ⟨.func2, .eq, .num 0⟩, ⟨.func4, .eq, .num 7⟩, ⟨.func3, .eq, .num 4⟩, ⟨.opcode, .eq, .num 115⟩]⟩,
   ⟨.mop_r_22, .MopRType, [⟨.mop_no, .eq, .num 22⟩, ⟨.func1, .eq, .num 1⟩, ⟨.func2, .eq, .num 0⟩, ⟨.func4, .eq, .num 7⟩, ⟨.func3, .eq, .num 4⟩, ⟨.opcode, .eq, .num 115⟩]⟩,
   ⟨.mop_r_23, .MopRType, [⟨.mop_no, .eq, .num 23⟩, ⟨.func1, .eq, .num 1⟩, ⟨.func2, .eq, .num 0⟩, ⟨.func4, .eq, .num 7⟩, ⟨.func3, .eq, .num 4⟩, ⟨.opcode, .eq, .num 115⟩]⟩,
   ⟨.mop_r_24, .MopRType, [⟨.mop_no, .eq, .num 24⟩, ⟨.func1, .eq, .num 1⟩, ⟨.func2, .eq, .num 0⟩, ⟨.func4, .eq, .num 7⟩, ⟨.func3, .eq, .num 4⟩, ⟨.opcode, .eq, .num 115⟩]⟩,
   ⟨.mop_r_25, .MopRType, [⟨.mop_no, .eq, .num 25⟩, ⟨.func1, .eq, .num 1⟩, ⟨.func2, .eq, .num 0⟩, ⟨.func4, .eq, .num 7⟩, ⟨.func3, .eq, .num 4⟩, ⟨.opcode, .eq, .num 115⟩]⟩,
   ⟨.mop_r_26, .MopRType, [⟨.mop_no, .eq, .num 26⟩, ⟨.func1, .eq, .num 1⟩, ⟨.func2, .eq, .num 0⟩, ⟨.func4, .eq, .num 7⟩, ⟨.func3, .eq, .num 4⟩, ⟨.opcode, .eq, .num 115⟩]⟩,
   ⟨.mop_r_27, .MopRType, [⟨.mop_no, .eq, .num 27⟩, ⟨.func1, .eq, .num 1⟩, ⟨.func2, .eq, .num 0⟩, ⟨.func4, .eq, .num 7⟩, ⟨.func3, .eq, .num 4⟩, ⟨.opcode, .eq, .num 115⟩]⟩,
   ⟨.mop_r_28, .MopRType, [⟨.mop_no, .eq, .num 28⟩, ⟨.func1, .eq, .num 1⟩, ⟨.func2, .eq, .num 0⟩, ⟨.func4, .eq, .num 7⟩, ⟨.func3, .eq, .num 4⟩, ⟨.opcode, .eq, .num 115⟩]⟩,
   ⟨.mop_r_29, .MopRType, [⟨.mop_no, .eq, .num 29⟩, ⟨.func1, .eq, .num 1⟩, ⟨.func2, .eq, .num 0⟩, ⟨.func4, .eq, .num 7⟩, ⟨.func3, .eq, .num 4⟩, ⟨.opcode, .eq, .num 115⟩]⟩,
   ⟨.mop_r_30, .MopRType, [⟨.mop_no, .eq, .num 30⟩, ⟨.func1, .eq, .num 1⟩, ⟨.func2, .eq, .num 0⟩, ⟨.func4, .eq, .num 7⟩, ⟨.func3, .eq, .num 4⟩, ⟨.opcode, .eq, .num 115⟩]⟩,
   ⟨.mop_r_31, .MopRType, [⟨.mop_no, .eq, .num 31⟩, ⟨.func1, .eq, .num 1⟩, ⟨.func2, .eq, .num 0⟩, ⟨.func4, .eq, .num 7⟩, ⟨.func3, .eq, .num 4⟩, ⟨.opcode, .eq, .num 115⟩]⟩,
   ⟨.mop_rr_0, .MopRRType, [⟨.mop_no, .eq, .num 0⟩, ⟨.func1h, .eq, .num 1⟩, ⟨.func2, .eq, .num 0⟩, ⟨.func1l, .eq, .num 1⟩, ⟨.opcode, .eq, .num 115⟩]⟩,
   ⟨.mop_rr_1, .MopRRType, [⟨.mop_no, .eq, .num 1⟩, ⟨.func1h, .eq, .num 1⟩, ⟨.func2, .eq, .num 0⟩, ⟨.func1l, .eq, .num 1⟩, ⟨.opcode, .eq, .num 115⟩]⟩,
   ⟨.mop_rr_2, .MopRRType, [⟨.mop_no, .eq, .num 2⟩, ⟨.func1h, .eq, .num 1⟩, ⟨.func2, .eq, .num 0⟩, ⟨.func1l, .eq, .num 1⟩, ⟨.opcode, .eq, .num 115⟩]⟩,
   ⟨.mop_rr_3, .MopRRType, [⟨.mop_no, .eq, .num 3⟩, ⟨.func1h, .eq, .num 1⟩, ⟨.func2, .eq, .num 0⟩, ⟨.func1l, .eq, .num 1⟩, ⟨.opcode, .eq, .num 115⟩]⟩,
   ⟨.mop_rr_4, .MopRRType, [⟨.mop_no, .eq, .num 4⟩, ⟨.func1h, .eq, .num 1⟩, ⟨.func2, .eq, .num 0⟩, ⟨.func1l, .eq, .num 1⟩, ⟨.opcode, .eq, .num 115⟩]⟩,
   ⟨.mop_rr_5, .MopRRType, [⟨.mop_no, .eq, .num 5⟩, ⟨.func1h, .eq, .num 1⟩, ⟨.func2, .eq, .num 0⟩, ⟨.func1l, .eq, .num 1⟩, ⟨.opcode, .eq, .num 115⟩]⟩,
   ⟨.mop_rr_6, .MopRRType, [⟨.mop_no, .eq, .num 6⟩, ⟨.func1h, .eq, .num 1⟩, ⟨.func2, .eq, .num 0⟩, ⟨.func1l, .eq, .num 1⟩, ⟨.opcode, .eq, .num 115⟩]⟩,
   ⟨.mop_rr_7, .MopRRType, [⟨.mop_no, .eq, .num 7⟩, ⟨.func1h, .eq, .num 1⟩, ⟨.func2, .eq, .num 0⟩, ⟨.func1l, .eq, .num 1⟩, ⟨.opcode, .eq, .num 115⟩]⟩]

/-- `instruction group RiscVZcmop` (riscv_zimop.bin_fmt:65-72). -/
def g_riscv_zimop_RiscVZcmop : List Inst :=
  [⟨.c_mop_1, .CMopType, [⟨.func4, .eq, .num 6⟩, ⟨.num, .eq, .num 1⟩, ⟨.rd, .eq, .num 0⟩, ⟨.op, .eq, .num 1⟩]⟩,
   ⟨.c_mop_3, .CMopType, [⟨.func4, .eq, .num 6⟩, ⟨.num, .eq, .num 3⟩, ⟨.rd, .eq, .num 0⟩, ⟨.op, .eq, .num 1⟩]⟩,
   ⟨.c_mop_5, .CMopType, [⟨.func4, .eq, .num 6⟩, ⟨.num, .eq, .num 5⟩, ⟨.rd, .eq, .num 0⟩, ⟨.op, .eq, .num 1⟩]⟩,
   ⟨.c_mop_7, .CMopType, [⟨.func4, .eq, .num 6⟩, ⟨.num, .eq, .num 7⟩, ⟨.rd, .eq, .num 0⟩, ⟨.op, .eq, .num 1⟩]⟩,
   ⟨.c_mop_9, .CMopType, [⟨.func4, .eq, .num 6⟩, ⟨.num, .eq, .num 9⟩, ⟨.rd, .eq, .num 0⟩, ⟨.op, .eq, .num 1⟩]⟩,
   ⟨.c_mop_11, .CMopType, [⟨.func4, .eq, .num 6⟩, ⟨.num, .eq, .num 11⟩, ⟨.rd, .eq, .num 0⟩, ⟨.op, .eq, .num 1⟩]⟩,
   ⟨.c_mop_13, .CMopType, [⟨.func4, .eq, .num 6⟩, ⟨.num, .eq, .num 13⟩, ⟨.rd, .eq, .num 0⟩, ⟨.op, .eq, .num 1⟩]⟩,
   ⟨.c_mop_15, .CMopType, [⟨.func4, .eq, .num 6⟩, ⟨.num, .eq, .num 15⟩, ⟨.rd, .eq, .num 0⟩, ⟨.op, .eq, .num 1⟩]⟩]

/-- `instruction group RiscVZhintpause` (riscv_zhintpause.bin_fmt:18-18). -/
def g_riscv_zhintpause_RiscVZhintpause : List Inst :=
  [⟨.pause, .Fence, [⟨.fm, .eq, .num 0⟩, ⟨.pred, .eq, .num 1⟩, ⟨.succ, .eq, .num 0⟩, ⟨.rd, .eq, .num 0⟩, ⟨.rs1, .eq, .num 0⟩, ⟨.opcode, .eq, .num 15⟩]⟩]

/-- `instruction group RiscVZihintntl` (riscv_zihintntl.bin_fmt:18-21). -/
def g_riscv_zihintntl_RiscVZihintntl : List Inst :=
  [⟨.ntl_p1, .RType, [⟨.func7, .eq, .num 0⟩, ⟨.rs1, .eq, .num 0⟩, ⟨.rs2, .eq, .num 2⟩, ⟨.func3, .eq, .num 0⟩, ⟨.rd, .eq, .num 0⟩, ⟨.opcode, .eq, .num 51⟩]⟩,
   ⟨.ntl_pall, .RType, [⟨.func7, .eq, .num 0⟩, ⟨.rs1, .eq, .num 0⟩, ⟨.rs2, .eq, .num 3⟩, ⟨.func3, .eq, .num 0⟩, ⟨.rd, .eq, .num 0⟩, ⟨.opcode, .eq, .num 51⟩]⟩,
   ⟨.ntl_s1, .RType, [⟨.func7, .eq, .num 0⟩, ⟨.rs1, .eq, .num 0⟩, ⟨.rs2, .eq, .num 4⟩, ⟨.func3, .eq, .num 0⟩, ⟨.rd, .eq, .num 0⟩, ⟨.opcode, .eq, .num 51⟩]⟩,
   ⟨.ntl_all, .RType, [⟨.func7, .eq, .num 0⟩, ⟨.rs1, .eq, .num 0⟩, ⟨.rs2, .eq, .num 5⟩, ⟨.func3, .eq, .num 0⟩, ⟨.rd, .eq, .num 0⟩, ⟨.opcode, .eq, .num 51⟩]⟩]

/-- `instruction group RiscVCZihintntl` (riscv_zihintntl.bin_fmt:25-28). -/
def g_riscv_zihintntl_RiscVCZihintntl : List Inst :=
  [⟨.c_ntl_p1, .CR, [⟨.func4, .eq, .num 9⟩, ⟨.rs1, .eq, .num 0⟩, ⟨.rs2, .eq, .num 2⟩, ⟨.op, .eq, .num 2⟩]⟩,
   ⟨.c_ntl_pall, .CR, [⟨.func4, .eq, .num 9⟩, ⟨.rs1, .eq, .num 0⟩, ⟨.rs2, .eq, .num 3⟩, ⟨.op, .eq, .num 2⟩]⟩,
   ⟨.c_ntl_s1, .CR, [⟨.func4, .eq, .num 9⟩, ⟨.rs1, .eq, .num 0⟩, ⟨.rs2, .eq, .num 4⟩, ⟨.op, .eq, .num 2⟩]⟩,
   ⟨.c_ntl_all, .CR, [⟨.func4, .eq, .num 9⟩, ⟨.rs1, .eq, .num 0⟩, ⟨.rs2, .eq, .num 5⟩, ⟨.op, .eq, .num 2⟩]⟩]

/-- `instruction group RiscVZicbop` (riscv_zicbop.bin_fmt:21-23). -/
def g_riscv_zicbop_RiscVZicbop : List Inst :=
  [⟨.prefetch_i, .ZICBOP, [⟨.func5, .eq, .num 0⟩, ⟨.func3, .eq, .num 6⟩, ⟨.imm5, .eq, .num 0⟩, ⟨.op, .eq, .num 19⟩]⟩,
   ⟨.prefetch_r, .ZICBOP, [⟨.func5, .eq, .num 1⟩, ⟨.func3, .eq, .num 6⟩, ⟨.imm5, .eq, .num 0⟩, ⟨.op, .eq, .num 18⟩]⟩,
   ⟨.prefetch_w, .ZICBOP, [⟨.func5, .eq, .num 3⟩, ⟨.func3, .eq, .num 6⟩, ⟨.imm5, .eq, .num 0⟩, ⟨.op, .eq, .num 17⟩]⟩]

/-- `instruction group RiscVCZca` (riscv_zc.bin_fmt:24-50). -/
def g_riscv_zc_RiscVCZca : List Inst :=
  [⟨.caddi4spn, .CIW, [⟨.func3, .eq, .num 0⟩, ⟨.op, .eq, .num 0⟩, ⟨.imm8, .ne, .num 0⟩]⟩,
   ⟨.clw, .CL, [⟨.func3, .eq, .num 2⟩, ⟨.op, .eq, .num 0⟩]⟩,
   ⟨.csw, .CS, [⟨.func3, .eq, .num 6⟩, ⟨.op, .eq, .num 0⟩]⟩,
   ⟨.cnop, .CI, [⟨.func3, .eq, .num 0⟩, ⟨.imm1, .eq, .num 0⟩, ⟨.rs1, .eq, .num 0⟩, ⟨.imm5, .eq, .num 0⟩, ⟨.op, .eq, .num 1⟩]⟩,
   ⟨.caddi, .CI, [⟨.func3, .eq, .num 0⟩, ⟨.imm6, .ne, .num 0⟩, ⟨.rd, .ne, .num 0⟩, ⟨.op, .eq, .num 1⟩]⟩,
   ⟨.cjal, .CJ, [⟨.func3, .eq, .num 1⟩, ⟨.op, .eq, .num 1⟩]⟩,
   ⟨.cli, .CI, [⟨.func3, .eq, .num 2⟩, ⟨.rd, .ne, .num 0⟩, ⟨.op, .eq, .num 1⟩]⟩,
   ⟨.caddi16sp, .CI, [⟨.func3, .eq, .num 3⟩, ⟨.rd, .eq, .num 2⟩, ⟨.op, .eq, .num 1⟩]⟩,
   ⟨.clui, .CI, [⟨.func3, .eq, .num 3⟩, ⟨.rd, .ne, .num 0⟩, ⟨.rd, .ne, .num 2⟩, ⟨.op, .eq, .num 1⟩]⟩,
   ⟨.csrli, .CB, [⟨.func3, .eq, .num 4⟩, ⟨.imm3, .eq, .num 0⟩, ⟨.op, .eq, .num 1⟩]⟩,
   ⟨.csrai, .CB, [⟨.func3, .eq, .num 4⟩, ⟨.imm3, .eq, .num 1⟩, ⟨.op, .eq, .num 1⟩]⟩,
   ⟨.candi, .CB, [⟨.func3, .eq, .num 4⟩, ⟨.func2, .eq, .num 2⟩, ⟨.op, .eq, .num 1⟩]⟩,
   ⟨.csub, .CA, [⟨.func6, .eq, .num 35⟩, ⟨.func2, .eq, .num 0⟩, ⟨.op, .eq, .num 1⟩]⟩,
   ⟨.cxor, .CA, [⟨.func6, .eq, .num 35⟩, ⟨.func2, .eq, .num 1⟩, ⟨.op, .eq, .num 1⟩]⟩,
   ⟨.cor, .CA, [⟨.func6, .eq, .num 35⟩, ⟨.func2, .eq, .num 2⟩, ⟨.op, .eq, .num 1⟩]⟩,
   ⟨.cand, .CA, [⟨.func6, .eq, .num 35⟩, ⟨.func2, .eq, .num 3⟩, ⟨.op, .eq, .num 1⟩]⟩,
   ⟨.cj, .CJ, [⟨.func3, .eq, .num 5⟩, ⟨.op, .eq, .num 1⟩]⟩,
   ⟨.cbeqz, .CB, [⟨.func3, .eq, .num 6⟩, ⟨.op, .eq, .num 1⟩]⟩,
   ⟨.cbnez, .CB, [⟨.func3, .eq, .num 7⟩, ⟨.op, .eq, .num 1⟩]⟩,
   ⟨.cslli, .CI, [⟨.func3, .eq, .num 0⟩, ⟨.imm1, .eq, .num 0⟩, ⟨.rs1, .ne, .num 0⟩, ⟨.op, .eq, .num 2⟩]⟩,
   ⟨.clwsp, .CI, [⟨.func3, .eq, .num 2⟩, ⟨.rd, .ne, .num 0⟩, ⟨.op, .eq, .num 2⟩]⟩,
   ⟨.cjr, .CR, [⟨.func4, .eq, .num 8⟩, ⟨.rs1, .ne, .num 0⟩, ⟨.rs2, .eq, .num 0⟩, ⟨.op, .eq, .num 2⟩]⟩,
   ⟨.cmv, .CR, [⟨.func4, .eq, .num 8⟩, ⟨.rs1, .ne, .num 0⟩, ⟨.rs2, .ne, .num 0⟩, ⟨.op, .eq, .num 2⟩]⟩,
   ⟨.cebreak, .CR, [⟨.func4, .eq, .num 9⟩, ⟨.rs1, .eq, .num 0⟩, ⟨.rs2, .eq, .num 0⟩, ⟨.op, .eq, .num 2⟩]⟩,
   ⟨.cjalr, .CR, [⟨.func4, .eq, .num 9⟩, ⟨.rs1, .ne, .num 0⟩, ⟨.rs2, .eq, .num 0⟩, ⟨.op, .eq, .num 2⟩]⟩,
   ⟨.cadd, .CR, [⟨.func4, .eq, .num 9⟩, ⟨.rs1, .ne, .num 0⟩, ⟨.rs2, .ne, .num 0⟩, ⟨.op, .eq, .num 2⟩]⟩,
   ⟨.cswsp, .CSS, [⟨.func3, .eq, .num 6⟩, ⟨.op, .eq, .num 2⟩]⟩]

/-- `instruction group RiscVCZcf` (riscv_zc.bin_fmt:55-58). -/
def g_riscv_zc_RiscVCZcf : List Inst :=
  [⟨.cflw, .CL, [⟨.func3, .eq, .num 3⟩, ⟨.op, .eq, .num 0⟩]⟩,
   ⟨.cfsw, .CS, [⟨.func3, .eq, .num 7⟩, ⟨.op, .eq, .num 0⟩]⟩,
   ⟨.cflwsp, .CI, [⟨.func3, .eq, .num 3⟩, ⟨.op, .eq, .num 2⟩]⟩,
   ⟨.cfswsp, .CSS, [⟨.func3, .eq, .num 7⟩, ⟨.op, .eq, .num 2⟩]⟩]

/-- `instruction group RiscVCZcd` (riscv_zc.bin_fmt:63-66). -/
def g_riscv_zc_RiscVCZcd : List Inst :=
  [⟨.cfld, .CL, [⟨.func3, .eq, .num 1⟩, ⟨.op, .eq, .num 0⟩]⟩,
   ⟨.cfldsp, .CI, [⟨.func3, .eq, .num 1⟩, ⟨.op, .eq, .num 2⟩]⟩,
   ⟨.cfsd, .CS, [⟨.func3, .eq, .num 5⟩, ⟨.op, .eq, .num 0⟩]⟩,
   ⟨.cfsdsp, .CSS, [⟨.func3, .eq, .num 5⟩, ⟨.op, .eq, .num 2⟩]⟩]

/-- `instruction group RiscVCZcb32` (riscv_zc.bin_fmt:71-81). -/
def g_riscv_zc_RiscVCZcb32 : List Inst :=
  [⟨.c_lbu, .CLB, [⟨.func6, .eq, .num 32⟩, ⟨.op, .eq, .num 0⟩]⟩,
   ⟨.c_lhu, .CLH, [⟨.func6, .eq, .num 33⟩, ⟨.func1, .eq, .num 0⟩, ⟨.op, .eq, .num 0⟩]⟩,
   ⟨.c_lh, .CLH, [⟨.func6, .eq, .num 33⟩, ⟨.func1, .eq, .num 1⟩, ⟨.op, .eq, .num 0⟩]⟩,
   ⟨.c_sb, .CSB, [⟨.func6, .eq, .num 34⟩, ⟨.op, .eq, .num 0⟩]⟩,
   ⟨.c_sh, .CSH, [⟨.func6, .eq, .num 35⟩, ⟨.func1, .eq, .num 0⟩, ⟨.op, .eq, .num 0⟩]⟩,
   ⟨.c_zext_b, .CU, [⟨.func6, .eq, .num 39⟩, ⟨.func5, .eq, .num 24⟩, ⟨.op, .eq, .num 1⟩]⟩,
   ⟨.c_sext_b, .CU, [⟨.func6, .eq, .num 39⟩, ⟨.func5, .eq, .num 25⟩, ⟨.op, .eq, .num 1⟩]⟩,
   ⟨.c_zext_h, .CU, [⟨.func6, .eq, .num 39⟩, ⟨.func5, .eq, .num 26⟩, ⟨.op, .eq, .num 1⟩]⟩,
   ⟨.c_sext_h, .CU, [⟨.func6, .eq, .num 39⟩, ⟨.func5, .eq, .num 27⟩, ⟨.op, .eq, .num 1⟩]⟩,
   ⟨.c_not, .CU, [⟨.func6, .eq, .num 39⟩, ⟨.func5, .eq, .num 29⟩, ⟨.op, .eq, .num 1⟩]⟩,
   ⟨.c_mul, .CA, [⟨.func6, .eq, .num 39⟩, ⟨.func2, .eq, .num 2⟩, ⟨.op, .eq, .num 1⟩]⟩]

/-- `instruction group RiscV64Zcb64` (riscv_zc.bin_fmt:86-86). -/
def g_riscv_zc_RiscV64Zcb64 : List Inst :=
  [⟨.c_zext_w, .CU, [⟨.func6, .eq, .num 39⟩, ⟨.func5, .eq, .num 28⟩, ⟨.op, .eq, .num 1⟩]⟩]

/-- `instruction group RiscVCZcmp` (riscv_zc.bin_fmt:91-96). -/
def g_riscv_zc_RiscVCZcmp : List Inst :=
  [⟨.cm_push, .CMPP, [⟨.func8, .eq, .num 184⟩, ⟨.rlist, .gt, .num 3⟩, ⟨.op, .eq, .num 2⟩]⟩,
   ⟨.cm_pop, .CMPP, [⟨.func8, .eq, .num 186⟩, ⟨.rlist, .gt, .num 3⟩, ⟨.op, .eq, .num 2⟩]⟩,
   ⟨.cm_popret, .CMPP, [⟨.func8, .eq, .num 190⟩, ⟨.rlist, .gt, .num 3⟩, ⟨.op, .eq, .num 2⟩]⟩,
   ⟨.cm_popretz, .CMPP, [⟨.func8, .eq, .num 188⟩, ⟨.rlist, .gt, .num 3⟩, ⟨.op, .eq, .num 2⟩]⟩,
   ⟨.cm_mvsa01, .CMMV, [⟨.func6, .eq, .num 43⟩, ⟨.func2, .eq, .num 1⟩, ⟨.rs1p, .ne, .fld .rs2p⟩, ⟨.op, .eq, .num 2⟩]⟩,
   ⟨.cm_mva01s, .CMMV, [⟨.func6, .eq, .num 43⟩, ⟨.func2, .eq, .num 3⟩, ⟨.op, .eq, .num 2⟩]⟩]

/-- `instruction group RiscVCZcmt` (riscv_zc.bin_fmt:101-102). -/
def g_riscv_zc_RiscVCZcmt : List Inst :=
  [⟨.cm_jt, .CMJT, [⟨.func6, .eq, .num 40⟩, ⟨.index, .lt, .num 32⟩, ⟨.op, .eq, .num 2⟩]⟩,
   ⟨.cm_jalt, .CMJT, [⟨.func6, .eq, .num 40⟩, ⟨.index, .ge, .num 32⟩, ⟨.op, .eq, .num 2⟩]⟩]

end Verif.Decode
