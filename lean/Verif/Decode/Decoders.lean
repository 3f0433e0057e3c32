import Verif.Decode.Groups

/-!
# The decoders

Which instruction groups each decoder tries on a word.  Written by
`tools/gen_decode.py`.
-/

namespace Verif.Decode

/-- The instruction groups used by decoders. -/
inductive Grp where
  | riscv32g_RiscVIInstBase32
  | riscv32g_RiscVIHints32
  | riscv32g_RiscVZifenceiInst32
  | riscv32g_RiscVZicsrInst32
  | riscv32g_RiscVMInst32
  | riscv32g_RiscVAInst32
  | riscv32g_RiscVFInst32
  | riscv32g_RiscVDInst32
  | riscv32g_RiscVPrivInst32
  | riscv32g_RiscVCInstBase16
  | riscv32g_RiscVCHints16
  | riscv32zb_RiscVZbaInst32
  | riscv32zb_RiscVZbbInst32
  | riscv32zb_RiscVZbbInst32Only
  | riscv32zb_RiscVZbbImmInst32
  | riscv32zb_RiscVZbcInst32
  | riscv32zb_RiscVZbsInst32
  | riscv32zb_RiscVZbsImmInst32
  | riscv_vector_RiscVVInst32
  | riscv64g_RiscVGInstBase32
  | riscv64g_RiscVGHints32
  | riscv64g_RiscVCInstBase16
  | riscv64g_RiscVCHints16
  | riscv64zb_RiscVZbaInst64
  | riscv64zb_RiscVZbbInst64
  | riscv64zb_RiscVZbsImmInst64
  | riscv_zfh32_RiscVZfh32Inst32
  | riscv_zfh64_RiscVZfh64Inst32
  | riscv_zvbb_RiscVZvkbInst32
  | riscv_zvbb_RiscVBasicBitInst32
  | riscv_zicond_RiscVZicond
  | riscv_zimop_RiscVZimop
  | riscv_zhintpause_RiscVZhintpause
  | riscv_zihintntl_RiscVZihintntl
  | riscv_zicbop_RiscVZicbop
  | riscv_zimop_RiscVZcmop
  | riscv_zihintntl_RiscVCZihintntl
  | riscv_zc_RiscVCZca
  | riscv_zc_RiscVCZcf
  | riscv_zc_RiscVCZcb32
  | riscv_zc_RiscVCZcmp
  | riscv_zc_RiscVCZcmt
  deriving DecidableEq, Repr

/-- The instructions of a group. -/
def Grp.insts : Grp → List Inst
  | .riscv32g_RiscVIInstBase32 => g_riscv32g_RiscVIInstBase32
  | .riscv32g_RiscVIHints32 => g_riscv32g_RiscVIHints32
  | .riscv32g_RiscVZifenceiInst32 => g_riscv32g_RiscVZifenceiInst32
  | .riscv32g_RiscVZicsrInst32 => g_riscv32g_RiscVZicsrInst32
  | .riscv32g_RiscVMInst32 => g_riscv32g_RiscVMInst32
  | .riscv32g_RiscVAInst32 => g_riscv32g_RiscVAInst32
  | .riscv32g_RiscVFInst32 => g_riscv32g_RiscVFInst32
  | .riscv32g_RiscVDInst32 => g_riscv32g_RiscVDInst32
  | .riscv32g_RiscVPrivInst32 => g_riscv32g_RiscVPrivInst32
  | .riscv32g_RiscVCInstBase16 => g_riscv32g_RiscVCInstBase16
  | .riscv32g_RiscVCHints16 => g_riscv32g_RiscVCHints16
  | .riscv32zb_RiscVZbaInst32 => g_riscv32zb_RiscVZbaInst32
  | .riscv32zb_RiscVZbbInst32 => g_riscv32zb_RiscVZbbInst32
  | .riscv32zb_RiscVZbbInst32Only => g_riscv32zb_RiscVZbbInst32Only
  | .riscv32zb_RiscVZbbImmInst32 => g_riscv32zb_RiscVZbbImmInst32
  | .riscv32zb_RiscVZbcInst32 => g_riscv32zb_RiscVZbcInst32
  | .riscv32zb_RiscVZbsInst32 => g_riscv32zb_RiscVZbsInst32
  | .riscv32zb_RiscVZbsImmInst32 => g_riscv32zb_RiscVZbsImmInst32
  | .riscv_vector_RiscVVInst32 => g_riscv_vector_RiscVVInst32
  | .riscv64g_RiscVGInstBase32 => g_riscv64g_RiscVGInstBase32
  | .riscv64g_RiscVGHints32 => g_riscv64g_RiscVGHints32
  | .riscv64g_RiscVCInstBase16 => g_riscv64g_RiscVCInstBase16
  | .riscv64g_RiscVCHints16 => g_riscv64g_RiscVCHints16
  | .riscv64zb_RiscVZbaInst64 => g_riscv64zb_RiscVZbaInst64
  | .riscv64zb_RiscVZbbInst64 => g_riscv64zb_RiscVZbbInst64
  | .riscv64zb_RiscVZbsImmInst64 => g_riscv64zb_RiscVZbsImmInst64
  | .riscv_zfh32_RiscVZfh32Inst32 => g_riscv_zfh32_RiscVZfh32Inst32
  | .riscv_zfh64_RiscVZfh64Inst32 => g_riscv_zfh64_RiscVZfh64Inst32
  | .riscv_zvbb_RiscVZvkbInst32 => g_riscv_zvbb_RiscVZvkbInst32
  | .riscv_zvbb_RiscVBasicBitInst32 => g_riscv_zvbb_RiscVBasicBitInst32
  | .riscv_zicond_RiscVZicond => g_riscv_zicond_RiscVZicond
  | .riscv_zimop_RiscVZimop => g_riscv_zimop_RiscVZimop
  | .riscv_zhintpause_RiscVZhintpause => g_riscv_zhintpause_RiscVZhintpause
  | .riscv_zihintntl_RiscVZihintntl => g_riscv_zihintntl_RiscVZihintntl
  | .riscv_zicbop_RiscVZicbop => g_riscv_zicbop_RiscVZicbop
  | .riscv_zimop_RiscVZcmop => g_riscv_zimop_RiscVZcmop
  | .riscv_zihintntl_RiscVCZihintntl => g_riscv_zihintntl_RiscVCZihintntl
  | .riscv_zc_RiscVCZca => g_riscv_zc_RiscVCZca
  | .riscv_zc_RiscVCZcf => g_riscv_zc_RiscVCZcf
  | .riscv_zc_RiscVCZcb32 => g_riscv_zc_RiscVCZcb32
  | .riscv_zc_RiscVCZcmp => g_riscv_zc_RiscVCZcmp
  | .riscv_zc_RiscVCZcmt => g_riscv_zc_RiscVCZcmt

/-- The decoders: the instruction set and the length of the word. -/
inductive Decoder where
  | rv32g_32
  | rv32g_16
  | rv32gzb_32
  | rv32gzb_16
  | rv32gv_32
  | rv32gv_16
  | rv32gvzb_32
  | rv32gvzb_16
  | rv64g_32
  | rv64g_16
  | rv64gzb_32
  | rv64gzb_16
  | rv64gv_32
  | rv64gv_16
  | rv64gvzb_32
  | rv64gvzb_16
  | zfh32_32
  | zfh64_32
  | zvbb_32
  | rvm23_32
  | rvm23_16
  deriving DecidableEq, Repr

/-- Every decoder. -/
def Decoder.all : List Decoder :=
  [.rv32g_32, .rv32g_16, .rv32gzb_32, .rv32gzb_16, .rv32gv_32, .rv32gv_16,
   .rv32gvzb_32, .rv32gvzb_16, .rv64g_32, .rv64g_16, .rv64gzb_32, .rv64gzb_16,
   .rv64gv_32, .rv64gv_16, .rv64gvzb_32, .rv64gvzb_16, .zfh32_32, .zfh64_32,
   .zvbb_32, .rvm23_32, .rvm23_16]

/-- The length of the words a decoder looks at. -/
def Decoder.width : Decoder → Nat
  | .rv32g_32 => 32
  | .rv32g_16 => 16
  | .rv32gzb_32 => 32
  | .rv32gzb_16 => 16
  | .rv32gv_32 => 32
  | .rv32gv_16 => 16
  | .rv32gvzb_32 => 32
  | .rv32gvzb_16 => 16
  | .rv64g_32 => 32
  | .rv64g_16 => 16
  | .rv64gzb_32 => 32
  | .rv64gzb_16 => 16
  | .rv64gv_32 => 32
  | .rv64gv_16 => 16
  | .rv64gvzb_32 => 32
  | .rv64gvzb_16 => 16
  | .zfh32_32 => 32
  | .zfh64_32 => 32
  | .zvbb_32 => 32
  | .rvm23_32 => 32
  | .rvm23_16 => 16

/-- The instruction groups of a decoder. -/
def Decoder.groups : Decoder → List Grp
  -- decoder RiscV32G, group RiscVGInst32 (riscv32g.bin_fmt)
  | .rv32g_32 =>
    [.riscv32g_RiscVIInstBase32, .riscv32g_RiscVIHints32, .riscv32g_RiscVZifenceiInst32,
     .riscv32g_RiscVZicsrInst32, .riscv32g_RiscVMInst32, .riscv32g_RiscVAInst32,
     .riscv32g_RiscVFInst32, .riscv32g_RiscVDInst32, .riscv32g_RiscVPrivInst32]
  -- decoder RiscV32G, group RiscVCInst16 (riscv32g.bin_fmt)
  | .rv32g_16 =>
    [.riscv32g_RiscVCInstBase16, .riscv32g_RiscVCHints16]
  -- decoder RiscV32GZB, group RiscV32GZBInst32 (riscv32gzb.bin_fmt)
  | .rv32gzb_32 =>
    [.riscv32g_RiscVIInstBase32, .riscv32g_RiscVIHints32, .riscv32g_RiscVZifenceiInst32,
     .riscv32g_RiscVZicsrInst32, .riscv32g_RiscVMInst32, .riscv32g_RiscVAInst32,
     .riscv32g_RiscVFInst32, .riscv32g_RiscVDInst32, .riscv32g_RiscVPrivInst32,
     .riscv32zb_RiscVZbaInst32, .riscv32zb_RiscVZbbInst32, .riscv32zb_RiscVZbbInst32Only,
     .riscv32zb_RiscVZbbImmInst32, .riscv32zb_RiscVZbcInst32, .riscv32zb_RiscVZbsInst32,
     .riscv32zb_RiscVZbsImmInst32]
  -- decoder RiscV32GZB, group RiscV32GZBInst16 (riscv32gzb.bin_fmt)
  | .rv32gzb_16 =>
    [.riscv32g_RiscVCInstBase16, .riscv32g_RiscVCHints16]
  -- decoder RiscV32GV, group RiscV32GV (riscv32v.bin_fmt)
  | .rv32gv_32 =>
    [.riscv32g_RiscVIInstBase32, .riscv32g_RiscVIHints32, .riscv32g_RiscVZifenceiInst32,
     .riscv32g_RiscVZicsrInst32, .riscv32g_RiscVMInst32, .riscv32g_RiscVAInst32,
     .riscv32g_RiscVFInst32, .riscv32g_RiscVDInst32, .riscv32g_RiscVPrivInst32,
     .riscv_vector_RiscVVInst32]
  -- decoder RiscV32GV, group RiscVCInst16 (riscv32v.bin_fmt)
  | .rv32gv_16 =>
    [.riscv32g_RiscVCInstBase16, .riscv32g_RiscVCHints16]
  -- decoder RiscV32GVZB, group RiscV32GVZB (riscv32v.bin_fmt)
  | .rv32gvzb_32 =>
    [.riscv32g_RiscVIInstBase32, .riscv32g_RiscVIHints32, .riscv32g_RiscVZifenceiInst32,
     .riscv32g_RiscVZicsrInst32, .riscv32g_RiscVMInst32, .riscv32g_RiscVAInst32,
     .riscv32g_RiscVFInst32, .riscv32g_RiscVDInst32, .riscv32g_RiscVPrivInst32,
     .riscv_vector_RiscVVInst32, .riscv32zb_RiscVZbaInst32, .riscv32zb_RiscVZbbInst32,
     .riscv32zb_RiscVZbcInst32, .riscv32zb_RiscVZbsInst32]
  -- decoder RiscV32GVZB, group RiscVCInst16 (riscv32v.bin_fmt)
  | .rv32gvzb_16 =>
    [.riscv32g_RiscVCInstBase16, .riscv32g_RiscVCHints16]
  -- decoder RiscV64G, group RiscVGInst32 (riscv64g.bin_fmt)
  | .rv64g_32 =>
    [.riscv64g_RiscVGInstBase32, .riscv64g_RiscVGHints32]
  -- decoder RiscV64G, group RiscVCInst16 (riscv64g.bin_fmt)
  | .rv64g_16 =>
    [.riscv64g_RiscVCInstBase16, .riscv64g_RiscVCHints16]
  -- decoder RiscV64GZB, group RiscV64GZBInst32 (riscv64gzb.bin_fmt)
  | .rv64gzb_32 =>
    [.riscv64g_RiscVGInstBase32, .riscv64g_RiscVGHints32, .riscv32zb_RiscVZbaInst32,
     .riscv64zb_RiscVZbaInst64, .riscv32zb_RiscVZbbInst32, .riscv64zb_RiscVZbbInst64,
     .riscv32zb_RiscVZbcInst32, .riscv32zb_RiscVZbsInst32, .riscv64zb_RiscVZbsImmInst64]
  -- decoder RiscV64GZB, group RiscV64GZBInst16 (riscv64gzb.bin_fmt)
  | .rv64gzb_16 =>
    [.riscv64g_RiscVCInstBase16, .riscv64g_RiscVCHints16]
  -- decoder RiscV64GV, group RiscV64GVInst32 (riscv64v.bin_fmt)
  | .rv64gv_32 =>
    [.riscv64g_RiscVGInstBase32, .riscv64g_RiscVGHints32, .riscv_vector_RiscVVInst32]
  -- decoder RiscV64GV, group RiscVCInst16 (riscv64v.bin_fmt)
  | .rv64gv_16 =>
    [.riscv64g_RiscVCInstBase16, .riscv64g_RiscVCHints16]
  -- decoder RiscV64GVZB, group RiscV64GVZBInst32 (riscv64v.bin_fmt)
  | .rv64gvzb_32 =>
    [.riscv64g_RiscVGInstBase32, .riscv64g_RiscVGHints32, .riscv_vector_RiscVVInst32,
     .riscv32zb_RiscVZbaInst32, .riscv64zb_RiscVZbaInst64, .riscv32zb_RiscVZbbInst32,
     .riscv64zb_RiscVZbbInst64, .riscv32zb_RiscVZbcInst32, .riscv32zb_RiscVZbsInst32,
     .riscv64zb_RiscVZbsImmInst64]
  -- decoder RiscV64GVZB, group RiscVCInst16 (riscv64v.bin_fmt)
  | .rv64gvzb_16 =>
    [.riscv64g_RiscVCInstBase16, .riscv64g_RiscVCHints16]
  -- decoder ZFH, group RiscVZfhInst32 (riscv_zfh32.bin_fmt)
  | .zfh32_32 =>
    [.riscv_zfh32_RiscVZfh32Inst32]
  -- decoder ZFH, group RiscVZfhInst32 (riscv_zfh64.bin_fmt)
  | .zfh64_32 =>
    [.riscv_zfh64_RiscVZfh64Inst32]
  -- decoder ZVBB, group RiscVZvbbInst32 (riscv_zvbb.bin_fmt)
  | .zvbb_32 =>
    [.riscv_zvbb_RiscVZvkbInst32, .riscv_zvbb_RiscVBasicBitInst32]
  -- decoder RVM23, group RVM23Inst32 (rvm23.bin_fmt)
  | .rvm23_32 =>
    [.riscv32g_RiscVIInstBase32, .riscv32g_RiscVIHints32, .riscv32g_RiscVZifenceiInst32,
     .riscv32g_RiscVZicsrInst32, .riscv32g_RiscVMInst32, .riscv32g_RiscVAInst32,
     .riscv32g_RiscVFInst32, .riscv32g_RiscVDInst32, .riscv32g_RiscVPrivInst32,
     .riscv32zb_RiscVZbaInst32, .riscv32zb_RiscVZbbInst32, .riscv32zb_RiscVZbcInst32,
     .riscv32zb_RiscVZbsInst32, .riscv_zicond_RiscVZicond, .riscv_zimop_RiscVZimop,
     .riscv_zhintpause_RiscVZhintpause, .riscv_zihintntl_RiscVZihintntl, .riscv_zicbop_RiscVZicbop]
  -- decoder RVM23, group RVM23Inst16 (rvm23.bin_fmt)
  | .rvm23_16 =>
    [.riscv_zimop_RiscVZcmop, .riscv_zihintntl_RiscVCZihintntl, .riscv_zc_RiscVCZca,
     .riscv_zc_RiscVCZcf, .riscv_zc_RiscVCZcb32, .riscv_zc_RiscVCZcmp,
     .riscv_zc_RiscVCZcmt]

/-- The instructions a decoder knows. -/
def Decoder.insts (d : Decoder) : List Inst := d.groups.flatMap Grp.insts

end Verif.Decode
