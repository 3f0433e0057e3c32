/-!
# Names of instruction fields

The field and overlay names used in `riscv_format32.bin_fmt` and
`riscv_format16.bin_fmt`.  Written by `tools/gen_formats.py`.
-/

namespace Verif.BinFmt

/-- A field or overlay name (riscv_format32.bin_fmt:19-243,
riscv_format16.bin_fmt:20-240). -/
inductive Fld where
  | bits
  | opcode
  | func7
  | rs2
  | rs1
  | func3
  | rd
  | r_uimm5
  | func6
  | r_uimm6
  | rs3
  | func2
  | imm12
  | u_imm12
  | i_uimm5
  | imm7
  | imm5
  | s_imm
  | b_imm
  | imm20
  | u_imm
  | j_imm
  | fm
  | pred
  | succ
  | func5
  | aq
  | rl
  | func12
  | offset
  | op
  | bop_uimm12
  | func1
  | n_hi
  | n_mid
  | func4
  | n_lo
  | mop_no
  | func1h
  | func1l
  | nf
  | mew
  | mop
  | vm
  | width
  | vd
  | lumop
  | sumop
  | vs2
  | vs3
  | vs1
  | uimm5
  | uimm6
  | simm5
  | vd_mask
  | top12
  | zimm11
  | zimm10
  | imm6
  | css_imm_w
  | css_imm_d
  | imm3
  | rs1p
  | imm2
  | rdp
  | cl_rs1
  | cl_rd
  | cl_imm_w
  | cl_imm_d
  | rs2p
  | cs_rs1
  | cs_rs2
  | cs_imm_w
  | cs_imm_d
  | imm11
  | jimm
  | shamt
  | bimm
  | imm1
  | imm18
  | ci_imm10
  | ci_imm_w
  | ci_imm_d
  | imm8
  | ciw_imm10
  | fs2p
  | uimm2
  | uimm1
  | func8
  | rlist
  | spimm
  | index
  | num
  deriving DecidableEq, Repr

end Verif.BinFmt
