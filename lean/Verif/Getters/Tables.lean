import Verif.BinFmt.Formats

/-!
# Operand getters

What the operand getters of each encoding class make an operand from.  Written
by `tools/gen_getters.py` from the encoding classes and `riscv_getters*.h`.
-/

namespace Verif.Getters

open BinFmt

/-- Operand names of the instruction descriptions. -/
inductive Opd where
  | AAq
  | ARl
  | BImm12
  | C3drd
  | C3drs2
  | C3frd
  | C3frs2
  | C3rd
  | C3rs1
  | C3rs2
  | CSRUimm5
  | Cdrs2
  | Cfrs2
  | Const1
  | Const2
  | Const3
  | Const4
  | Const8
  | Crd
  | Crs1
  | Crs2
  | Csr
  | Drd
  | Drs1
  | Drs2
  | Drs3
  | Fd
  | Fflags
  | Frd
  | Frs1
  | Frs2
  | Frs3
  | Fs1
  | ICbImm8
  | ICiImm6
  | ICiImm612
  | ICiImm6x16
  | ICiUimm6
  | ICiUimm6x4
  | ICiUimm6x8
  | ICiwUimm8x4
  | ICjImm11
  | IClUimm5x4
  | IClUimm5x8
  | ICssUimm6x4
  | ICssUimm6x8
  | IImm12
  | IUimm5
  | IUimm6
  | JImm12
  | JImm20
  | NextPc
  | Nf
  | Pred
  | RUimm5
  | RUimm6
  | Rd
  | Rlist
  | Rm
  | Rs1
  | Rs2
  | SImm12
  | Simm5
  | Spimm
  | Sreg1
  | Sreg2
  | Succ
  | UImm20
  | Uimm2b
  | Uimm2h
  | Uimm5
  | Uimm6
  | Vd
  | Vm
  | Vmask
  | VmaskTrue
  | Vs1
  | Vs2
  | Vs3
  | X0
  | X1
  | X10
  | X11
  | X2
  | Zimm10
  | Zimm11
  deriving DecidableEq, Repr

/-- Encoding classes, and the collection of getters for the `Zc` extensions
(riscv_zc_getters.h), which no encoding class of the repository uses yet. -/
inductive Enc where
  | rv32g
  | rv64g
  | rv32gv
  | rv64gv
  | rv32gzb
  | rv64gzb
  | rv32gvzb
  | rv64gvzb
  | zvbb
  | zc
  deriving DecidableEq, Repr

/-- The body of an operand getter. -/
inductive What where
  /-- `ImmediateOperand<int32_t>` (`true`) or an unsigned one of a field; also a
  choice between literal operands by the value of a field -/
  | imm (signed : Bool) (fmt : Fmt) (fld : Fld)
  /-- integer register; with `zero`, register 0 becomes the literal 0 as a
  source and the discarding register as a destination -/
  | xreg (zero : Bool) (fmt : Fmt) (fld : Fld)
  /-- floating-point register -/
  | freg (fmt : Fmt) (fld : Fld)
  /-- vector register group -/
  | vgroup (fmt : Fmt) (fld : Fld)
  /-- one vector register -/
  | vsingle (fmt : Fmt) (fld : Fld)
  /-- all true when the field is 1, otherwise vector register 0 -/
  | mask (fmt : Fmt) (fld : Fld)
  /-- integer register numbered through `kSRegToXRegMap` -/
  | sreg (fmt : Fmt) (fld : Fld)
  /-- a literal -/
  | const (n : Nat)
  /-- a fixed integer register -/
  | xfixed (n : Nat)
  | allTrue
  | discard
  | pc
  | csr
  | flags
  /-- returns a null pointer -/
  | null
  /-- calls an extractor that the formats do not define -/
  | missing
  deriving DecidableEq, Repr

/-- Source getters of `RiscV32GEncoding` (riscv32g_encoding.cc:100-389). -/
def source_rv32g : Opd → Option What
  | .AAq => some (.imm false .AType .aq)
  | .ARl => some (.imm false .AType .rl)
  | .BImm12 => some (.imm true .BType .b_imm)
  | .C3drs2 => some (.freg .CS .cs_rs2)
  | .C3frs2 => some (.freg .CS .cs_rs2)
  | .C3rs1 => some (.xreg false .CS .cs_rs1)
  | .C3rs2 => some (.xreg false .CS .cs_rs2)
  | .CSRUimm5 => some (.imm false .IType .i_uimm5)
  | .Cdrs2 => some (.freg .CR .rs2)
  | .Cfrs2 => some (.freg .CR .rs2)
  | .Crs1 => some (.xreg false .CR .rs1)
  | .Crs2 => some (.xreg false .CR .rs2)
  | .Csr => some (.imm false .IType .u_imm12)
  | .Drs1 => some (.freg .RType .rs1)
  | .Drs2 => some (.freg .RType .rs2)
  | .Drs3 => some (.freg .R4Type .rs3)
  | .Frs1 => some (.freg .RType .rs1)
  | .Frs2 => some (.freg .RType .rs2)
  | .Frs3 => some (.freg .R4Type .rs3)
  | .ICbImm8 => some (.imm true .CB .bimm)
  | .ICiImm6 => some (.imm true .CI .imm6)
  | .ICiImm612 => some (.imm true .CI .imm18)
  | .ICiImm6x16 => some (.imm true .CI .ci_imm10)
  | .ICiUimm6 => some (.imm false .CI .uimm6)
  | .ICiUimm6x4 => some (.imm false .CI .ci_imm_w)
  | .ICiUimm6x8 => some (.imm false .CI .ci_imm_d)
  | .ICiwUimm8x4 => some (.imm false .CIW .ciw_imm10)
  | .ICjImm11 => some (.imm true .CJ .jimm)
  | .IClUimm5x4 => some (.imm false .CL .cl_imm_w)
  | .IClUimm5x8 => some (.imm false .CL .cl_imm_d)
  | .ICssUimm6x4 => some (.imm false .CSS .css_imm_w)
  | .ICssUimm6x8 => some (.imm false .CSS .css_imm_d)
  | .IImm12 => some (.imm true .IType .imm12)
  | .IUimm5 => some (.imm false .RType .r_uimm5)
  | .JImm12 => some (.imm true .IType .imm12)
  | .JImm20 => some (.imm true .JType .j_imm)
  | .Pred => some (.imm false .Fence .pred)
  | .Rd => some (.xreg true .RType .rd)
  | .Rm => some (.imm false .RType .func3)
  | .Rs1 => some (.xreg true .RType .rs1)
  | .Rs2 => some (.xreg true .RType .rs2)
  | .SImm12 => some (.imm true .SType .s_imm)
  | .Succ => some (.imm false .Fence .succ)
  | .UImm20 => some (.imm true .UType .u_imm)
  | .X0 => some (.const 0)
  | .X2 => some (.xfixed 2)
  | _ => none

/-- Source getters of `RiscV64GEncoding` (riscv64g_encoding.cc:109-430). -/
def source_rv64g : Opd → Option What
  | .AAq => some (.imm false .AType .aq)
  | .ARl => some (.imm false .AType .rl)
  | .IUimm6 => some (.imm false .RSType .r_uimm6)
  | .BImm12 => some (.imm true .BType .b_imm)
  | .C3drs2 => some (.freg .CS .cs_rs2)
  | .C3rs1 => some (.xreg false .CS .cs_rs1)
  | .C3rs2 => some (.xreg false .CS .cs_rs2)
  | .CSRUimm5 => some (.imm false .IType .i_uimm5)
  | .Cdrs2 => some (.freg .CR .rs2)
  | .Crs1 => some (.xreg false .CR .rs1)
  | .Crs2 => some (.xreg false .CR .rs2)
  | .Csr => some (.imm false .IType .u_imm12)
  | .Drs1 => some (.freg .RType .rs1)
  | .Drs2 => some (.freg .RType .rs2)
  | .Drs3 => some (.freg .R4Type .rs3)
  | .Frs1 => some (.freg .RType .rs1)
  | .Frs2 => some (.freg .RType .rs2)
  | .Frs3 => some (.freg .R4Type .rs3)
  | .ICbImm8 => some (.imm true .CB .bimm)
  | .ICiImm6 => some (.imm true .CI .imm6)
  | .ICiImm612 => some (.imm true .CI .imm18)
  | .ICiUimm6 => some (.imm false .CI .uimm6)
  | .ICiUimm6x4 => some (.imm false .CI .ci_imm_w)
  | .ICiUimm6x8 => some (.imm false .CI .ci_imm_d)
  | .ICiImm6x16 => some (.imm true .CI .ci_imm10)
  | .ICiwUimm8x4 => some (.imm false .CIW .ciw_imm10)
  | .ICjImm11 => some (.imm true .CJ .jimm)
  | .IClUimm5x4 => some (.imm false .CL .cl_imm_w)
  | .IClUimm5x8 => some (.imm false .CL .cl_imm_d)
  | .ICssUimm6x4 => some (.imm false .CSS .css_imm_w)
  | .ICssUimm6x8 => some (.imm false .CSS .css_imm_d)
  | .IImm12 => some (.imm true .IType .imm12)
  | .IUimm5 => some (.imm false .RType .r_uimm5)
  | .JImm12 => some (.imm true .IType .imm12)
  | .JImm20 => some (.imm true .JType .j_imm)
  | .Pred => some (.imm false .Fence .pred)
  | .Rm => some (.imm false .RType .func3)
  | .Rd => some (.xreg true .RType .rd)
  | .Rs1 => some (.xreg true .RType .rs1)
  | .Rs2 => some (.xreg true .RType .rs2)
  | .SImm12 => some (.imm true .SType .s_imm)
  | .Succ => some (.imm false .Fence .succ)
  | .UImm20 => some (.imm true .UType .u_imm)
  | .X0 => some (.const 0)
  | .X2 => some (.xfixed 2)
  | _ => none

/-- Source getters of `RiscV32GVecEncoding` (riscv32g_vec_encoding.cc:173-573). -/
def source_rv32gv : Opd → Option What
  | .AAq => some (.imm false .AType .aq)
  | .ARl => some (.imm false .AType .rl)
  | .BImm12 => some (.imm true .BType .b_imm)
  | .C3drs2 => some (.freg .CS .cs_rs2)
  | .C3frs2 => some (.freg .CS .cs_rs2)
  | .C3rs1 => some (.xreg false .CS .cs_rs1)
  | .C3rs2 => some (.xreg false .CS .cs_rs2)
  | .CSRUimm5 => some (.imm false .IType .i_uimm5)
  | .Cdrs2 => some (.freg .CR .rs2)
  | .Cfrs2 => some (.freg .CR .rs2)
  | .Crs1 => some (.xreg false .CR .rs1)
  | .Crs2 => some (.xreg false .CR .rs2)
  | .Csr => some (.imm false .IType .u_imm12)
  | .Drs1 => some (.freg .RType .rs1)
  | .Drs2 => some (.freg .RType .rs2)
  | .Drs3 => some (.freg .R4Type .rs3)
  | .Frs1 => some (.freg .RType .rs1)
  | .Frs2 => some (.freg .RType .rs2)
  | .Frs3 => some (.freg .R4Type .rs3)
  | .Fs1 => some (.freg .VArith .rs1)
  | .ICbImm8 => some (.imm true .CB .bimm)
  | .ICiImm6 => some (.imm true .CI .imm6)
  | .ICiImm612 => some (.imm true .CI .imm18)
  | .ICiUimm6 => some (.imm false .CI .uimm6)
  | .ICiUimm6x4 => some (.imm false .CI .ci_imm_w)
  | .ICiUimm6x8 => some (.imm false .CI .ci_imm_d)
  | .ICiImm6x16 => some (.imm true .CI .ci_imm10)
  | .ICiwUimm8x4 => some (.imm false .CIW .ciw_imm10)
  | .ICjImm11 => some (.imm true .CJ .jimm)
  | .IClUimm5x4 => some (.imm false .CL .cl_imm_w)
  | .IClUimm5x8 => some (.imm false .CL .cl_imm_d)
  | .ICssUimm6x4 => some (.imm false .CSS .css_imm_w)
  | .ICssUimm6x8 => some (.imm false .CSS .css_imm_d)
  | .IImm12 => some (.imm true .IType .imm12)
  | .IUimm5 => some (.imm false .RType .r_uimm5)
  | .JImm12 => some (.imm true .IType .imm12)
  | .JImm20 => some (.imm true .JType .j_imm)
  | .Pred => some (.imm false .Fence .pred)
  | .Rm => some (.imm false .RType .func3)
  | .Rd => some (.xreg true .RType .rd)
  | .Rs1 => some (.xreg true .RType .rs1)
  | .Rs2 => some (.xreg true .RType .rs2)
  | .SImm12 => some (.imm true .SType .s_imm)
  | .Succ => some (.imm false .Fence .succ)
  | .UImm20 => some (.imm true .UType .u_imm)
  | .Vm => some (.imm false .VArith .vm)
  | .X0 => some (.const 0)
  | .X2 => some (.xfixed 2)
  | .Vd => some (.vgroup .VArith .vd)
  | .Vmask => some (.mask .VArith .vm)
  | .VmaskTrue => some (.allTrue)
  | .Vs1 => some (.vgroup .VArith .vs1)
  | .Vs2 => some (.vgroup .VArith .vs2)
  | .Vs3 => some (.vgroup .VMem .vs3)
  | .Simm5 => some (.imm true .VArith .simm5)
  | .Uimm5 => some (.imm true .VArith .uimm5)
  | .Zimm10 => some (.imm true .VConfig .zimm10)
  | .Zimm11 => some (.imm true .VConfig .zimm11)
  | .Const1 => some (.const 1)
  | .Const2 => some (.const 2)
  | .Const4 => some (.const 4)
  | .Const8 => some (.const 8)
  | .Nf => some (.imm false .VMem .nf)
  | _ => none

/-- Source getters of `RiscV64GVecEncoding` (riscv64g_vec_encoding.cc:202-743). -/
def source_rv64gv : Opd → Option What
  | .AAq => some (.imm false .AType .aq)
  | .ARl => some (.imm false .AType .rl)
  | .IUimm6 => some (.imm false .RSType .r_uimm6)
  | .BImm12 => some (.imm true .BType .b_imm)
  | .C3drs2 => some (.freg .CS .cs_rs2)
  | .C3rs1 => some (.xreg false .CS .cs_rs1)
  | .C3rs2 => some (.xreg false .CS .cs_rs2)
  | .CSRUimm5 => some (.imm false .IType .i_uimm5)
  | .Cdrs2 => some (.freg .CR .rs2)
  | .Crs1 => some (.xreg false .CR .rs1)
  | .Crs2 => some (.xreg false .CR .rs2)
  | .Csr => some (.imm false .IType .u_imm12)
  | .Drs1 => some (.freg .RType .rs1)
  | .Drs2 => some (.freg .RType .rs2)
  | .Drs3 => some (.freg .R4Type .rs3)
  | .Frs1 => some (.freg .RType .rs1)
  | .Frs2 => some (.freg .RType .rs2)
  | .Frs3 => some (.freg .R4Type .rs3)
  | .ICbImm8 => some (.imm true .CB .bimm)
  | .ICiImm6 => some (.imm true .CI .imm6)
  | .ICiImm612 => some (.imm true .CI .imm18)
  | .ICiUimm6 => some (.imm false .CI .uimm6)
  | .ICiUimm6x4 => some (.imm false .CI .ci_imm_w)
  | .ICiUimm6x8 => some (.imm false .CI .ci_imm_d)
  | .ICiImm6x16 => some (.imm true .CI .ci_imm10)
  | .ICiwUimm8x4 => some (.imm false .CIW .ciw_imm10)
  | .ICjImm11 => some (.imm true .CJ .jimm)
  | .IClUimm5x4 => some (.imm false .CL .cl_imm_w)
  | .IClUimm5x8 => some (.imm false .CL .cl_imm_d)
  | .ICssUimm6x4 => some (.imm false .CSS .css_imm_w)
  | .ICssUimm6x8 => some (.imm false .CSS .css_imm_d)
  | .IImm12 => some (.imm true .IType .imm12)
  | .IUimm5 => some (.imm false .RType .r_uimm5)
  | .JImm12 => some (.imm true .IType .imm12)
  | .JImm20 => some (.imm true .JType .j_imm)
  | .Pred => some (.imm false .Fence .pred)
  | .Rm => some (.imm false .RType .func3)
  | .Rd => some (.xreg true .RType .rd)
  | .Rs1 => some (.xreg true .RType .rs1)
  | .Rs2 => some (.xreg true .RType .rs2)
  | .SImm12 => some (.imm true .SType .s_imm)
  | .Succ => some (.imm false .Fence .succ)
  | .UImm20 => some (.imm true .UType .u_imm)
  | .X0 => some (.const 0)
  | .X2 => some (.xfixed 2)
  | .Fs1 => some (.freg .VArith .rs1)
  | .Vd => some (.vgroup .VArith .vd)
  | .Vmask => some (.mask .VArith .vm)
  | .VmaskTrue => some (.allTrue)
  | .Vm => some (.imm false .VArith .vm)
  | .Vs1 => some (.vgroup .VArith .vs1)
  | .Vs2 => some (.vgroup .VArith .vs2)
  | .Vs3 => some (.vgroup .VMem .vs3)
  | .Simm5 => some (.imm true .VArith .simm5)
  | .Uimm5 => some (.imm true .VArith .uimm5)
  | .Zimm10 => some (.imm true .VConfig .zimm10)
  | .Zimm11 => some (.imm true .VConfig .zimm11)
  | .Const1 => some (.const 1)
  | .Const2 => some (.const 2)
  | .Const4 => some (.const 4)
  | .Const8 => some (.const 8)
  | .Nf => some (.imm false .VMem .nf)
  | _ => none

/-- Source getters of `RiscV32GZBEncoding` (riscv_getters.h:59-294, riscv_getters_rv32.h:56-67, riscv_getters_zba.h:40-45, riscv_getters_zbb32.h:42-45). -/
def source_rv32gzb : Opd → Option What
  | .AAq => some (.imm false .AType .aq)
  | .ARl => some (.imm false .AType .rl)
  | .BImm12 => some (.imm true .BType .b_imm)
  | .C3drs2 => some (.freg .CS .cs_rs2)
  | .C3rs1 => some (.xreg false .CS .cs_rs1)
  | .C3rs2 => some (.xreg false .CS .cs_rs2)
  | .CSRUimm5 => some (.imm false .IType .i_uimm5)
  | .Cdrs2 => some (.freg .CR .rs2)
  | .Crs1 => some (.xreg false .CR .rs1)
  | .Crs2 => some (.xreg false .CR .rs2)
  | .Csr => some (.imm false .IType .u_imm12)
  | .Drs1 => some (.freg .RType .rs1)
  | .Drs2 => some (.freg .RType .rs2)
  | .Drs3 => some (.freg .R4Type .rs3)
  | .Frs1 => some (.freg .RType .rs1)
  | .Frs2 => some (.freg .RType .rs2)
  | .Frs3 => some (.freg .R4Type .rs3)
  | .ICbImm8 => some (.imm true .CB .bimm)
  | .ICiImm6 => some (.imm true .CI .imm6)
  | .ICiImm612 => some (.imm true .CI .imm18)
  | .ICiImm6x16 => some (.imm true .CI .ci_imm10)
  | .ICiUimm6 => some (.imm false .CI .uimm6)
  | .ICiUimm6x4 => some (.imm false .CI .ci_imm_w)
  | .ICiUimm6x8 => some (.imm false .CI .ci_imm_d)
  | .ICiwUimm8x4 => some (.imm false .CIW .ciw_imm10)
  | .ICjImm11 => some (.imm true .CJ .jimm)
  | .IClUimm5x4 => some (.imm false .CL .cl_imm_w)
  | .IClUimm5x8 => some (.imm false .CL .cl_imm_d)
  | .ICssUimm6x4 => some (.imm false .CSS .css_imm_w)
  | .ICssUimm6x8 => some (.imm false .CSS .css_imm_d)
  | .IImm12 => some (.imm true .IType .imm12)
  | .IUimm5 => some (.imm false .RType .r_uimm5)
  | .JImm12 => some (.imm true .IType .imm12)
  | .JImm20 => some (.imm true .JType .j_imm)
  | .Pred => some (.imm false .Fence .pred)
  | .Rd => some (.xreg true .RType .rd)
  | .Rm => some (.imm false .RType .func3)
  | .Rs1 => some (.xreg true .RType .rs1)
  | .Rs2 => some (.xreg true .RType .rs2)
  | .SImm12 => some (.imm true .SType .s_imm)
  | .Succ => some (.imm false .Fence .succ)
  | .UImm20 => some (.imm true .UType .u_imm)
  | .X0 => some (.const 0)
  | .X2 => some (.xfixed 2)
  | .C3frs2 => some (.freg .CS .cs_rs2)
  | .Cfrs2 => some (.freg .CR .rs2)
  | .Const1 => some (.const 1)
  | .Const2 => some (.const 2)
  | .Const3 => some (.const 3)
  | .RUimm5 => some (.imm false .RType .r_uimm5)
  | _ => none

/-- Source getters of `RiscV64GZBEncoding` (riscv_getters.h:59-294, riscv_getters_rv64.h:52-55, riscv_getters_zba.h:40-45, riscv_getters_zbb64.h:42-45). -/
def source_rv64gzb : Opd → Option What
  | .AAq => some (.imm false .AType .aq)
  | .ARl => some (.imm false .AType .rl)
  | .BImm12 => some (.imm true .BType .b_imm)
  | .C3drs2 => some (.freg .CS .cs_rs2)
  | .C3rs1 => some (.xreg false .CS .cs_rs1)
  | .C3rs2 => some (.xreg false .CS .cs_rs2)
  | .CSRUimm5 => some (.imm false .IType .i_uimm5)
  | .Cdrs2 => some (.freg .CR .rs2)
  | .Crs1 => some (.xreg false .CR .rs1)
  | .Crs2 => some (.xreg false .CR .rs2)
  | .Csr => some (.imm false .IType .u_imm12)
  | .Drs1 => some (.freg .RType .rs1)
  | .Drs2 => some (.freg .RType .rs2)
  | .Drs3 => some (.freg .R4Type .rs3)
  | .Frs1 => some (.freg .RType .rs1)
  | .Frs2 => some (.freg .RType .rs2)
  | .Frs3 => some (.freg .R4Type .rs3)
  | .ICbImm8 => some (.imm true .CB .bimm)
  | .ICiImm6 => some (.imm true .CI .imm6)
  | .ICiImm612 => some (.imm true .CI .imm18)
  | .ICiImm6x16 => some (.imm true .CI .ci_imm10)
  | .ICiUimm6 => some (.imm false .CI .uimm6)
  | .ICiUimm6x4 => some (.imm false .CI .ci_imm_w)
  | .ICiUimm6x8 => some (.imm false .CI .ci_imm_d)
  | .ICiwUimm8x4 => some (.imm false .CIW .ciw_imm10)
  | .ICjImm11 => some (.imm true .CJ .jimm)
  | .IClUimm5x4 => some (.imm false .CL .cl_imm_w)
  | .IClUimm5x8 => some (.imm false .CL .cl_imm_d)
  | .ICssUimm6x4 => some (.imm false .CSS .css_imm_w)
  | .ICssUimm6x8 => some (.imm false .CSS .css_imm_d)
  | .IImm12 => some (.imm true .IType .imm12)
  | .IUimm5 => some (.imm false .RType .r_uimm5)
  | .JImm12 => some (.imm true .IType .imm12)
  | .JImm20 => some (.imm true .JType .j_imm)
  | .Pred => some (.imm false .Fence .pred)
  | .Rd => some (.xreg true .RType .rd)
  | .Rm => some (.imm false .RType .func3)
  | .Rs1 => some (.xreg true .RType .rs1)
  | .Rs2 => some (.xreg true .RType .rs2)
  | .SImm12 => some (.imm true .SType .s_imm)
  | .Succ => some (.imm false .Fence .succ)
  | .UImm20 => some (.imm true .UType .u_imm)
  | .X0 => some (.const 0)
  | .X2 => some (.xfixed 2)
  | .IUimm6 => some (.imm false .RSType .r_uimm6)
  | .Const1 => some (.const 1)
  | .Const2 => some (.const 2)
  | .Const3 => some (.const 3)
  | .RUimm6 => some (.imm false .RSType .r_uimm6)
  | _ => none

/-- Source getters of `RiscV32GZBVecEncoding` (riscv_getters.h:59-294, riscv_getters_rv32.h:56-67, riscv_getters_vector.h:121-205, riscv_getters_zba.h:44-45, riscv_getters_zbb32.h:42-45). -/
def source_rv32gvzb : Opd → Option What
  | .AAq => some (.imm false .AType .aq)
  | .ARl => some (.imm false .AType .rl)
  | .BImm12 => some (.imm true .BType .b_imm)
  | .C3drs2 => some (.freg .CS .cs_rs2)
  | .C3rs1 => some (.xreg false .CS .cs_rs1)
  | .C3rs2 => some (.xreg false .CS .cs_rs2)
  | .CSRUimm5 => some (.imm false .IType .i_uimm5)
  | .Cdrs2 => some (.freg .CR .rs2)
  | .Crs1 => some (.xreg false .CR .rs1)
  | .Crs2 => some (.xreg false .CR .rs2)
  | .Csr => some (.imm false .IType .u_imm12)
  | .Drs1 => some (.freg .RType .rs1)
  | .Drs2 => some (.freg .RType .rs2)
  | .Drs3 => some (.freg .R4Type .rs3)
  | .Frs1 => some (.freg .RType .rs1)
  | .Frs2 => some (.freg .RType .rs2)
  | .Frs3 => some (.freg .R4Type .rs3)
  | .ICbImm8 => some (.imm true .CB .bimm)
  | .ICiImm6 => some (.imm true .CI .imm6)
  | .ICiImm612 => some (.imm true .CI .imm18)
  | .ICiImm6x16 => some (.imm true .CI .ci_imm10)
  | .ICiUimm6 => some (.imm false .CI .uimm6)
  | .ICiUimm6x4 => some (.imm false .CI .ci_imm_w)
  | .ICiUimm6x8 => some (.imm false .CI .ci_imm_d)
  | .ICiwUimm8x4 => some (.imm false .CIW .ciw_imm10)
  | .ICjImm11 => some (.imm true .CJ .jimm)
  | .IClUimm5x4 => some (.imm false .CL .cl_imm_w)
  | .IClUimm5x8 => some (.imm false .CL .cl_imm_d)
  | .ICssUimm6x4 => some (.imm false .CSS .css_imm_w)
  | .ICssUimm6x8 => some (.imm false .CSS .css_imm_d)
  | .IImm12 => some (.imm true .IType .imm12)
  | .IUimm5 => some (.imm false .RType .r_uimm5)
  | .JImm12 => some (.imm true .IType .imm12)
  | .JImm20 => some (.imm true .JType .j_imm)
  | .Pred => some (.imm false .Fence .pred)
  | .Rd => some (.xreg true .RType .rd)
  | .Rm => some (.imm false .RType .func3)
  | .Rs1 => some (.xreg true .RType .rs1)
  | .Rs2 => some (.xreg true .RType .rs2)
  | .SImm12 => some (.imm true .SType .s_imm)
  | .Succ => some (.imm false .Fence .succ)
  | .UImm20 => some (.imm true .UType .u_imm)
  | .X0 => some (.const 0)
  | .X2 => some (.xfixed 2)
  | .C3frs2 => some (.freg .CS .cs_rs2)
  | .Cfrs2 => some (.freg .CR .rs2)
  | .Const1 => some (.const 1)
  | .Const2 => some (.const 2)
  | .Const3 => some (.const 3)
  | .RUimm5 => some (.imm false .RType .r_uimm5)
  | .Vd => some (.vgroup .VArith .vd)
  | .Vmask => some (.mask .VArith .vm)
  | .VmaskTrue => some (.allTrue)
  | .Vm => some (.imm false .VArith .vm)
  | .Vs1 => some (.vgroup .VArith .vs1)
  | .Vs2 => some (.vgroup .VArith .vs2)
  | .Vs3 => some (.vgroup .VMem .vs3)
  | .Simm5 => some (.imm true .VArith .simm5)
  | .Uimm5 => some (.imm true .VArith .uimm5)
  | .Zimm10 => some (.imm true .VConfig .zimm10)
  | .Zimm11 => some (.imm true .VConfig .zimm11)
  | .Const4 => some (.const 4)
  | .Const8 => some (.const 8)
  | .Nf => some (.imm false .VMem .nf)
  | .Fs1 => some (.freg .VArith .rs1)
  | _ => none

/-- Source getters of `RiscV64GZBVecEncoding` (riscv_getters.h:59-294, riscv_getters_rv64.h:52-55, riscv_getters_vector.h:121-205, riscv_getters_zba.h:44-45, riscv_getters_zbb64.h:42-45). -/
def source_rv64gvzb : Opd → Option What
  | .AAq => some (.imm false .AType .aq)
  | .ARl => some (.imm false .AType .rl)
  | .BImm12 => some (.imm true .BType .b_imm)
  | .C3drs2 => some (.freg .CS .cs_rs2)
  | .C3rs1 => some (.xreg false .CS .cs_rs1)
  | .C3rs2 => some (.xreg false .CS .cs_rs2)
  | .CSRUimm5 => some (.imm false .IType .i_uimm5)
  | .Cdrs2 => some (.freg .CR .rs2)
  | .Crs1 => some (.xreg false .CR .rs1)
  | .Crs2 => some (.xreg false .CR .rs2)
  | .Csr => some (.imm false .IType .u_imm12)
  | .Drs1 => some (.freg .RType .rs1)
  | .Drs2 => some (.freg .RType .rs2)
  | .Drs3 => some (.freg .R4Type .rs3)
  | .Frs1 => some (.freg .RType .rs1)
  | .Frs2 => some (.freg .RType .rs2)
  | .Frs3 => some (.freg .R4Type .rs3)
  | .ICbImm8 => some (.imm true .CB .bimm)
  | .ICiImm6 => some (.imm true .CI .imm6)
  | .ICiImm612 => some (.imm true .CI .imm18)
  | .ICiImm6x16 => some (.imm true .CI .ci_imm10)
  | .ICiUimm6 => some (.imm false .CI .uimm6)
  | .ICiUimm6x4 => some (.imm false .CI .ci_imm_w)
  | .ICiUimm6x8 => some (.imm false .CI .ci_imm_d)
  | .ICiwUimm8x4 => some (.imm false .CIW .ciw_imm10)
  | .ICjImm11 => some (.imm true .CJ .jimm)
  | .IClUimm5x4 => some (.imm false .CL .cl_imm_w)
  | .IClUimm5x8 => some (.imm false .CL .cl_imm_d)
  | .ICssUimm6x4 => some (.imm false .CSS .css_imm_w)
  | .ICssUimm6x8 => some (.imm false .CSS .css_imm_d)
  | .IImm12 => some (.imm true .IType .imm12)
  | .IUimm5 => some (.imm false .RType .r_uimm5)
  | .JImm12 => some (.imm true .IType .imm12)
  | .JImm20 => some (.imm true .JType .j_imm)
  | .Pred => some (.imm false .Fence .pred)
  | .Rd => some (.xreg true .RType .rd)
  | .Rm => some (.imm false .RType .func3)
  | .Rs1 => some (.xreg true .RType .rs1)
  | .Rs2 => some (.xreg true .RType .rs2)
  | .SImm12 => some (.imm true .SType .s_imm)
  | .Succ => some (.imm false .Fence .succ)
  | .UImm20 => some (.imm true .UType .u_imm)
  | .X0 => some (.const 0)
  | .X2 => some (.xfixed 2)
  | .IUimm6 => some (.imm false .RSType .r_uimm6)
  | .Const1 => some (.const 1)
  | .Const2 => some (.const 2)
  | .Const3 => some (.const 3)
  | .RUimm6 => some (.imm false .RSType .r_uimm6)
  | .Vd => some (.vgroup .VArith .vd)
  | .Vmask => some (.mask .VArith .vm)
  | .VmaskTrue => some (.allTrue)
  | .Vm => some (.imm false .VArith .vm)
  | .Vs1 => some (.vgroup .VArith .vs1)
  | .Vs2 => some (.vgroup .VArith .vs2)
  | .Vs3 => some (.vgroup .VMem .vs3)
  | .Simm5 => some (.imm true .VArith .simm5)
  | .Uimm5 => some (.imm true .VArith .uimm5)
  | .Zimm10 => some (.imm true .VConfig .zimm10)
  | .Zimm11 => some (.imm true .VConfig .zimm11)
  | .Const4 => some (.const 4)
  | .Const8 => some (.const 8)
  | .Nf => some (.imm false .VMem .nf)
  | .Fs1 => some (.freg .VArith .rs1)
  | _ => none

/-- Source getters of `ZVBBEncoding` (riscv_getters_zvbb.h:44-84). -/
def source_zvbb : Opd → Option What
  | .Vmask => some (.mask .VArith .vm)
  | .Vs1 => some (.vsingle .VArith .vs1)
  | .Vs2 => some (.vsingle .VArith .vs2)
  | .Rs1 => some (.xreg true .VArith .rs1)
  | .Uimm5 => some (.imm true .VArith .uimm5)
  | .Uimm6 => some (.imm true .VArith .uimm6)
  | _ => none

/-- Source getters of `riscv_zc_getters.h` (riscv_zc_getters.h:61-330). -/
def source_zc : Opd → Option What
  | .C3rs1 => some (.xreg false .CS .cs_rs1)
  | .C3rs2 => some (.xreg false .CS .cs_rs2)
  | .Crd => some (.missing)
  | .Crs1 => some (.xreg false .CR .rs1)
  | .Crs2 => some (.xreg false .CR .rs2)
  | .ICbImm8 => some (.imm true .CB .bimm)
  | .ICiImm6 => some (.imm true .CI .imm6)
  | .ICiImm6x16 => some (.imm true .CI .ci_imm10)
  | .ICiUimm6 => some (.imm false .CI .uimm6)
  | .ICiUimm6x4 => some (.imm false .CI .ci_imm_w)
  | .ICiwUimm8x4 => some (.imm false .CIW .ciw_imm10)
  | .ICjImm11 => some (.imm true .CJ .jimm)
  | .IClUimm5x4 => some (.imm false .CL .cl_imm_w)
  | .ICssUimm6x4 => some (.imm false .CSS .css_imm_w)
  | .X0 => some (.const 0)
  | .X2 => some (.xfixed 2)
  | .Uimm2b => some (.imm false .CLB .uimm2)
  | .Uimm2h => some (.imm false .CLH .uimm2)
  | .C3frs2 => some (.freg .CS .cs_rs2)
  | .Cfrs2 => some (.freg .CR .rs2)
  | .C3drs2 => some (.freg .CS .cs_rs2)
  | .Cdrs2 => some (.freg .CR .rs2)
  | .ICiUimm6x8 => some (.imm false .CI .ci_imm_w)
  | .IClUimm5x8 => some (.imm false .CL .cl_imm_w)
  | .ICssUimm6x8 => some (.imm false .CSS .css_imm_w)
  | .Rlist => some (.imm false .CMPP .rlist)
  | .Spimm => some (.imm false .CMPP .spimm)
  | .Sreg1 => some (.sreg .CMMV .rs1p)
  | .Sreg2 => some (.sreg .CMMV .rs2p)
  | .X10 => some (.xfixed 10)
  | .X11 => some (.xfixed 11)
  | _ => none

/-- The source getters of an encoding class. -/
def Enc.source : Enc → Opd → Option What
  | .rv32g => source_rv32g
  | .rv64g => source_rv64g
  | .rv32gv => source_rv32gv
  | .rv64gv => source_rv64gv
  | .rv32gzb => source_rv32gzb
  | .rv64gzb => source_rv64gzb
  | .rv32gvzb => source_rv32gvzb
  | .rv64gvzb => source_rv64gvzb
  | .zvbb => source_zvbb
  | .zc => source_zc

/-- Destination getters of `RiscV32GEncoding` (riscv32g_encoding.cc:397-477). -/
def dest_rv32g : Opd → Option What
  | .C3drd => some (.freg .CL .cl_rd)
  | .C3frd => some (.freg .CL .cl_rd)
  | .C3rd => some (.xreg false .CL .cl_rd)
  | .C3rs1 => some (.xreg false .CL .cl_rs1)
  | .Csr => some (.csr)
  | .Drd => some (.freg .RType .rd)
  | .Frd => some (.freg .RType .rd)
  | .NextPc => some (.pc)
  | .Rd => some (.xreg true .RType .rd)
  | .X0 => some (.discard)
  | .X1 => some (.xfixed 1)
  | .X2 => some (.xfixed 2)
  | .Fflags => some (.flags)
  | _ => none

/-- Destination getters of `RiscV64GEncoding` (riscv64g_encoding.cc:438-539). -/
def dest_rv64g : Opd → Option What
  | .C3drd => some (.xreg false .CL .cl_rd)
  | .C3rd => some (.xreg false .CL .cl_rd)
  | .C3rs1 => some (.xreg false .CL .cl_rs1)
  | .Csr => some (.null)
  | .Drd => some (.freg .RType .rd)
  | .Frd => some (.freg .RType .rd)
  | .NextPc => some (.pc)
  | .Rd => some (.xreg true .RType .rd)
  | .X0 => some (.discard)
  | .X1 => some (.xfixed 1)
  | .X2 => some (.xfixed 2)
  | .Fflags => some (.flags)
  | _ => none

/-- Destination getters of `RiscV32GVecEncoding` (riscv32g_vec_encoding.cc:261-668). -/
def dest_rv32gv : Opd → Option What
  | .C3drd => some (.xreg false .CL .cl_rd)
  | .C3frd => some (.xreg false .CL .cl_rd)
  | .C3rd => some (.xreg false .CL .cl_rd)
  | .C3rs1 => some (.xreg false .CL .cl_rs1)
  | .Csr => some (.csr)
  | .Drd => some (.freg .RType .rd)
  | .Fd => some (.freg .VArith .rd)
  | .Frd => some (.freg .RType .rd)
  | .NextPc => some (.pc)
  | .Rd => some (.xreg true .RType .rd)
  | .X0 => some (.discard)
  | .X1 => some (.xfixed 1)
  | .X2 => some (.xfixed 2)
  | .Fflags => some (.flags)
  | .Vd => some (.vgroup .VArith .vd)
  | _ => none

/-- Destination getters of `RiscV64GVecEncoding` (riscv64g_vec_encoding.cc:538-752). -/
def dest_rv64gv : Opd → Option What
  | .C3drd => some (.xreg false .CL .cl_rd)
  | .C3rd => some (.xreg false .CL .cl_rd)
  | .C3rs1 => some (.xreg false .CL .cl_rs1)
  | .Csr => some (.null)
  | .Drd => some (.freg .RType .rd)
  | .Frd => some (.freg .RType .rd)
  | .NextPc => some (.pc)
  | .Rd => some (.xreg true .RType .rd)
  | .X0 => some (.discard)
  | .X1 => some (.xfixed 1)
  | .X2 => some (.xfixed 2)
  | .Fflags => some (.flags)
  | .Fd => some (.freg .VArith .rd)
  | .Vd => some (.vgroup .VArith .vd)
  | _ => none

/-- Destination getters of `RiscV32GZBEncoding` (riscv_getters.h:307-378, riscv_getters_rv32.h:80-84). -/
def dest_rv32gzb : Opd → Option What
  | .C3drd => some (.freg .CL .cl_rd)
  | .C3rd => some (.xreg false .CL .cl_rd)
  | .C3rs1 => some (.xreg false .CL .cl_rs1)
  | .Csr => some (.csr)
  | .Drd => some (.freg .RType .rd)
  | .Frd => some (.freg .RType .rd)
  | .NextPc => some (.pc)
  | .Rd => some (.xreg true .RType .rd)
  | .X0 => some (.discard)
  | .X1 => some (.xfixed 1)
  | .X2 => some (.xfixed 2)
  | .Fflags => some (.flags)
  | .C3frd => some (.freg .CL .cl_rd)
  | _ => none

/-- Destination getters of `RiscV64GZBEncoding` (riscv_getters.h:307-378). -/
def dest_rv64gzb : Opd → Option What
  | .C3drd => some (.freg .CL .cl_rd)
  | .C3rd => some (.xreg false .CL .cl_rd)
  | .C3rs1 => some (.xreg false .CL .cl_rs1)
  | .Csr => some (.csr)
  | .Drd => some (.freg .RType .rd)
  | .Frd => some (.freg .RType .rd)
  | .NextPc => some (.pc)
  | .Rd => some (.xreg true .RType .rd)
  | .X0 => some (.discard)
  | .X1 => some (.xfixed 1)
  | .X2 => some (.xfixed 2)
  | .Fflags => some (.flags)
  | _ => none

/-- Destination getters of `RiscV32GZBVecEncoding` (riscv_getters.h:307-378, riscv_getters_rv32.h:80-84, riscv_getters_vector.h:217-229). -/
def dest_rv32gvzb : Opd → Option What
  | .C3drd => some (.freg .CL .cl_rd)
  | .C3rd => some (.xreg false .CL .cl_rd)
  | .C3rs1 => some (.xreg false .CL .cl_rs1)
  | .Csr => some (.csr)
  | .Drd => some (.freg .RType .rd)
  | .Frd => some (.freg .RType .rd)
  | .NextPc => some (.pc)
  | .Rd => some (.xreg true .RType .rd)
  | .X0 => some (.discard)
  | .X1 => some (.xfixed 1)
  | .X2 => some (.xfixed 2)
  | .Fflags => some (.flags)
  | .C3frd => some (.freg .CL .cl_rd)
  | .Vd => some (.vgroup .VArith .vd)
  | .Fd => some (.freg .VArith .rd)
  | _ => none

/-- Destination getters of `RiscV64GZBVecEncoding` (riscv_getters.h:307-378, riscv_getters_vector.h:217-229). -/
def dest_rv64gvzb : Opd → Option What
  | .C3drd => some (.freg .CL .cl_rd)
  | .C3rd => some (.xreg false .CL .cl_rd)
  | .C3rs1 => some (.xreg false .CL .cl_rs1)
  | .Csr => some (.csr)
  | .Drd => some (.freg .RType .rd)
  | .Frd => some (.freg .RType .rd)
  | .NextPc => some (.pc)
  | .Rd => some (.xreg true .RType .rd)
  | .X0 => some (.discard)
  | .X1 => some (.xfixed 1)
  | .X2 => some (.xfixed 2)
  | .Fflags => some (.flags)
  | .Vd => some (.vgroup .VArith .vd)
  | .Fd => some (.freg .VArith .rd)
  | _ => none

/-- Destination getters of `ZVBBEncoding` (riscv_getters_zvbb.h:91-96). -/
def dest_zvbb : Opd → Option What
  | .Vd => some (.vgroup .VArith .vd)
  | _ => none

/-- Destination getters of `riscv_zc_getters.h` (riscv_zc_getters.h:137-362). -/
def dest_zc : Opd → Option What
  | .C3rd => some (.xreg false .CL .cl_rd)
  | .C3rs2 => some (.missing)
  | .C3frd => some (.freg .CL .cl_rd)
  | .C3drd => some (.freg .CL .cl_rd)
  | .Sreg1 => some (.sreg .CMMV .rs1p)
  | .Sreg2 => some (.sreg .CMMV .rs2p)
  | .X2 => some (.xfixed 2)
  | .X10 => some (.xfixed 10)
  | .X11 => some (.xfixed 11)
  | _ => none

/-- The dest getters of an encoding class. -/
def Enc.dest : Enc → Opd → Option What
  | .rv32g => dest_rv32g
  | .rv64g => dest_rv64g
  | .rv32gv => dest_rv32gv
  | .rv64gv => dest_rv64gv
  | .rv32gzb => dest_rv32gzb
  | .rv64gzb => dest_rv64gzb
  | .rv32gvzb => dest_rv32gvzb
  | .rv64gvzb => dest_rv64gvzb
  | .zvbb => dest_zvbb
  | .zc => dest_zc

/-- Every operand name. -/
def Opd.all : List Opd :=
  [.AAq, .ARl, .BImm12, .C3drd, .C3drs2, .C3frd, .C3frs2, .C3rd,
   .C3rs1, .C3rs2, .CSRUimm5, .Cdrs2, .Cfrs2, .Const1, .Const2, .Const3,
   .Const4, .Const8, .Crd, .Crs1, .Crs2, .Csr, .Drd, .Drs1,
   .Drs2, .Drs3, .Fd, .Fflags, .Frd, .Frs1, .Frs2, .Frs3,
   .Fs1, .ICbImm8, .ICiImm6, .ICiImm612, .ICiImm6x16, .ICiUimm6, .ICiUimm6x4, .ICiUimm6x8,
   .ICiwUimm8x4, .ICjImm11, .IClUimm5x4, .IClUimm5x8, .ICssUimm6x4, .ICssUimm6x8, .IImm12, .IUimm5,
   .IUimm6, .JImm12, .JImm20, .NextPc, .Nf, .Pred, .RUimm5, .RUimm6,
   .Rd, .Rlist, .Rm, .Rs1, .Rs2, .SImm12, .Simm5, .Spimm,
   .Sreg1, .Sreg2, .Succ, .UImm20, .Uimm2b, .Uimm2h, .Uimm5, .Uimm6,
   .Vd, .Vm, .Vmask, .VmaskTrue, .Vs1, .Vs2, .Vs3, .X0,
   .X1, .X10, .X11, .X2, .Zimm10, .Zimm11]

/-- Every encoding class. -/
def Enc.all : List Enc := [.rv32g, .rv64g, .rv32gv, .rv64gv, .rv32gzb, .rv64gzb, .rv32gvzb, .rv64gvzb, .zvbb, .zc]

end Verif.Getters
