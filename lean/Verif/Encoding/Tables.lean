import Verif.BinFmt.Formats
import Verif.Encoding.Names

/-!
# Operand setters and getters

Which field each assembler operand is inserted into, and which field each
decoder operand is extracted from.  Written by `tools/gen_setters.py`.
-/

namespace Verif.Encoding

open BinFmt

/-- How the text of an operand becomes a number. -/
inductive How where
  /-- looked up in a list of names -/
  | name (l : List (String × Nat))
  /-- `SimpleTextToInt<int32_t>` (`true`) or `<uint32_t>` -/
  | number (signed : Bool)
  /-- the same, minus the address of the instruction; the difference is stored
  in a variable of `width` bits -/
  | relative (signed : Bool) (width : Nat)

/-- An operand setter of the assembler. -/
structure Setter where
  fmt : Fmt
  fld : Fld
  how : How

/-- The type of the operand value made from an extracted field. -/
inductive Conv where
  | int32
  | uint32
  deriving DecidableEq, Repr

/-- An operand getter of the decoder. -/
structure Getter where
  fmt : Fmt
  fld : Fld
  conv : Conv
  deriving DecidableEq, Repr

/-- Source operands with a setter (riscv_bin_setters.h:522-903). -/
inductive SrcOp where
  | AAq
  | ARl
  | BImm12
  | C3drs2
  | C3rs1
  | C3rs2
  | CSRUimm5
  | Cdrs2
  | Crs1
  | Crs2
  | Csr
  | Drs1
  | Drs2
  | Drs3
  | Frs1
  | Frs2
  | Frs3
  | ICbImm8
  | ICiImm6
  | ICiImm612
  | ICiImm6x16
  | ICiUimm6
  | ICiUimm6x4
  | ICiUimm6x8
  | ICiwUimm8x4
  | ICjImm11
  | IClUimm5x4
  | IClUimm5x8
  | ICssUimm6x4
  | ICssUimm6x8
  | IImm12
  | IUimm5
  | IUimm6
  | JImm12
  | JImm20
  | Pred
  | Rd
  | Rm
  | Rs1
  | Rs2
  | SImm12
  | Succ
  | UImm20
  deriving DecidableEq, Repr

/-- All source operands. -/
def SrcOp.all : List SrcOp :=
  [.AAq, .ARl, .BImm12, .C3drs2, .C3rs1, .C3rs2, .CSRUimm5, .Cdrs2,
   .Crs1, .Crs2, .Csr, .Drs1, .Drs2, .Drs3, .Frs1, .Frs2,
   .Frs3, .ICbImm8, .ICiImm6, .ICiImm612, .ICiImm6x16, .ICiUimm6, .ICiUimm6x4, .ICiUimm6x8,
   .ICiwUimm8x4, .ICjImm11, .IClUimm5x4, .IClUimm5x8, .ICssUimm6x4, .ICssUimm6x8, .IImm12, .IUimm5,
   .IUimm6, .JImm12, .JImm20, .Pred, .Rd, .Rm, .Rs1, .Rs2,
   .SImm12, .Succ, .UImm20]

/-- The setters (riscv_bin_setters.h:522-903). -/
def SrcOp.setter : SrcOp → Setter
  -- riscv_bin_setters.h:522-532
  | .AAq => ⟨.AType, .aq, .name namesAq⟩
  -- riscv_bin_setters.h:533-543
  | .ARl => ⟨.AType, .rl, .name namesRl⟩
  -- riscv_bin_setters.h:544-551
  | .BImm12 => ⟨.BType, .b_imm, .relative false 32⟩
  -- riscv_bin_setters.h:552-562
  | .C3drs2 => ⟨.CS, .cs_rs2, .name namesDCRegister⟩
  -- riscv_bin_setters.h:563-573
  | .C3rs1 => ⟨.CL, .cl_rs1, .name namesCRegister⟩
  -- riscv_bin_setters.h:574-584
  | .C3rs2 => ⟨.CS, .cs_rs2, .name namesCRegister⟩
  -- riscv_bin_setters.h:585-591
  | .CSRUimm5 => ⟨.IType, .i_uimm5, .number false⟩
  -- riscv_bin_setters.h:592-602
  | .Cdrs2 => ⟨.CR, .rs2, .name namesDRegister⟩
  -- riscv_bin_setters.h:603-613
  | .Crs1 => ⟨.CR, .rs1, .name namesRegister⟩
  -- riscv_bin_setters.h:614-624
  | .Crs2 => ⟨.CR, .rs2, .name namesRegister⟩
  -- riscv_bin_setters.h:625-635
  | .Csr => ⟨.IType, .u_imm12, .name namesCsrRegister⟩
  -- riscv_bin_setters.h:636-646
  | .Drs1 => ⟨.RType, .rs1, .name namesDRegister⟩
  -- riscv_bin_setters.h:647-657
  | .Drs2 => ⟨.RType, .rs2, .name namesDRegister⟩
  -- riscv_bin_setters.h:658-668
  | .Drs3 => ⟨.R4Type, .rs3, .name namesDRegister⟩
  -- riscv_bin_setters.h:669-679
  | .Frs1 => ⟨.RType, .rs1, .name namesFRegister⟩
  -- riscv_bin_setters.h:680-690
  | .Frs2 => ⟨.RType, .rs1, .name namesFRegister⟩
  -- riscv_bin_setters.h:691-701
  | .Frs3 => ⟨.R4Type, .rs3, .name namesFRegister⟩
  -- riscv_bin_setters.h:702-709
  | .ICbImm8 => ⟨.CB, .bimm, .relative true 32⟩
  -- riscv_bin_setters.h:710-716
  | .ICiImm6 => ⟨.CI, .imm6, .number true⟩
  -- riscv_bin_setters.h:717-723
  | .ICiImm612 => ⟨.CI, .imm18, .number true⟩
  -- riscv_bin_setters.h:724-730
  | .ICiImm6x16 => ⟨.CI, .ci_imm10, .number true⟩
  -- riscv_bin_setters.h:731-737
  | .ICiUimm6 => ⟨.CI, .uimm6, .number true⟩
  -- riscv_bin_setters.h:738-744
  | .ICiUimm6x4 => ⟨.CI, .ci_imm_w, .number true⟩
  -- riscv_bin_setters.h:745-751
  | .ICiUimm6x8 => ⟨.CI, .ci_imm_d, .number true⟩
  -- riscv_bin_setters.h:752-758
  | .ICiwUimm8x4 => ⟨.CIW, .ciw_imm10, .number true⟩
  -- riscv_bin_setters.h:759-766
  | .ICjImm11 => ⟨.CJ, .jimm, .relative true 64⟩
  -- riscv_bin_setters.h:767-773
  | .IClUimm5x4 => ⟨.CL, .cl_imm_w, .number false⟩
  -- riscv_bin_setters.h:774-780
  | .IClUimm5x8 => ⟨.CL, .cl_imm_d, .number true⟩
  -- riscv_bin_setters.h:781-787
  | .ICssUimm6x4 => ⟨.CS, .cs_imm_w, .number false⟩
  -- riscv_bin_setters.h:788-794
  | .ICssUimm6x8 => ⟨.CS, .cs_imm_d, .number false⟩
  -- riscv_bin_setters.h:795-801
  | .IImm12 => ⟨.IType, .imm12, .number true⟩
  -- riscv_bin_setters.h:802-808
  | .IUimm5 => ⟨.RType, .r_uimm5, .number false⟩
  -- riscv_bin_setters.h:809-815
  | .IUimm6 => ⟨.RSType, .r_uimm6, .number false⟩
  -- riscv_bin_setters.h:816-822
  | .JImm12 => ⟨.IType, .imm12, .number true⟩
  -- riscv_bin_setters.h:823-831
  | .JImm20 => ⟨.JType, .j_imm, .relative true 32⟩
  -- riscv_bin_setters.h:832-838
  | .Pred => ⟨.Fence, .pred, .number false⟩
  -- riscv_bin_setters.h:839-849
  | .Rd => ⟨.RType, .rd, .name namesRegister⟩
  -- riscv_bin_setters.h:850-860
  | .Rm => ⟨.R4Type, .rs3, .name namesRegister⟩
  -- riscv_bin_setters.h:861-871
  | .Rs1 => ⟨.RType, .rs1, .name namesRegister⟩
  -- riscv_bin_setters.h:872-882
  | .Rs2 => ⟨.RType, .rs2, .name namesRegister⟩
  -- riscv_bin_setters.h:883-889
  | .SImm12 => ⟨.SType, .s_imm, .number false⟩
  -- riscv_bin_setters.h:890-896
  | .Succ => ⟨.Fence, .succ, .number false⟩
  -- riscv_bin_setters.h:897-903
  | .UImm20 => ⟨.UType, .u_imm, .number false⟩

/-- The getters (riscv_getters.h:59-287, riscv_getters_rv64.h:52-55).  An extractor called on the base
format is given the format that defines the overlay. -/
def SrcOp.getter : SrcOp → Getter
  -- riscv_getters.h:59-64
  | .AAq => ⟨.AType, .aq, .uint32⟩
  -- riscv_getters.h:65-70
  | .ARl => ⟨.AType, .rl, .uint32⟩
  -- riscv_getters.h:71-74
  | .BImm12 => ⟨.BType, .b_imm, .int32⟩
  -- riscv_getters.h:75-80
  | .C3drs2 => ⟨.CS, .cs_rs2, .uint32⟩
  -- riscv_getters.h:81-86
  | .C3rs1 => ⟨.CS, .cs_rs1, .uint32⟩
  -- riscv_getters.h:87-92
  | .C3rs2 => ⟨.CS, .cs_rs2, .uint32⟩
  -- riscv_getters.h:93-96
  | .CSRUimm5 => ⟨.IType, .i_uimm5, .uint32⟩
  -- riscv_getters.h:97-102
  | .Cdrs2 => ⟨.CR, .rs2, .uint32⟩
  -- riscv_getters.h:103-108
  | .Crs1 => ⟨.CR, .rs1, .uint32⟩
  -- riscv_getters.h:109-114
  | .Crs2 => ⟨.CR, .rs2, .uint32⟩
  -- riscv_getters.h:115-123
  | .Csr => ⟨.IType, .u_imm12, .uint32⟩
  -- riscv_getters.h:124-129
  | .Drs1 => ⟨.RType, .rs1, .uint32⟩
  -- riscv_getters.h:130-135
  | .Drs2 => ⟨.RType, .rs2, .uint32⟩
  -- riscv_getters.h:136-141
  | .Drs3 => ⟨.R4Type, .rs3, .uint32⟩
  -- riscv_getters.h:142-147
  | .Frs1 => ⟨.RType, .rs1, .uint32⟩
  -- riscv_getters.h:148-153
  | .Frs2 => ⟨.RType, .rs2, .uint32⟩
  -- riscv_getters.h:154-159
  | .Frs3 => ⟨.R4Type, .rs3, .uint32⟩
  -- riscv_getters.h:160-163
  | .ICbImm8 => ⟨.CB, .bimm, .int32⟩
  -- riscv_getters.h:164-167
  | .ICiImm6 => ⟨.CI, .imm6, .int32⟩
  -- riscv_getters.h:168-171
  | .ICiImm612 => ⟨.CI, .imm18, .int32⟩
  -- riscv_getters.h:172-175
  | .ICiImm6x16 => ⟨.CI, .ci_imm10, .int32⟩
  -- riscv_getters.h:176-179
  | .ICiUimm6 => ⟨.CI, .uimm6, .uint32⟩
  -- riscv_getters.h:180-183
  | .ICiUimm6x4 => ⟨.CI, .ci_imm_w, .uint32⟩
  -- riscv_getters.h:184-187
  | .ICiUimm6x8 => ⟨.CI, .ci_imm_d, .uint32⟩
  -- riscv_getters.h:188-191
  | .ICiwUimm8x4 => ⟨.CIW, .ciw_imm10, .uint32⟩
  -- riscv_getters.h:192-195
  | .ICjImm11 => ⟨.CJ, .jimm, .int32⟩
  -- riscv_getters.h:196-199
  | .IClUimm5x4 => ⟨.CL, .cl_imm_w, .uint32⟩
  -- riscv_getters.h:200-203
  | .IClUimm5x8 => ⟨.CL, .cl_imm_d, .uint32⟩
  -- riscv_getters.h:204-207
  | .ICssUimm6x4 => ⟨.CSS, .css_imm_w, .uint32⟩
  -- riscv_getters.h:208-211
  | .ICssUimm6x8 => ⟨.CSS, .css_imm_d, .uint32⟩
  -- riscv_getters.h:212-215
  | .IImm12 => ⟨.IType, .imm12, .int32⟩
  -- riscv_getters.h:216-219
  | .IUimm5 => ⟨.RType, .r_uimm5, .uint32⟩
  -- riscv_getters_rv64.h:52-55
  | .IUimm6 => ⟨.RSType, .r_uimm6, .uint32⟩
  -- riscv_getters.h:220-223
  | .JImm12 => ⟨.IType, .imm12, .int32⟩
  -- riscv_getters.h:224-227
  | .JImm20 => ⟨.JType, .j_imm, .int32⟩
  -- riscv_getters.h:228-231
  | .Pred => ⟨.Fence, .pred, .uint32⟩
  -- riscv_getters.h:232-238
  | .Rd => ⟨.RType, .rd, .uint32⟩
  -- riscv_getters.h:239-261
  | .Rm => ⟨.RType, .func3, .uint32⟩
  -- riscv_getters.h:262-268
  | .Rs1 => ⟨.RType, .rs1, .uint32⟩
  -- riscv_getters.h:269-275
  | .Rs2 => ⟨.RType, .rs2, .uint32⟩
  -- riscv_getters.h:276-279
  | .SImm12 => ⟨.SType, .s_imm, .int32⟩
  -- riscv_getters.h:280-283
  | .Succ => ⟨.Fence, .succ, .uint32⟩
  -- riscv_getters.h:284-287
  | .UImm20 => ⟨.UType, .u_imm, .int32⟩

/-- Destination operands with a setter (riscv_bin_setters.h:910-986). -/
inductive DstOp where
  | C3drd
  | C3rd
  | C3rs1
  | Csr
  | Drd
  | Frd
  | Rd
  deriving DecidableEq, Repr

/-- All destination operands. -/
def DstOp.all : List DstOp :=
  [.C3drd, .C3rd, .C3rs1, .Csr, .Drd, .Frd, .Rd]

/-- The setters (riscv_bin_setters.h:910-986). -/
def DstOp.setter : DstOp → Setter
  -- riscv_bin_setters.h:910-920
  | .C3drd => ⟨.CL, .cl_rd, .name namesDCRegister⟩
  -- riscv_bin_setters.h:921-931
  | .C3rd => ⟨.CL, .cl_rd, .name namesCRegister⟩
  -- riscv_bin_setters.h:932-942
  | .C3rs1 => ⟨.CS, .cs_rs1, .name namesCRegister⟩
  -- riscv_bin_setters.h:943-953
  | .Csr => ⟨.IType, .u_imm12, .name namesCsrRegister⟩
  -- riscv_bin_setters.h:954-964
  | .Drd => ⟨.RType, .rd, .name namesDRegister⟩
  -- riscv_bin_setters.h:965-975
  | .Frd => ⟨.RType, .rd, .name namesFRegister⟩
  -- riscv_bin_setters.h:976-986
  | .Rd => ⟨.RType, .rd, .name namesRegister⟩

/-- The getters (riscv_getters.h:307-359).  An extractor called on the base
format is given the format that defines the overlay. -/
def DstOp.getter : DstOp → Getter
  -- riscv_getters.h:307-312
  | .C3drd => ⟨.CL, .cl_rd, .uint32⟩
  -- riscv_getters.h:313-318
  | .C3rd => ⟨.CL, .cl_rd, .uint32⟩
  -- riscv_getters.h:319-324
  | .C3rs1 => ⟨.CL, .cl_rs1, .uint32⟩
  -- no field of its own (riscv_getters.h:325-328); the register is the one
  -- named by the source operand
  | .Csr => ⟨.IType, .u_imm12, .uint32⟩
  -- riscv_getters.h:329-335
  | .Drd => ⟨.RType, .rd, .uint32⟩
  -- riscv_getters.h:336-342
  | .Frd => ⟨.RType, .rd, .uint32⟩
  -- riscv_getters.h:348-359
  | .Rd => ⟨.RType, .rd, .uint32⟩

end Verif.Encoding
