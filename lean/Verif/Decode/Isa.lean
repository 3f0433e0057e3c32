import Verif.Decode.Ops

/-!
# The instruction listing of the ISA

For each instruction name the fixed bits of its encoding, from the RISC-V
unprivileged manual (volume I, "RV32/64G Instruction Set Listings", the
chapters on C, Zc*, B, V, Zvbb, Zimop, Zicond, Zihint*, Zicbop) and the privileged
manual.  Nothing here refers to the decoder descriptions of the simulator.

An instruction is named after the simulator's name for it where it has one.
Where the simulator has several entries for one instruction of the ISA
(`csrrs_nr`, hints, masked and unmasked loads), `canon` names the one that stands
for the instruction.
-/

namespace Verif.Decode.Isa

/-- Register width. -/
inductive Xlen where
  | rv32
  | rv64
  deriving DecidableEq, Repr

/-- An encoding: under `mask` the word is `value`, and for no pair `(m, v)` of
`except` is the word `v` under `m`. -/
structure Enc where
  mask : Nat
  value : Nat
  except : List (Nat × Nat)
  deriving DecidableEq, Repr

/-- The word has this encoding. -/
def Enc.assigns (e : Enc) (w : Nat) : Prop :=
  w &&& e.mask = e.value ∧ ∀ p ∈ e.except, w &&& p.1 ≠ p.2

instance (e : Enc) (w : Nat) : Decidable (e.assigns w) := by unfold Enc.assigns; infer_instance

/-! ## Formats: the arguments are the fixed fields from the left -/

/-- U and J type: opcode. -/
def u (op : Nat) : Enc := ⟨0x7f, op, []⟩
/-- I, S and B type: funct3, opcode. -/
def i (f3 op : Nat) : Enc := ⟨0x707f, f3 <<< 12 ||| op, []⟩
/-- R type: funct7, funct3, opcode. -/
def r (f7 f3 op : Nat) : Enc := ⟨0xfe00707f, f7 <<< 25 ||| f3 <<< 12 ||| op, []⟩
/-- R type with fixed rs2. -/
def r2 (f7 rs2 f3 op : Nat) : Enc :=
  ⟨0xfff0707f, f7 <<< 25 ||| rs2 <<< 20 ||| f3 <<< 12 ||| op, []⟩
/-- OP-IMM shifts: five bit shift amounts on RV32, six bit ones on RV64. -/
def shift (x : Xlen) (f6 f3 : Nat) : Enc :=
  match x with
  | .rv32 => ⟨0xfe00707f, f6 <<< 26 ||| f3 <<< 12 ||| 0b0010011, []⟩
  | .rv64 => ⟨0xfc00707f, f6 <<< 26 ||| f3 <<< 12 ||| 0b0010011, []⟩
/-- The whole word. -/
def word (w : Nat) : Enc := ⟨0xffffffff, w, []⟩
/-- Atomics: funct5 and width; aq and rl are free. -/
def amo (f5 f3 : Nat) : Enc := ⟨0xf800707f, f5 <<< 27 ||| f3 <<< 12 ||| 0b0101111, []⟩
/-- Load reserved: as atomics with rs2 = 0. -/
def lr (f3 : Nat) : Enc := ⟨0xf9f0707f, 0b00010 <<< 27 ||| f3 <<< 12 ||| 0b0101111, []⟩
/-- R4 type: fmt, opcode; rm is free. -/
def r4 (fmt op : Nat) : Enc := ⟨0x0600007f, fmt <<< 25 ||| op, []⟩
/-- OP-FP with rounding mode: funct5, fmt. -/
def frm (f5 fmt : Nat) : Enc := ⟨0xfe00007f, f5 <<< 27 ||| fmt <<< 25 ||| 0b1010011, []⟩
/-- OP-FP with rounding mode and fixed rs2. -/
def frm2 (f5 fmt rs2 : Nat) : Enc :=
  ⟨0xfff0007f, f5 <<< 27 ||| fmt <<< 25 ||| rs2 <<< 20 ||| 0b1010011, []⟩
/-- OP-FP with fixed funct3. -/
def f3 (f5 fmt f : Nat) : Enc :=
  ⟨0xfe00707f, f5 <<< 27 ||| fmt <<< 25 ||| f <<< 12 ||| 0b1010011, []⟩
/-- OP-FP with fixed rs2 and funct3. -/
def f3r2 (f5 fmt rs2 f : Nat) : Enc :=
  ⟨0xfff0707f, f5 <<< 27 ||| fmt <<< 25 ||| rs2 <<< 20 ||| f <<< 12 ||| 0b1010011, []⟩
/-- `mop.r.n`. -/
def mopR (n : Nat) : Enc :=
  ⟨0xfff0707f, 1 <<< 31 ||| (n / 16) <<< 30 ||| (n / 4 % 4) <<< 26 ||| 0b0111 <<< 22 |||
    (n % 4) <<< 20 ||| 0b100 <<< 12 ||| 0b1110011, []⟩
/-- `mop.rr.n`. -/
def mopRR (n : Nat) : Enc :=
  ⟨0xfe00707f, 1 <<< 31 ||| (n / 4) <<< 30 ||| (n % 4) <<< 26 ||| 1 <<< 25 |||
    0b100 <<< 12 ||| 0b1110011, []⟩

/-- Compressed: funct3, quadrant. -/
def c (f3 q : Nat) : Enc := ⟨0xe003, f3 <<< 13 ||| q, []⟩
/-- A whole compressed word: funct4, rd/rs1, rs2, quadrant. -/
def half (f4 r1 r2 q : Nat) : Enc := ⟨0xffff, f4 <<< 12 ||| r1 <<< 7 ||| r2 <<< 2 ||| q, []⟩
/-- The rd/rs1 field of a compressed word. -/
def rdField : Nat := 0x0f80
/-- The six bit immediate of a CI word. -/
def immField : Nat := 0x107c
/-- `c.srli` and `c.srai`: bit 12 is a bit of the shift amount on RV64 only. -/
def cshift (x : Xlen) (f2 : Nat) : Enc :=
  match x with
  | .rv32 => ⟨0xfc03, 0b100 <<< 13 ||| f2 <<< 10 ||| 0b01, []⟩
  | .rv64 => ⟨0xec03, 0b100 <<< 13 ||| f2 <<< 10 ||| 0b01, []⟩
/-- CA type: funct6, funct2. -/
def ca (f6 f2 : Nat) : Enc := ⟨0xfc63, f6 <<< 10 ||| f2 <<< 5 ||| 0b01, []⟩
/-- Push and pop: register lists 0 to 3 are reserved. -/
def cmpp (f5 : Nat) : Enc := ⟨0xff03, 0b101 <<< 13 ||| f5 <<< 8 ||| 0b10, [(0x00c0, 0)]⟩
/-- `cm.mvsa01` with equal registers is reserved. -/
def sameSaved : List (Nat × Nat) :=
  (List.range 8).map fun k => (0x039c, k <<< 7 ||| k <<< 2)

/-- Direction of a vector memory access. -/
inductive Dir where
  | load
  | store
/-- LOAD-FP and STORE-FP. -/
def Dir.op : Dir → Nat
  | .load => 0b0000111
  | .store => 0b0100111
/-- Vector memory access with nf = 0, mew = 0: mop, lumop or sumop, width. -/
def vmem (d : Dir) (mop umop w : Nat) : Enc :=
  ⟨0xfdf0707f, mop <<< 26 ||| umop <<< 20 ||| w <<< 12 ||| d.op, []⟩
/-- The same with a register or vector in place of lumop. -/
def vmemx (d : Dir) (mop w : Nat) : Enc := ⟨0xfc00707f, mop <<< 26 ||| w <<< 12 ||| d.op, []⟩
/-- Segment access: nf is any but 0. -/
def seg (e : Enc) : Enc := ⟨e.mask ^^^ 0xe0000000, e.value, [(0xe0000000, 0)]⟩
/-- Whole register access of `n` registers. -/
def vwhole (d : Dir) (n w : Nat) : Enc :=
  ⟨0xfff0707f, (n - 1) <<< 29 ||| 1 <<< 25 ||| 0b01000 <<< 20 ||| w <<< 12 ||| d.op, []⟩
/-- Vector arithmetic: funct6, funct3; vm is free. -/
def opv (f6 f3 : Nat) : Enc := ⟨0xfc00707f, f6 <<< 26 ||| f3 <<< 12 ||| 0b1010111, []⟩
/-- The categories of vector arithmetic. -/
def opivv (f6 : Nat) : Enc := opv f6 0b000
/-- Integer, vector and scalar. -/
def opivx (f6 : Nat) : Enc := opv f6 0b100
/-- Integer, vector and immediate. -/
def opivi (f6 : Nat) : Enc := opv f6 0b011
/-- Multiply, mask and reduction, vectors. -/
def opmvv (f6 : Nat) : Enc := opv f6 0b010
/-- Multiply, vector and scalar. -/
def opmvx (f6 : Nat) : Enc := opv f6 0b110
/-- Floating point, vectors. -/
def opfvv (f6 : Nat) : Enc := opv f6 0b001
/-- Floating point, vector and scalar. -/
def opfvf (f6 : Nat) : Enc := opv f6 0b101
/-- vm = 1. -/
def unmasked (e : Enc) : Enc := { e with mask := e.mask ||| 1 <<< 25, value := e.value ||| 1 <<< 25 }
/-- vm = 0. -/
def masked (e : Enc) : Enc := { e with mask := e.mask ||| 1 <<< 25 }
/-- A fixed vs1 field. -/
def vs1 (v : Nat) (e : Enc) : Enc :=
  { e with mask := e.mask ||| 0b11111 <<< 15, value := e.value ||| v <<< 15 }
/-- vs2 = 0. -/
def vs2zero (e : Enc) : Enc := { e with mask := e.mask ||| 0b11111 <<< 20 }

/-! ## The listing -/

/-- The encoding of each instruction; `none` for a name that is not an
instruction of the ISA of its own. -/
def enc (x : Xlen) : Op → Option Enc
  -- RV32I and RV64I
  | .lui => some (u 0b0110111)
  | .auipc => some (u 0b0010111)
  | .jal => some (u 0b1101111)
  | .jalr => some (i 0b000 0b1100111)
  | .beq => some (i 0b000 0b1100011)
  | .bne => some (i 0b001 0b1100011)
  | .blt => some (i 0b100 0b1100011)
  | .bge => some (i 0b101 0b1100011)
  | .bltu => some (i 0b110 0b1100011)
  | .bgeu => some (i 0b111 0b1100011)
  | .lb => some (i 0b000 0b0000011)
  | .lh => some (i 0b001 0b0000011)
  | .lw => some (i 0b010 0b0000011)
  | .lbu => some (i 0b100 0b0000011)
  | .lhu => some (i 0b101 0b0000011)
  | .lwu => some (i 0b110 0b0000011)
  | .ld => some (i 0b011 0b0000011)
  | .sb => some (i 0b000 0b0100011)
  | .sh => some (i 0b001 0b0100011)
  | .sw => some (i 0b010 0b0100011)
  | .sd => some (i 0b011 0b0100011)
  | .addi => some (i 0b000 0b0010011)
  | .slti => some (i 0b010 0b0010011)
  | .sltiu => some (i 0b011 0b0010011)
  | .xori => some (i 0b100 0b0010011)
  | .ori => some (i 0b110 0b0010011)
  | .andi => some (i 0b111 0b0010011)
  | .slli => some (shift x 0b000000 0b001)
  | .srli => some (shift x 0b000000 0b101)
  | .srai => some (shift x 0b010000 0b101)
  | .add => some (r 0b0000000 0b000 0b0110011)
  | .sub => some (r 0b0100000 0b000 0b0110011)
  | .sll => some (r 0b0000000 0b001 0b0110011)
  | .slt => some (r 0b0000000 0b010 0b0110011)
  | .sltu => some (r 0b0000000 0b011 0b0110011)
  | .«xor» => some (r 0b0000000 0b100 0b0110011)
  | .srl => some (r 0b0000000 0b101 0b0110011)
  | .sra => some (r 0b0100000 0b101 0b0110011)
  | .«or» => some (r 0b0000000 0b110 0b0110011)
  | .«and» => some (r 0b0000000 0b111 0b0110011)
  | .addiw => some (i 0b000 0b0011011)
  | .slliw => some (r 0b0000000 0b001 0b0011011)
  | .srliw => some (r 0b0000000 0b101 0b0011011)
  | .sraiw => some (r 0b0100000 0b101 0b0011011)
  | .addw => some (r 0b0000000 0b000 0b0111011)
  | .subw => some (r 0b0100000 0b000 0b0111011)
  | .sllw => some (r 0b0000000 0b001 0b0111011)
  | .srlw => some (r 0b0000000 0b101 0b0111011)
  | .sraw => some (r 0b0100000 0b101 0b0111011)
  | .fence => some { i 0b000 0b0001111 with except := [(0xfff0707f, 0x8330000f)] }
  | .fence_tso => some (⟨0xfff0707f, 0x8330000f, []⟩)
  | .ecall => some (word 0x00000073)
  | .ebreak => some (word 0x00100073)
  -- Zifencei, Zicsr
  | .fencei => some (i 0b001 0b0001111)
  | .csrrw => some (i 0b001 0b1110011)
  | .csrrs => some (i 0b010 0b1110011)
  | .csrrc => some (i 0b011 0b1110011)
  | .csrrwi => some (i 0b101 0b1110011)
  | .csrrsi => some (i 0b110 0b1110011)
  | .csrrci => some (i 0b111 0b1110011)
  -- M
  | .mul => some (r 0b0000001 0b000 0b0110011)
  | .mulh => some (r 0b0000001 0b001 0b0110011)
  | .mulhsu => some (r 0b0000001 0b010 0b0110011)
  | .mulhu => some (r 0b0000001 0b011 0b0110011)
  | .div => some (r 0b0000001 0b100 0b0110011)
  | .divu => some (r 0b0000001 0b101 0b0110011)
  | .rem => some (r 0b0000001 0b110 0b0110011)
  | .remu => some (r 0b0000001 0b111 0b0110011)
  | .mulw => some (r 0b0000001 0b000 0b0111011)
  | .divw => some (r 0b0000001 0b100 0b0111011)
  | .divuw => some (r 0b0000001 0b101 0b0111011)
  | .remw => some (r 0b0000001 0b110 0b0111011)
  | .remuw => some (r 0b0000001 0b111 0b0111011)
  -- A
  | .lrw => some (lr 0b010)
  | .scw => some (amo 0b00011 0b010)
  | .amoswapw => some (amo 0b00001 0b010)
  | .amoaddw => some (amo 0b00000 0b010)
  | .amoxorw => some (amo 0b00100 0b010)
  | .amoandw => some (amo 0b01100 0b010)
  | .amoorw => some (amo 0b01000 0b010)
  | .amominw => some (amo 0b10000 0b010)
  | .amomaxw => some (amo 0b10100 0b010)
  | .amominuw => some (amo 0b11000 0b010)
  | .amomaxuw => some (amo 0b11100 0b010)
  | .lrd => some (lr 0b011)
  | .scd => some (amo 0b00011 0b011)
  | .amoswapd => some (amo 0b00001 0b011)
  | .amoaddd => some (amo 0b00000 0b011)
  | .amoxord => some (amo 0b00100 0b011)
  | .amoandd => some (amo 0b01100 0b011)
  | .amoord => some (amo 0b01000 0b011)
  | .amomind => some (amo 0b10000 0b011)
  | .amomaxd => some (amo 0b10100 0b011)
  | .amominud => some (amo 0b11000 0b011)
  | .amomaxud => some (amo 0b11100 0b011)
  -- F
  | .flw => some (i 0b010 0b0000111)
  | .fsw => some (i 0b010 0b0100111)
  | .fmadd_s => some (r4 0b00 0b1000011)
  | .fmsub_s => some (r4 0b00 0b1000111)
  | .fnmsub_s => some (r4 0b00 0b1001011)
  | .fnmadd_s => some (r4 0b00 0b1001111)
  | .fadd_s => some (frm 0b00000 0b00)
  | .fsub_s => some (frm 0b00001 0b00)
  | .fmul_s => some (frm 0b00010 0b00)
  | .fdiv_s => some (frm 0b00011 0b00)
  | .fsqrt_s => some (frm2 0b01011 0b00 0b00000)
  | .fsgnj_s => some (f3 0b00100 0b00 0b000)
  | .fsgnjn_s => some (f3 0b00100 0b00 0b001)
  | .fsgnjx_s => some (f3 0b00100 0b00 0b010)
  | .fmin_s => some (f3 0b00101 0b00 0b000)
  | .fmax_s => some (f3 0b00101 0b00 0b001)
  | .fcmple_s => some (f3 0b10100 0b00 0b000)
  | .fcmplt_s => some (f3 0b10100 0b00 0b001)
  | .fcmpeq_s => some (f3 0b10100 0b00 0b010)
  | .fclass_s => some (f3r2 0b11100 0b00 0b00000 0b001)
  | .fmv_xw => some (f3r2 0b11100 0b00 0b00000 0b000)
  | .fmv_wx => some (f3r2 0b11110 0b00 0b00000 0b000)
  | .fcvt_ws => some (frm2 0b11000 0b00 0b00000)
  | .fcvt_sw => some (frm2 0b11010 0b00 0b00000)
  | .fcvt_wus => some (frm2 0b11000 0b00 0b00001)
  | .fcvt_swu => some (frm2 0b11010 0b00 0b00001)
  | .fcvt_ls => some (frm2 0b11000 0b00 0b00010)
  | .fcvt_sl => some (frm2 0b11010 0b00 0b00010)
  | .fcvt_lus => some (frm2 0b11000 0b00 0b00011)
  | .fcvt_slu => some (frm2 0b11010 0b00 0b00011)
  -- D
  | .fld => some (i 0b011 0b0000111)
  | .fsd => some (i 0b011 0b0100111)
  | .fmadd_d => some (r4 0b01 0b1000011)
  | .fmsub_d => some (r4 0b01 0b1000111)
  | .fnmsub_d => some (r4 0b01 0b1001011)
  | .fnmadd_d => some (r4 0b01 0b1001111)
  | .fadd_d => some (frm 0b00000 0b01)
  | .fsub_d => some (frm 0b00001 0b01)
  | .fmul_d => some (frm 0b00010 0b01)
  | .fdiv_d => some (frm 0b00011 0b01)
  | .fsqrt_d => some (frm2 0b01011 0b01 0b00000)
  | .fsgnj_d => some (f3 0b00100 0b01 0b000)
  | .fsgnjn_d => some (f3 0b00100 0b01 0b001)
  | .fsgnjx_d => some (f3 0b00100 0b01 0b010)
  | .fmin_d => some (f3 0b00101 0b01 0b000)
  | .fmax_d => some (f3 0b00101 0b01 0b001)
  | .fcmple_d => some (f3 0b10100 0b01 0b000)
  | .fcmplt_d => some (f3 0b10100 0b01 0b001)
  | .fcmpeq_d => some (f3 0b10100 0b01 0b010)
  | .fclass_d => some (f3r2 0b11100 0b01 0b00000 0b001)
  | .fmv_xd => some (f3r2 0b11100 0b01 0b00000 0b000)
  | .fmv_dx => some (f3r2 0b11110 0b01 0b00000 0b000)
  | .fcvt_wd => some (frm2 0b11000 0b01 0b00000)
  | .fcvt_dw => some (frm2 0b11010 0b01 0b00000)
  | .fcvt_wud => some (frm2 0b11000 0b01 0b00001)
  | .fcvt_dwu => some (frm2 0b11010 0b01 0b00001)
  | .fcvt_ld => some (frm2 0b11000 0b01 0b00010)
  | .fcvt_dl => some (frm2 0b11010 0b01 0b00010)
  | .fcvt_lud => some (frm2 0b11000 0b01 0b00011)
  | .fcvt_dlu => some (frm2 0b11010 0b01 0b00011)
  -- Zfh
  | .flh => some (i 0b001 0b0000111)
  | .fsh => some (i 0b001 0b0100111)
  | .fmadd_h => some (r4 0b10 0b1000011)
  | .fmsub_h => some (r4 0b10 0b1000111)
  | .fnmsub_h => some (r4 0b10 0b1001011)
  | .fnmadd_h => some (r4 0b10 0b1001111)
  | .fadd_h => some (frm 0b00000 0b10)
  | .fsub_h => some (frm 0b00001 0b10)
  | .fmul_h => some (frm 0b00010 0b10)
  | .fdiv_h => some (frm 0b00011 0b10)
  | .fsqrt_h => some (frm2 0b01011 0b10 0b00000)
  | .fsgnj_h => some (f3 0b00100 0b10 0b000)
  | .fsgnjn_h => some (f3 0b00100 0b10 0b001)
  | .fsgnjx_h => some (f3 0b00100 0b10 0b010)
  | .fmin_h => some (f3 0b00101 0b10 0b000)
  | .fmax_h => some (f3 0b00101 0b10 0b001)
  | .fcmple_h => some (f3 0b10100 0b10 0b000)
  | .fcmplt_h => some (f3 0b10100 0b10 0b001)
  | .fcmpeq_h => some (f3 0b10100 0b10 0b010)
  | .fclass_h => some (f3r2 0b11100 0b10 0b00000 0b001)
  | .fmv_xh => some (f3r2 0b11100 0b10 0b00000 0b000)
  | .fmv_hx => some (f3r2 0b11110 0b10 0b00000 0b000)
  | .fcvt_wh => some (frm2 0b11000 0b10 0b00000)
  | .fcvt_hw => some (frm2 0b11010 0b10 0b00000)
  | .fcvt_wuh => some (frm2 0b11000 0b10 0b00001)
  | .fcvt_hwu => some (frm2 0b11010 0b10 0b00001)
  | .fcvt_lh => some (frm2 0b11000 0b10 0b00010)
  | .fcvt_hl => some (frm2 0b11010 0b10 0b00010)
  | .fcvt_luh => some (frm2 0b11000 0b10 0b00011)
  | .fcvt_hlu => some (frm2 0b11010 0b10 0b00011)
  -- conversions between formats
  | .fcvt_sd => some (frm2 0b01000 0b00 0b00001)
  | .fcvt_sh => some (frm2 0b01000 0b00 0b00010)
  | .fcvt_ds => some (frm2 0b01000 0b01 0b00000)
  | .fcvt_dh => some (frm2 0b01000 0b01 0b00010)
  | .fcvt_hs => some (frm2 0b01000 0b10 0b00000)
  | .fcvt_hd => some (frm2 0b01000 0b10 0b00001)
  -- privileged
  | .uret => some (word 0x00200073)
  | .sret => some (word 0x10200073)
  | .mret => some (word 0x30200073)
  | .wfi => some (word 0x10500073)
  | .sfence_vma_nn => some (⟨0xfe007fff, 0x12000073, []⟩)
  -- Zba
  | .sh1add => some (r 0b0010000 0b010 0b0110011)
  | .sh1add_uw => some (r 0b0010000 0b010 0b0111011)
  | .sh2add => some (r 0b0010000 0b100 0b0110011)
  | .sh2add_uw => some (r 0b0010000 0b100 0b0111011)
  | .sh3add => some (r 0b0010000 0b110 0b0110011)
  | .sh3add_uw => some (r 0b0010000 0b110 0b0111011)
  | .add_uw => some (r 0b0000100 0b000 0b0111011)
  | .slli_uw => some (⟨0xfc00707f, 0x0800101b, []⟩)
  -- Zbb
  | .andn => some (r 0b0100000 0b111 0b0110011)
  | .orn => some (r 0b0100000 0b110 0b0110011)
  | .xnor => some (r 0b0100000 0b100 0b0110011)
  | .clz => some (r2 0b0110000 0b00000 0b001 0b0010011)
  | .ctz => some (r2 0b0110000 0b00001 0b001 0b0010011)
  | .cpop => some (r2 0b0110000 0b00010 0b001 0b0010011)
  | .sext_b => some (r2 0b0110000 0b00100 0b001 0b0010011)
  | .sext_h => some (r2 0b0110000 0b00101 0b001 0b0010011)
  | .clzw => some (r2 0b0110000 0b00000 0b001 0b0011011)
  | .ctzw => some (r2 0b0110000 0b00001 0b001 0b0011011)
  | .cpopw => some (r2 0b0110000 0b00010 0b001 0b0011011)
  | .min => some (r 0b0000101 0b100 0b0110011)
  | .minu => some (r 0b0000101 0b101 0b0110011)
  | .max => some (r 0b0000101 0b110 0b0110011)
  | .maxu => some (r 0b0000101 0b111 0b0110011)
  | .rol => some (r 0b0110000 0b001 0b0110011)
  | .rolw => some (r 0b0110000 0b001 0b0111011)
  | .ror => some (r 0b0110000 0b101 0b0110011)
  | .rorw => some (r 0b0110000 0b101 0b0111011)
  | .rori => some (shift x 0b011000 0b101)
  | .roriw => some (r 0b0110000 0b101 0b0011011)
  | .orcb => some (r2 0b0010100 0b00111 0b101 0b0010011)
  | .rev8 => some (match x with
    | .rv32 => r2 0b0110100 0b11000 0b101 0b0010011
    | .rv64 => r2 0b0110101 0b11000 0b101 0b0010011)
  | .zext_h => some (match x with
    | .rv32 => r2 0b0000100 0b00000 0b100 0b0110011
    | .rv64 => r2 0b0000100 0b00000 0b100 0b0111011)
  -- Zbc, Zbs
  | .clmul => some (r 0b0000101 0b001 0b0110011)
  | .clmulr => some (r 0b0000101 0b010 0b0110011)
  | .clmulh => some (r 0b0000101 0b011 0b0110011)
  | .bclr => some (r 0b0100100 0b001 0b0110011)
  | .bclri => some (shift x 0b010010 0b001)
  | .bext => some (r 0b0100100 0b101 0b0110011)
  | .bexti => some (shift x 0b010010 0b101)
  | .binv => some (r 0b0110100 0b001 0b0110011)
  | .binvi => some (shift x 0b011010 0b001)
  | .bset => some (r 0b0010100 0b001 0b0110011)
  | .bseti => some (shift x 0b001010 0b001)
  -- Zicond
  | .czero_eqz => some (r 0b0000111 0b101 0b0110011)
  | .czero_nez => some (r 0b0000111 0b111 0b0110011)
  -- Zimop: `mop.r.n` is 1 n4 00 n3n2 0111 n1n0 rs1 100 rd, `mop.rr.n` is 1 n2 00 n1n0 1 rs2 rs1 100 rd
  | .mop_r_0 => some (mopR 0)
  | .mop_r_1 => some (mopR 1)
  | .mop_r_2 => some (mopR 2)
  | .mop_r_3 => some (mopR 3)
  | .mop_r_4 => some (mopR 4)
  | .mop_r_5 => some (mopR 5)
  | .mop_r_6 => some (mopR 6)
  | .mop_r_7 => some (mopR 7)
  | .mop_r_8 => some (mopR 8)
  | .mop_r_9 => some (mopR 9)
  | .mop_r_10 => some (mopR 10)
  | .mop_r_11 => some (mopR 11)
  | .mop_r_12 => some (mopR 12)
  | .mop_r_13 => some (mopR 13)
  | .mop_r_14 => some (mopR 14)
  | .mop_r_15 => some (mopR 15)
  | .mop_r_16 => some (mopR 16)
  | .mop_r_17 => some (mopR 17)
  | .mop_r_18 => some (mopR 18)
  | .mop_r_19 => some (mopR 19)
  | .mop_r_20 => some (mopR 20)
  | .mop_r_21 => some (mopR 21)
  | .mop_r_22 => some (mopR 22)
  | .mop_r_23 => some (mopR 23)
  | .mop_r_24 => some (mopR 24)
  | .mop_r_25 => some (mopR 25)
  | .mop_r_26 => some (mopR 26)
  | .mop_r_27 => some (mopR 27)
  | .mop_r_28 => some (mopR 28)
  | .mop_r_29 => some (mopR 29)
  | .mop_r_30 => some (mopR 30)
  | .mop_r_31 => some (mopR 31)
  | .mop_rr_0 => some (mopRR 0)
  | .mop_rr_1 => some (mopRR 1)
  | .mop_rr_2 => some (mopRR 2)
  | .mop_rr_3 => some (mopRR 3)
  | .mop_rr_4 => some (mopRR 4)
  | .mop_rr_5 => some (mopRR 5)
  | .mop_rr_6 => some (mopRR 6)
  | .mop_rr_7 => some (mopRR 7)
  -- Zihintpause, Zihintntl, Zicbop
  | .pause => some (word 0x0100000f)
  | .ntl_p1 => some (word 0x00200033)
  | .c_ntl_p1 => some (half 0b1001 0b00000 2 0b10)
  | .ntl_pall => some (word 0x00300033)
  | .c_ntl_pall => some (half 0b1001 0b00000 3 0b10)
  | .ntl_s1 => some (word 0x00400033)
  | .c_ntl_s1 => some (half 0b1001 0b00000 4 0b10)
  | .ntl_all => some (word 0x00500033)
  | .c_ntl_all => some (half 0b1001 0b00000 5 0b10)
  | .prefetch_i => some (⟨0x01f07fff, 0x6013, []⟩)
  | .prefetch_r => some (⟨0x01f07fff, 0x106013, []⟩)
  | .prefetch_w => some (⟨0x01f07fff, 0x306013, []⟩)
  -- C, quadrant 0
  | .caddi4spn => some { c 0b000 0b00 with except := [(0x1fe0, 0)] }
  | .cfld => some (c 0b001 0b00)
  | .clw => some (c 0b010 0b00)
  | .cflw => some (c 0b011 0b00)
  | .cld => some (c 0b011 0b00)
  | .cfsd => some (c 0b101 0b00)
  | .csw => some (c 0b110 0b00)
  | .cfsw => some (c 0b111 0b00)
  | .csd => some (c 0b111 0b00)
  | .cunimp => some (⟨0xffff, 0, []⟩)
  -- C, quadrant 1
  | .cnop => some ⟨0xef83, 0x0001, []⟩
  | .caddi => some { c 0b000 0b01 with except := [(rdField, 0)] }
  | .cjal => some (c 0b001 0b01)
  | .caddiw => some { c 0b001 0b01 with except := [(rdField, 0)] }
  | .cli => some (c 0b010 0b01)
  | .caddi16sp => some ⟨0xe003 + rdField, 0x6001 + 2 * 0x80, [(immField, 0)]⟩
  | .clui => some { c 0b011 0b01 with except := [(rdField, 2 * 0x80), (immField, 0)] }
  | .csrli => some (cshift x 0b00)
  | .csrai => some (cshift x 0b01)
  | .candi => some (⟨0xec03, 0x8801, []⟩)
  | .csub => some (ca 0b100011 0b00)
  | .cxor => some (ca 0b100011 0b01)
  | .cor => some (ca 0b100011 0b10)
  | .cand => some (ca 0b100011 0b11)
  | .csubw => some (ca 0b100111 0b00)
  | .caddw => some (ca 0b100111 0b01)
  | .cj => some (c 0b101 0b01)
  | .cbeqz => some (c 0b110 0b01)
  | .cbnez => some (c 0b111 0b01)
  -- C, quadrant 2
  | .cslli => some (match x with
    | .rv32 => ⟨0xf003, 0x0002, []⟩
    | .rv64 => c 0b000 0b10)
  | .cfldsp => some (c 0b001 0b10)
  | .clwsp => some { c 0b010 0b10 with except := [(rdField, 0)] }
  | .cflwsp => some (c 0b011 0b10)
  | .cldsp => some { c 0b011 0b10 with except := [(rdField, 0)] }
  | .cjr => some ⟨0xf07f, 0x8002, [(rdField, 0)]⟩
  | .cmv => some ⟨0xf003, 0x8002, [(0x007c, 0)]⟩
  | .cebreak => some ⟨0xffff, 0x9002, []⟩
  | .cjalr => some ⟨0xf07f, 0x9002, [(rdField, 0)]⟩
  | .cadd => some ⟨0xf003, 0x9002, [(0x007c, 0)]⟩
  | .cfsdsp => some (c 0b101 0b10)
  | .cswsp => some (c 0b110 0b10)
  | .cfswsp => some (c 0b111 0b10)
  | .csdsp => some (c 0b111 0b10)
  -- Zcb
  | .c_lbu => some (⟨0xfc03, 0x8000, []⟩)
  | .c_lhu => some (⟨0xfc43, 0x8400, []⟩)
  | .c_lh => some (⟨0xfc43, 0x8440, []⟩)
  | .c_sb => some (⟨0xfc03, 0x8800, []⟩)
  | .c_sh => some (⟨0xfc43, 0x8c00, []⟩)
  | .c_zext_b => some (⟨0xfc7f, 0x9c61 + 0b000 * 4, []⟩)
  | .c_sext_b => some (⟨0xfc7f, 0x9c61 + 0b001 * 4, []⟩)
  | .c_zext_h => some (⟨0xfc7f, 0x9c61 + 0b010 * 4, []⟩)
  | .c_sext_h => some (⟨0xfc7f, 0x9c61 + 0b011 * 4, []⟩)
  | .c_not => some (⟨0xfc7f, 0x9c61 + 0b101 * 4, []⟩)
  | .c_mul => some (ca 0b100111 0b10)
  -- Zcmp, Zcmt: at least `ra` is in the register list
  | .cm_push => some (cmpp 0b11000)
  | .cm_pop => some (cmpp 0b11010)
  | .cm_popretz => some (cmpp 0b11100)
  | .cm_popret => some (cmpp 0b11110)
  | .cm_mvsa01 => some ⟨0xfc63, 0xac22, sameSaved⟩
  | .cm_mva01s => some (⟨0xfc63, 0xac62, []⟩)
  | .cm_jt => some (⟨0xff83, 0xa002, []⟩)
  | .cm_jalt => some ⟨0xfc03, 0xa002, [(0x0380, 0)]⟩
  -- Zcmop
  | .c_mop_1 => some (⟨0xffff, 0x6001 + 1 * 0x80, []⟩)
  | .c_mop_3 => some (⟨0xffff, 0x6001 + 3 * 0x80, []⟩)
  | .c_mop_5 => some (⟨0xffff, 0x6001 + 5 * 0x80, []⟩)
  | .c_mop_7 => some (⟨0xffff, 0x6001 + 7 * 0x80, []⟩)
  | .c_mop_9 => some (⟨0xffff, 0x6001 + 9 * 0x80, []⟩)
  | .c_mop_11 => some (⟨0xffff, 0x6001 + 11 * 0x80, []⟩)
  | .c_mop_13 => some (⟨0xffff, 0x6001 + 13 * 0x80, []⟩)
  | .c_mop_15 => some (⟨0xffff, 0x6001 + 15 * 0x80, []⟩)
  -- V: configuration
  | .vsetvli_xn => some (⟨0x8000707f, 0x00007057, []⟩)
  | .vsetivli => some (⟨0xc000707f, 0xc0007057, []⟩)
  | .vsetvl_xn => some (⟨0xfe00707f, 0x80007057, []⟩)
  -- V: loads and stores
  | .vle8 => some (vmem .load 0b00 0b00000 0b000)
  | .vse8 => some (vmem .store 0b00 0b00000 0b000)
  | .vle8ff => some (vmem .load 0b00 0b10000 0b000)
  | .vlse8 => some (vmemx .load 0b10 0b000)
  | .vluxei8 => some (vmemx .load 0b01 0b000)
  | .vloxei8 => some (vmemx .load 0b11 0b000)
  | .vsse8 => some (vmemx .store 0b10 0b000)
  | .vsuxei8 => some (vmemx .store 0b01 0b000)
  | .vsoxei8 => some (vmemx .store 0b11 0b000)
  | .vlsege8 => some (seg (vmem .load 0b00 0b00000 0b000))
  | .vssege8 => some (seg (vmem .store 0b00 0b00000 0b000))
  | .vlssege8 => some (seg (vmemx .load 0b10 0b000))
  | .vluxsegei8 => some (seg (vmemx .load 0b01 0b000))
  | .vloxsegei8 => some (seg (vmemx .load 0b11 0b000))
  | .vsssege8 => some (seg (vmemx .store 0b10 0b000))
  | .vsuxsegei8 => some (seg (vmemx .store 0b01 0b000))
  | .vsoxsegei8 => some (seg (vmemx .store 0b11 0b000))
  | .vl1re8 => some (vwhole .load 1 0b000)
  | .vl2re8 => some (vwhole .load 2 0b000)
  | .vl4re8 => some (vwhole .load 4 0b000)
  | .vl8re8 => some (vwhole .load 8 0b000)
  | .vle16 => some (vmem .load 0b00 0b00000 0b101)
  | .vse16 => some (vmem .store 0b00 0b00000 0b101)
  | .vle16ff => some (vmem .load 0b00 0b10000 0b101)
  | .vlse16 => some (vmemx .load 0b10 0b101)
  | .vluxei16 => some (vmemx .load 0b01 0b101)
  | .vloxei16 => some (vmemx .load 0b11 0b101)
  | .vsse16 => some (vmemx .store 0b10 0b101)
  | .vsuxei16 => some (vmemx .store 0b01 0b101)
  | .vsoxei16 => some (vmemx .store 0b11 0b101)
  | .vlsege16 => some (seg (vmem .load 0b00 0b00000 0b101))
  | .vssege16 => some (seg (vmem .store 0b00 0b00000 0b101))
  | .vlssege16 => some (seg (vmemx .load 0b10 0b101))
  | .vluxsegei16 => some (seg (vmemx .load 0b01 0b101))
  | .vloxsegei16 => some (seg (vmemx .load 0b11 0b101))
  | .vsssege16 => some (seg (vmemx .store 0b10 0b101))
  | .vsuxsegei16 => some (seg (vmemx .store 0b01 0b101))
  | .vsoxsegei16 => some (seg (vmemx .store 0b11 0b101))
  | .vl1re16 => some (vwhole .load 1 0b101)
  | .vl2re16 => some (vwhole .load 2 0b101)
  | .vl4re16 => some (vwhole .load 4 0b101)
  | .vl8re16 => some (vwhole .load 8 0b101)
  | .vle32 => some (vmem .load 0b00 0b00000 0b110)
  | .vse32 => some (vmem .store 0b00 0b00000 0b110)
  | .vle32ff => some (vmem .load 0b00 0b10000 0b110)
  | .vlse32 => some (vmemx .load 0b10 0b110)
  | .vluxei32 => some (vmemx .load 0b01 0b110)
  | .vloxei32 => some (vmemx .load 0b11 0b110)
  | .vsse32 => some (vmemx .store 0b10 0b110)
  | .vsuxei32 => some (vmemx .store 0b01 0b110)
  | .vsoxei32 => some (vmemx .store 0b11 0b110)
  | .vlsege32 => some (seg (vmem .load 0b00 0b00000 0b110))
  | .vssege32 => some (seg (vmem .store 0b00 0b00000 0b110))
  | .vlssege32 => some (seg (vmemx .load 0b10 0b110))
  | .vluxsegei32 => some (seg (vmemx .load 0b01 0b110))
  | .vloxsegei32 => some (seg (vmemx .load 0b11 0b110))
  | .vsssege32 => some (seg (vmemx .store 0b10 0b110))
  | .vsuxsegei32 => some (seg (vmemx .store 0b01 0b110))
  | .vsoxsegei32 => some (seg (vmemx .store 0b11 0b110))
  | .vl1re32 => some (vwhole .load 1 0b110)
  | .vl2re32 => some (vwhole .load 2 0b110)
  | .vl4re32 => some (vwhole .load 4 0b110)
  | .vl8re32 => some (vwhole .load 8 0b110)
  | .vle64 => some (vmem .load 0b00 0b00000 0b111)
  | .vse64 => some (vmem .store 0b00 0b00000 0b111)
  | .vle64ff => some (vmem .load 0b00 0b10000 0b111)
  | .vlse64 => some (vmemx .load 0b10 0b111)
  | .vluxei64 => some (vmemx .load 0b01 0b111)
  | .vloxei64 => some (vmemx .load 0b11 0b111)
  | .vsse64 => some (vmemx .store 0b10 0b111)
  | .vsuxei64 => some (vmemx .store 0b01 0b111)
  | .vsoxei64 => some (vmemx .store 0b11 0b111)
  | .vlsege64 => some (seg (vmem .load 0b00 0b00000 0b111))
  | .vssege64 => some (seg (vmem .store 0b00 0b00000 0b111))
  | .vlssege64 => some (seg (vmemx .load 0b10 0b111))
  | .vluxsegei64 => some (seg (vmemx .load 0b01 0b111))
  | .vloxsegei64 => some (seg (vmemx .load 0b11 0b111))
  | .vsssege64 => some (seg (vmemx .store 0b10 0b111))
  | .vsuxsegei64 => some (seg (vmemx .store 0b01 0b111))
  | .vsoxsegei64 => some (seg (vmemx .store 0b11 0b111))
  | .vl1re64 => some (vwhole .load 1 0b111)
  | .vl2re64 => some (vwhole .load 2 0b111)
  | .vl4re64 => some (vwhole .load 4 0b111)
  | .vl8re64 => some (vwhole .load 8 0b111)
  | .vs1re8 => some (vwhole .store 1 0b000)
  | .vs2re8 => some (vwhole .store 2 0b000)
  | .vs4re8 => some (vwhole .store 4 0b000)
  | .vs8re8 => some (vwhole .store 8 0b000)
  | .vlm => some (unmasked (vmem .load 0b00 0b01011 0b000))
  | .vsm => some (unmasked (vmem .store 0b00 0b01011 0b000))
  -- V: OPIVV, OPIVX, OPIVI
  | .vadd_vv => some (opivv 0b000000)
  | .vadd_vx => some (opivx 0b000000)
  | .vadd_vi => some (opivi 0b000000)
  | .vandn_vv => some (opivv 0b000001)
  | .vandn_vx => some (opivx 0b000001)
  | .vsub_vv => some (opivv 0b000010)
  | .vsub_vx => some (opivx 0b000010)
  | .vrsub_vx => some (opivx 0b000011)
  | .vrsub_vi => some (opivi 0b000011)
  | .vminu_vv => some (opivv 0b000100)
  | .vminu_vx => some (opivx 0b000100)
  | .vmin_vv => some (opivv 0b000101)
  | .vmin_vx => some (opivx 0b000101)
  | .vmaxu_vv => some (opivv 0b000110)
  | .vmaxu_vx => some (opivx 0b000110)
  | .vmax_vv => some (opivv 0b000111)
  | .vmax_vx => some (opivx 0b000111)
  | .vand_vv => some (opivv 0b001001)
  | .vand_vx => some (opivx 0b001001)
  | .vand_vi => some (opivi 0b001001)
  | .vor_vv => some (opivv 0b001010)
  | .vor_vx => some (opivx 0b001010)
  | .vor_vi => some (opivi 0b001010)
  | .vxor_vv => some (opivv 0b001011)
  | .vxor_vx => some (opivx 0b001011)
  | .vxor_vi => some (opivi 0b001011)
  | .vrgather_vv => some (opivv 0b001100)
  | .vrgather_vx => some (opivx 0b001100)
  | .vrgather_vi => some (opivi 0b001100)
  | .vslideup_vx => some (opivx 0b001110)
  | .vslideup_vi => some (opivi 0b001110)
  | .vrgatherei16_vv => some (opivv 0b001110)
  | .vslidedown_vx => some (opivx 0b001111)
  | .vslidedown_vi => some (opivi 0b001111)
  | .vadc_vv => some { masked (opivv 0b010000) with except := [(0xf80, 0)] }
  | .vadc_vx => some { masked (opivx 0b010000) with except := [(0xf80, 0)] }
  | .vadc_vi => some { masked (opivi 0b010000) with except := [(0xf80, 0)] }
  | .vsbc_vv => some { masked (opivv 0b010010) with except := [(0xf80, 0)] }
  | .vsbc_vx => some { masked (opivx 0b010010) with except := [(0xf80, 0)] }
  | .vmadc_vv => some (opivv 0b010001)
  | .vmadc_vx => some (opivx 0b010001)
  | .vmadc_vi => some (opivi 0b010001)
  | .vmsbc_vv => some (opivv 0b010011)
  | .vmsbc_vx => some (opivx 0b010011)
  | .vmerge_vv => some (masked (opivv 0b010111))
  | .vmv_vv => some (vs2zero (unmasked (opivv 0b010111)))
  | .vmerge_vx => some (masked (opivx 0b010111))
  | .vmv_vx => some (vs2zero (unmasked (opivx 0b010111)))
  | .vmerge_vi => some (masked (opivi 0b010111))
  | .vmv_vi => some (vs2zero (unmasked (opivi 0b010111)))
  | .vmseq_vv => some (opivv 0b011000)
  | .vmseq_vx => some (opivx 0b011000)
  | .vmseq_vi => some (opivi 0b011000)
  | .vmsne_vv => some (opivv 0b011001)
  | .vmsne_vx => some (opivx 0b011001)
  | .vmsne_vi => some (opivi 0b011001)
  | .vmsltu_vv => some (opivv 0b011010)
  | .vmsltu_vx => some (opivx 0b011010)
  | .vmslt_vv => some (opivv 0b011011)
  | .vmslt_vx => some (opivx 0b011011)
  | .vmsleu_vv => some (opivv 0b011100)
  | .vmsleu_vx => some (opivx 0b011100)
  | .vmsleu_vi => some (opivi 0b011100)
  | .vmsle_vv => some (opivv 0b011101)
  | .vmsle_vx => some (opivx 0b011101)
  | .vmsle_vi => some (opivi 0b011101)
  | .vmsgtu_vx => some (opivx 0b011110)
  | .vmsgtu_vi => some (opivi 0b011110)
  | .vmsgt_vx => some (opivx 0b011111)
  | .vmsgt_vi => some (opivi 0b011111)
  | .vsaddu_vv => some (opivv 0b100000)
  | .vsaddu_vx => some (opivx 0b100000)
  | .vsaddu_vi => some (opivi 0b100000)
  | .vsadd_vv => some (opivv 0b100001)
  | .vsadd_vx => some (opivx 0b100001)
  | .vsadd_vi => some (opivi 0b100001)
  | .vssubu_vv => some (opivv 0b100010)
  | .vssubu_vx => some (opivx 0b100010)
  | .vssub_vv => some (opivv 0b100011)
  | .vssub_vx => some (opivx 0b100011)
  | .vsll_vv => some (opivv 0b100101)
  | .vsll_vx => some (opivx 0b100101)
  | .vsll_vi => some (opivi 0b100101)
  | .vsmul_vv => some (opivv 0b100111)
  | .vsmul_vx => some (opivx 0b100111)
  | .vsrl_vv => some (opivv 0b101000)
  | .vsrl_vx => some (opivx 0b101000)
  | .vsrl_vi => some (opivi 0b101000)
  | .vsra_vv => some (opivv 0b101001)
  | .vsra_vx => some (opivx 0b101001)
  | .vsra_vi => some (opivi 0b101001)
  | .vssrl_vv => some (opivv 0b101010)
  | .vssrl_vx => some (opivx 0b101010)
  | .vssrl_vi => some (opivi 0b101010)
  | .vssra_vv => some (opivv 0b101011)
  | .vssra_vx => some (opivx 0b101011)
  | .vssra_vi => some (opivi 0b101011)
  | .vnsrl_vv => some (opivv 0b101100)
  | .vnsrl_vx => some (opivx 0b101100)
  | .vnsrl_vi => some (opivi 0b101100)
  | .vnsra_vv => some (opivv 0b101101)
  | .vnsra_vx => some (opivx 0b101101)
  | .vnsra_vi => some (opivi 0b101101)
  | .vnclipu_vv => some (opivv 0b101110)
  | .vnclipu_vx => some (opivx 0b101110)
  | .vnclipu_vi => some (opivi 0b101110)
  | .vnclip_vv => some (opivv 0b101111)
  | .vnclip_vx => some (opivx 0b101111)
  | .vnclip_vi => some (opivi 0b101111)
  | .vwredsumu_vv => some (opivv 0b110000)
  | .vwredsum_vv => some (opivv 0b110001)
  | .vmv1r_vi => some (vs1 0 (unmasked (opivi 0b100111)))
  | .vmv2r_vi => some (vs1 1 (unmasked (opivi 0b100111)))
  | .vmv4r_vi => some (vs1 3 (unmasked (opivi 0b100111)))
  | .vmv8r_vi => some (vs1 7 (unmasked (opivi 0b100111)))
  -- V: OPMVV, OPMVX
  | .vredsum_vv => some (opmvv 0b000000)
  | .vredand_vv => some (opmvv 0b000001)
  | .vredor_vv => some (opmvv 0b000010)
  | .vredxor_vv => some (opmvv 0b000011)
  | .vredminu_vv => some (opmvv 0b000100)
  | .vredmin_vv => some (opmvv 0b000101)
  | .vredmaxu_vv => some (opmvv 0b000110)
  | .vredmax_vv => some (opmvv 0b000111)
  | .vaaddu_vv => some (opmvv 0b001000)
  | .vaaddu_vx => some (opmvx 0b001000)
  | .vaadd_vv => some (opmvv 0b001001)
  | .vaadd_vx => some (opmvx 0b001001)
  | .vasubu_vv => some (opmvv 0b001010)
  | .vasubu_vx => some (opmvx 0b001010)
  | .vasub_vv => some (opmvv 0b001011)
  | .vasub_vx => some (opmvx 0b001011)
  | .vslide1up_vx => some (opmvx 0b001110)
  | .vslide1down_vx => some (opmvx 0b001111)
  | .vcompress_vv => some (unmasked (opmvv 0b010111))
  | .vmandnot_vv => some (unmasked (opmvv 0b011000))
  | .vmand_vv => some (unmasked (opmvv 0b011001))
  | .vmor_vv => some (unmasked (opmvv 0b011010))
  | .vmxor_vv => some (unmasked (opmvv 0b011011))
  | .vmornot_vv => some (unmasked (opmvv 0b011100))
  | .vmnand_vv => some (unmasked (opmvv 0b011101))
  | .vmnor_vv => some (unmasked (opmvv 0b011110))
  | .vmxnor_vv => some (unmasked (opmvv 0b011111))
  | .vdivu_vv => some (opmvv 0b100000)
  | .vdivu_vx => some (opmvx 0b100000)
  | .vdiv_vv => some (opmvv 0b100001)
  | .vdiv_vx => some (opmvx 0b100001)
  | .vremu_vv => some (opmvv 0b100010)
  | .vremu_vx => some (opmvx 0b100010)
  | .vrem_vv => some (opmvv 0b100011)
  | .vrem_vx => some (opmvx 0b100011)
  | .vmulhu_vv => some (opmvv 0b100100)
  | .vmulhu_vx => some (opmvx 0b100100)
  | .vmul_vv => some (opmvv 0b100101)
  | .vmul_vx => some (opmvx 0b100101)
  | .vmulhsu_vv => some (opmvv 0b100110)
  | .vmulhsu_vx => some (opmvx 0b100110)
  | .vmulh_vv => some (opmvv 0b100111)
  | .vmulh_vx => some (opmvx 0b100111)
  | .vmadd_vv => some (opmvv 0b101001)
  | .vmadd_vx => some (opmvx 0b101001)
  | .vnmsub_vv => some (opmvv 0b101011)
  | .vnmsub_vx => some (opmvx 0b101011)
  | .vmacc_vv => some (opmvv 0b101101)
  | .vmacc_vx => some (opmvx 0b101101)
  | .vnmsac_vv => some (opmvv 0b101111)
  | .vnmsac_vx => some (opmvx 0b101111)
  | .vwaddu_vv => some (opmvv 0b110000)
  | .vwaddu_vx => some (opmvx 0b110000)
  | .vwadd_vv => some (opmvv 0b110001)
  | .vwadd_vx => some (opmvx 0b110001)
  | .vwsubu_vv => some (opmvv 0b110010)
  | .vwsubu_vx => some (opmvx 0b110010)
  | .vwsub_vv => some (opmvv 0b110011)
  | .vwsub_vx => some (opmvx 0b110011)
  | .vwaddu_w_vv => some (opmvv 0b110100)
  | .vwaddu_w_vx => some (opmvx 0b110100)
  | .vwadd_w_vv => some (opmvv 0b110101)
  | .vwadd_w_vx => some (opmvx 0b110101)
  | .vwsubu_w_vv => some (opmvv 0b110110)
  | .vwsubu_w_vx => some (opmvx 0b110110)
  | .vwsub_w_vv => some (opmvv 0b110111)
  | .vwsub_w_vx => some (opmvx 0b110111)
  | .vwmulu_vv => some (opmvv 0b111000)
  | .vwmulu_vx => some (opmvx 0b111000)
  | .vwmulsu_vv => some (opmvv 0b111010)
  | .vwmulsu_vx => some (opmvx 0b111010)
  | .vwmul_vv => some (opmvv 0b111011)
  | .vwmul_vx => some (opmvx 0b111011)
  | .vwmaccu_vv => some (opmvv 0b111100)
  | .vwmaccu_vx => some (opmvx 0b111100)
  | .vwmacc_vv => some (opmvv 0b111101)
  | .vwmacc_vx => some (opmvx 0b111101)
  | .vwmaccus_vx => some (opmvx 0b111110)
  | .vwmaccsu_vv => some (opmvv 0b111111)
  | .vwmaccsu_vx => some (opmvx 0b111111)
  | .vmv_x_s => some (vs1 0b00000 (unmasked (opmvv 0b010000)))
  | .vcpop => some (vs1 0b10000 (opmvv 0b010000))
  | .vfirst => some (vs1 0b10001 (opmvv 0b010000))
  | .vmv_s_x => some (vs2zero (unmasked (opmvx 0b010000)))
  | .vzext_vf8 => some (vs1 0b00010 (opmvv 0b010010))
  | .vsext_vf8 => some (vs1 0b00011 (opmvv 0b010010))
  | .vzext_vf4 => some (vs1 0b00100 (opmvv 0b010010))
  | .vsext_vf4 => some (vs1 0b00101 (opmvv 0b010010))
  | .vzext_vf2 => some (vs1 0b00110 (opmvv 0b010010))
  | .vsext_vf2 => some (vs1 0b00111 (opmvv 0b010010))
  | .vmsbf => some (vs1 0b00001 (opmvv 0b010100))
  | .vmsof => some (vs1 0b00010 (opmvv 0b010100))
  | .vmsif => some (vs1 0b00011 (opmvv 0b010100))
  | .viota => some (vs1 0b10000 (opmvv 0b010100))
  | .vid => some (vs2zero (vs1 0b10001 (opmvv 0b010100)))
  -- V: OPFVV, OPFVF
  | .vfadd_vv => some (opfvv 0b000000)
  | .vfadd_vf => some (opfvf 0b000000)
  | .vfredusum_vv => some (opfvv 0b000001)
  | .vfsub_vv => some (opfvv 0b000010)
  | .vfsub_vf => some (opfvf 0b000010)
  | .vfredosum_vv => some (opfvv 0b000011)
  | .vfmin_vv => some (opfvv 0b000100)
  | .vfmin_vf => some (opfvf 0b000100)
  | .vfredmin_vv => some (opfvv 0b000101)
  | .vfmax_vv => some (opfvv 0b000110)
  | .vfmax_vf => some (opfvf 0b000110)
  | .vfredmax_vv => some (opfvv 0b000111)
  | .vfsgnj_vv => some (opfvv 0b001000)
  | .vfsgnj_vf => some (opfvf 0b001000)
  | .vfsgnjn_vv => some (opfvv 0b001001)
  | .vfsgnjn_vf => some (opfvf 0b001001)
  | .vfsgnjx_vv => some (opfvv 0b001010)
  | .vfsgnjx_vf => some (opfvf 0b001010)
  | .vfslide1up_vf => some (opfvf 0b001110)
  | .vfslide1down_vf => some (opfvf 0b001111)
  | .vmfeq_vv => some (opfvv 0b011000)
  | .vmfeq_vf => some (opfvf 0b011000)
  | .vmfle_vv => some (opfvv 0b011001)
  | .vmfle_vf => some (opfvf 0b011001)
  | .vmflt_vv => some (opfvv 0b011011)
  | .vmflt_vf => some (opfvf 0b011011)
  | .vmfne_vv => some (opfvv 0b011100)
  | .vmfne_vf => some (opfvf 0b011100)
  | .vmfgt_vf => some (opfvf 0b011101)
  | .vmfge_vf => some (opfvf 0b011111)
  | .vfdiv_vv => some (opfvv 0b100000)
  | .vfdiv_vf => some (opfvf 0b100000)
  | .vfrdiv_vf => some (opfvf 0b100001)
  | .vfmul_vv => some (opfvv 0b100100)
  | .vfmul_vf => some (opfvf 0b100100)
  | .vfrsub_vf => some (opfvf 0b100111)
  | .vfmadd_vv => some (opfvv 0b101000)
  | .vfmadd_vf => some (opfvf 0b101000)
  | .vfnmadd_vv => some (opfvv 0b101001)
  | .vfnmadd_vf => some (opfvf 0b101001)
  | .vfmsub_vv => some (opfvv 0b101010)
  | .vfmsub_vf => some (opfvf 0b101010)
  | .vfnmsub_vv => some (opfvv 0b101011)
  | .vfnmsub_vf => some (opfvf 0b101011)
  | .vfmacc_vv => some (opfvv 0b101100)
  | .vfmacc_vf => some (opfvf 0b101100)
  | .vfnmacc_vv => some (opfvv 0b101101)
  | .vfnmacc_vf => some (opfvf 0b101101)
  | .vfmsac_vv => some (opfvv 0b101110)
  | .vfmsac_vf => some (opfvf 0b101110)
  | .vfnmsac_vv => some (opfvv 0b101111)
  | .vfnmsac_vf => some (opfvf 0b101111)
  | .vfwadd_vv => some (opfvv 0b110000)
  | .vfwadd_vf => some (opfvf 0b110000)
  | .vfwredusum_vv => some (opfvv 0b110001)
  | .vfwsub_vv => some (opfvv 0b110010)
  | .vfwsub_vf => some (opfvf 0b110010)
  | .vfwredosum_vv => some (opfvv 0b110011)
  | .vfwadd_w_vv => some (opfvv 0b110100)
  | .vfwadd_w_vf => some (opfvf 0b110100)
  | .vfwsub_w_vv => some (opfvv 0b110110)
  | .vfwsub_w_vf => some (opfvf 0b110110)
  | .vfwmul_vv => some (opfvv 0b111000)
  | .vfwmul_vf => some (opfvf 0b111000)
  | .vfwmacc_vv => some (opfvv 0b111100)
  | .vfwmacc_vf => some (opfvf 0b111100)
  | .vfwnmacc_vv => some (opfvv 0b111101)
  | .vfwnmacc_vf => some (opfvf 0b111101)
  | .vfwmsac_vv => some (opfvv 0b111110)
  | .vfwmsac_vf => some (opfvf 0b111110)
  | .vfwnmsac_vv => some (opfvv 0b111111)
  | .vfwnmsac_vf => some (opfvf 0b111111)
  | .vfmv_vf => some (vs2zero (unmasked (opfvf 0b010111)))
  | .vfmerge_vf => some (masked (opfvf 0b010111))
  | .vfmv_f_s => some (vs1 0b00000 (unmasked (opfvv 0b010000)))
  | .vfmv_s_f => some (vs2zero (unmasked (opfvf 0b010000)))
  | .vfcvt_xu_f_v => some (vs1 0b00000 (opfvv 0b010010))
  | .vfcvt_x_f_v => some (vs1 0b00001 (opfvv 0b010010))
  | .vfcvt_f_xu_v => some (vs1 0b00010 (opfvv 0b010010))
  | .vfcvt_f_x_v => some (vs1 0b00011 (opfvv 0b010010))
  | .vfcvt_rtz_xu_f_v => some (vs1 0b00110 (opfvv 0b010010))
  | .vfcvt_rtz_x_f_v => some (vs1 0b00111 (opfvv 0b010010))
  | .vfwcvt_xu_f_v => some (vs1 0b01000 (opfvv 0b010010))
  | .vfwcvt_x_f_v => some (vs1 0b01001 (opfvv 0b010010))
  | .vfwcvt_f_xu_v => some (vs1 0b01010 (opfvv 0b010010))
  | .vfwcvt_f_x_v => some (vs1 0b01011 (opfvv 0b010010))
  | .vfwcvt_f_f_v => some (vs1 0b01100 (opfvv 0b010010))
  | .vfwcvt_rtz_xu_f_v => some (vs1 0b01110 (opfvv 0b010010))
  | .vfwcvt_rtz_x_f_v => some (vs1 0b01111 (opfvv 0b010010))
  | .vfncvt_xu_f_w => some (vs1 0b10000 (opfvv 0b010010))
  | .vfncvt_x_f_w => some (vs1 0b10001 (opfvv 0b010010))
  | .vfncvt_f_xu_w => some (vs1 0b10010 (opfvv 0b010010))
  | .vfncvt_f_x_w => some (vs1 0b10011 (opfvv 0b010010))
  | .vfncvt_f_f_w => some (vs1 0b10100 (opfvv 0b010010))
  | .vfncvt_rod_f_f_w => some (vs1 0b10101 (opfvv 0b010010))
  | .vfncvt_rtz_xu_f_w => some (vs1 0b10110 (opfvv 0b010010))
  | .vfncvt_rtz_x_f_w => some (vs1 0b10111 (opfvv 0b010010))
  | .vfsqrt_v => some (vs1 0b00000 (opfvv 0b010011))
  | .vfrsqrt7_v => some (vs1 0b00100 (opfvv 0b010011))
  | .vfrec7_v => some (vs1 0b00101 (opfvv 0b010011))
  | .vfclass_v => some (vs1 0b10000 (opfvv 0b010011))
  -- Zvbb
  | .vror_vv => some (opivv 0b010100)
  | .vror_vx => some (opivx 0b010100)
  | .vrol_vv => some (opivv 0b010101)
  | .vrol_vx => some (opivx 0b010101)
  | .vror_vi => some (⟨0xf800707f, 0x50003057, []⟩)
  | .vwsll_vv => some (opivv 0b110101)
  | .vwsll_vx => some (opivx 0b110101)
  | .vwsll_vi => some (opivi 0b110101)
  | .vbrev8_v => some (vs1 0b01000 (opmvv 0b010010))
  | .vrev8_v => some (vs1 0b01001 (opmvv 0b010010))
  | .vbrev_v => some (vs1 0b01010 (opmvv 0b010010))
  | .vclz_v => some (vs1 0b01100 (opmvv 0b010010))
  | .vctz_v => some (vs1 0b01101 (opmvv 0b010010))
  | .vcpop_v => some (vs1 0b01110 (opmvv 0b010010))
  | _ => none

/-- The ISA instruction a simulator entry stands for. -/
def canon : Op → Op
  | .j => .jal
  | .jr => .jalr
  | .nop => .addi
  | .csrrs_nr | .csrrs_nw => .csrrs
  | .csrrc_nr | .csrrc_nw => .csrrc
  | .csrrw_nr | .unimp => .csrrw
  | .csrrsi_nr | .csrrsi_nw => .csrrsi
  | .csrrci_nr | .csrrci_nw => .csrrci
  | .csrrwi_nr => .csrrwi
  | .sfence_vma_zz | .sfence_vma_zn | .sfence_vma_nz => .sfence_vma_nn
  | .lui_hint => .lui
  | .auipc_hint => .auipc
  | .addi_hint1 | .addi_hint2 => .addi
  | .slti_hint => .slti
  | .sltiu_hint => .sltiu
  | .xori_hint => .xori
  | .ori_hint => .ori
  | .andi_hint => .andi
  | .srli_hint => .srli
  | .slt_hint => .slt
  | .slli_semihost | .slli_hint1 | .slli_hint2 => .slli
  | .srai_semihost | .srai_hint1 | .srai_hint2 => .srai
  | .add_hint1 | .add_hint2 | .add_hint3 => .add
  | .sub_hint => .sub
  | .sll_hint => .sll
  | .sltu_hint => .sltu
  | .xor_hint => .«xor»
  | .srl_hint => .srl
  | .sra_hint => .sra
  | .or_hint => .«or»
  | .and_hint => .«and»
  | .fence_hint1 | .fence_hint2 | .fence_hint3 | .fence_hint4 | .fence_hint5 | .fence_hint6
  | .fence_hint7 => .fence
  | .cnop_hint => .cnop
  | .caddi_hint => .caddi
  | .cli_hint => .cli
  | .clui_hint => .clui
  | .cmv_hint => .cmv
  | .cslli_hint => .cslli
  | .cadd_hint => .cadd
  | .vsetvli_nz | .vsetvli_zz => .vsetvli_xn
  | .vsetvl_nz | .vsetvl_zz => .vsetvl_xn
  | .vle8_vm1 => .vle8
  | .vle16_vm1 => .vle16
  | .vle32_vm1 => .vle32
  | .vle64_vm1 => .vle64
  | o => o

end Verif.Decode.Isa
