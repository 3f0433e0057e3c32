import Verif.Decode.IsaCheck

/-!
# Known deviations from the listing

The groups of the decoders in modules, and for each module the entries that
match words the ISA does not give to their instruction (`unsound`) and the words
of an instruction that no entry for it matches (`gaps`).
-/

namespace Verif.Decode

open Isa

/-- Sets of groups that belong together. -/
inductive Module where
  | rv32g | rv32c | rv64g | rv64c | vec | zb | zbOnly32 | zbOnly64 | zfh32 | zfh64 | zvbb
  | rvm23 | zc
  deriving DecidableEq, Repr

/-- The groups of a module. -/
def Module.groups : Module → List Grp
  | .rv32g =>
    [.riscv32g_RiscVIInstBase32, .riscv32g_RiscVIHints32, .riscv32g_RiscVZifenceiInst32,
     .riscv32g_RiscVZicsrInst32, .riscv32g_RiscVMInst32, .riscv32g_RiscVAInst32,
     .riscv32g_RiscVFInst32, .riscv32g_RiscVDInst32, .riscv32g_RiscVPrivInst32]
  | .rv32c => [.riscv32g_RiscVCInstBase16, .riscv32g_RiscVCHints16]
  | .rv64g => [.riscv64g_RiscVGInstBase32, .riscv64g_RiscVGHints32]
  | .rv64c => [.riscv64g_RiscVCInstBase16, .riscv64g_RiscVCHints16]
  | .vec => [.riscv_vector_RiscVVInst32]
  | .zb =>
    [.riscv32zb_RiscVZbaInst32, .riscv32zb_RiscVZbbInst32, .riscv32zb_RiscVZbcInst32,
     .riscv32zb_RiscVZbsInst32]
  | .zbOnly32 =>
    [.riscv32zb_RiscVZbbInst32Only, .riscv32zb_RiscVZbbImmInst32, .riscv32zb_RiscVZbsImmInst32]
  | .zbOnly64 =>
    [.riscv64zb_RiscVZbaInst64, .riscv64zb_RiscVZbbInst64, .riscv64zb_RiscVZbsImmInst64]
  | .zfh32 => [.riscv_zfh32_RiscVZfh32Inst32]
  | .zfh64 => [.riscv_zfh64_RiscVZfh64Inst32]
  | .zvbb => [.riscv_zvbb_RiscVZvkbInst32, .riscv_zvbb_RiscVBasicBitInst32]
  | .rvm23 =>
    [.riscv_zicond_RiscVZicond, .riscv_zimop_RiscVZimop, .riscv_zhintpause_RiscVZhintpause,
     .riscv_zihintntl_RiscVZihintntl, .riscv_zicbop_RiscVZicbop]
  | .zc =>
    [.riscv_zimop_RiscVZcmop, .riscv_zihintntl_RiscVCZihintntl, .riscv_zc_RiscVCZca,
     .riscv_zc_RiscVCZcf, .riscv_zc_RiscVCZcb32, .riscv_zc_RiscVCZcmp, .riscv_zc_RiscVCZcmt]

/-- The entries of a module. -/
def Module.insts (m : Module) : List Inst := m.groups.flatMap Grp.insts

/-- The modules of a decoder. -/
def Decoder.modules : Decoder → List Module
  | .rv32g_32 => [.rv32g]
  | .rv32g_16 | .rv32gzb_16 | .rv32gv_16 | .rv32gvzb_16 => [.rv32c]
  | .rv32gzb_32 => [.rv32g, .zb, .zbOnly32]
  | .rv32gv_32 => [.rv32g, .vec]
  | .rv32gvzb_32 => [.rv32g, .vec, .zb]
  | .rv64g_32 => [.rv64g]
  | .rv64g_16 | .rv64gzb_16 | .rv64gv_16 | .rv64gvzb_16 => [.rv64c]
  | .rv64gzb_32 => [.rv64g, .zb, .zbOnly64]
  | .rv64gv_32 => [.rv64g, .vec]
  | .rv64gvzb_32 => [.rv64g, .vec, .zb, .zbOnly64]
  | .zfh32_32 => [.zfh32]
  | .zfh64_32 => [.zfh64]
  | .zvbb_32 => [.zvbb]
  | .rvm23_32 => [.rv32g, .zb, .rvm23]
  | .rvm23_16 => [.zc]

/-- The register width a decoder is for (Zvbb is for both). -/
def Decoder.xlen : Decoder → Xlen
  | .rv64g_32 | .rv64g_16 | .rv64gzb_32 | .rv64gzb_16 | .rv64gv_32 | .rv64gv_16 | .rv64gvzb_32
  | .rv64gvzb_16 | .zfh64_32 => .rv64
  | _ => .rv32

theorem modules_groups (d : Decoder) (g : Grp) :
    g ∈ d.groups ↔ ∃ m ∈ d.modules, g ∈ m.groups := by
  have h1 : (d.groups.all fun g => d.modules.any fun m => m.groups.contains g) = true := by
    cases d <;> decide +kernel
  have h2 : (d.modules.all fun m => m.groups.all fun g => d.groups.contains g) = true := by
    cases d <;> decide +kernel
  constructor
  · intro hg
    obtain ⟨m, hm, hc⟩ := List.any_eq_true.1 (List.all_eq_true.1 h1 g hg)
    exact ⟨m, hm, by simpa using hc⟩
  · rintro ⟨m, hm, hg⟩
    simpa using List.all_eq_true.1 (List.all_eq_true.1 h2 m hm) g hg

theorem modules_insts (d : Decoder) (i : Inst) :
    i ∈ d.insts ↔ ∃ m ∈ d.modules, i ∈ m.insts := by
  unfold Decoder.insts Module.insts
  simp only [List.mem_flatMap, modules_groups]
  constructor
  · rintro ⟨g, ⟨m, hm, hg⟩, hi⟩; exact ⟨m, hm, g, hg, hi⟩
  · rintro ⟨m, hm, g, hg, hi⟩; exact ⟨g, ⟨m, hm, hg⟩, hi⟩

/-- Entries that match words the ISA does not assign to their instruction, with
such a word. -/
def unsound : Xlen → Module → List (Op × Nat)
  -- immediate 0 is reserved; bit 12 set is reserved for custom use on RV32
  | _, .rv32c => [(.caddi16sp, 0x6101), (.clui, 0x6081), (.cslli_hint, 0x1002)]
  | _, .zc => [(.caddi16sp, 0x6101), (.clui, 0x6081)]
  | _, .vec =>
    -- vm = 0 is reserved for mask loads and stores
    [(.vlm, 0x00b00007), (.vsm, 0x00b00027),
     -- mew = 1 is reserved
     (.vl1re8, 0x12800007), (.vl1re16, 0x12805007), (.vl1re32, 0x12806007), (.vl1re64, 0x12807007),
     (.vl2re8, 0x32800007), (.vl2re16, 0x32805007), (.vl2re32, 0x32806007), (.vl2re64, 0x32807007),
     (.vl4re8, 0x72800007), (.vl4re16, 0x72805007), (.vl4re32, 0x72806007), (.vl4re64, 0x72807007),
     (.vl8re8, 0xf2800007), (.vl8re16, 0xf2805007), (.vl8re32, 0xf2806007), (.vl8re64, 0xf2807007),
     (.vs1re8, 0x12800027), (.vs2re8, 0x32800027), (.vs4re8, 0x72800027), (.vs8re8, 0xf2800027),
     -- there are no fault-only-first stores
     (.vse8ff, 0x01000027), (.vse16ff, 0x01005027), (.vse32ff, 0x01006027), (.vse64ff, 0x01007027),
     -- whole register stores exist with width 8 only
     (.vs1re16, 0x02805027), (.vs1re32, 0x02806027), (.vs1re64, 0x02807027),
     (.vs2re16, 0x22805027), (.vs2re32, 0x22806027), (.vs2re64, 0x22807027),
     (.vs4re16, 0x62805027), (.vs4re32, 0x62806027), (.vs4re64, 0x62807027),
     (.vs8re16, 0xe2805027), (.vs8re32, 0xe2806027), (.vs8re64, 0xe2807027),
     -- vm = 0 is reserved for these
     (.vmv1r_vi, 0x9c003057), (.vmv2r_vi, 0x9c00b057), (.vmv4r_vi, 0x9c01b057),
     (.vmv8r_vi, 0x9c03b057), (.vcompress_vv, 0x5c002057),
     (.vmandnot_vv, 0x60002057), (.vmand_vv, 0x64002057), (.vmor_vv, 0x68002057),
     (.vmxor_vv, 0x6c002057), (.vmornot_vv, 0x70002057), (.vmnand_vv, 0x74002057),
     (.vmnor_vv, 0x78002057), (.vmxnor_vv, 0x7c002057),
     (.vmv_x_s, 0x40002057), (.vmv_s_x, 0x40006057), (.vfmv_f_s, 0x40001057),
     (.vfmv_s_f, 0x40005057),
     -- there is no such instruction
     (.vwmaccus_vv, 0xf8002057),
     -- vs2 other than 0 is reserved
     (.vid, 0x5018a057)]
  -- RV64 `rev8` has another encoding
  | .rv64, .zb => [(.rev8, 0x69805013)]
  -- opcode OP-IMM-32 instead of OP-IMM
  | .rv64, .zbOnly64 =>
    [(.bclri, 0x4800101b), (.bexti, 0x4800501b), (.binvi, 0x6800101b), (.bseti, 0x2800101b)]
  -- funct3 is not checked; wrong opcodes of the prefetches
  | _, .rvm23 =>
    [(.mop_rr_0, 0x82000073), (.mop_rr_1, 0x86000073), (.mop_rr_2, 0x8a000073),
     (.mop_rr_3, 0x8e000073), (.mop_rr_4, 0xc2000073), (.mop_rr_5, 0xc6000073),
     (.mop_rr_6, 0xca000073), (.mop_rr_7, 0xce000073), (.pause, 0x0100100f),
     (.prefetch_r, 0x00106012), (.prefetch_w, 0x00306011)]
  | _, _ => []

/-- One bit is set. -/
def bitSet (k : Nat) : Nat × Nat := (1 <<< k, 1 <<< k)

/-- Both are so. -/
def both (a b : Nat × Nat) : Nat × Nat := (a.1 ||| b.1, a.2 ||| b.2)

/-- The words of an instruction that no entry for it matches, as pairs of mask
and value. -/
def gaps : Xlen → Module → Op → List (Nat × Nat)
  -- `add x0, x0, x2` to `x5`
  | _, .rv32g, .add | _, .rv64g, .add => [2, 3, 4, 5].map fun k => (0x01ff8f80, k <<< 20)
  -- fm other than 0, and rd, rs1 both other than 0 with succ = 0
  | _, .rv32g, .fence | _, .rv64g, .fence =>
    [28, 29, 30, 31].map bitSet ++
      ([7, 8, 9, 10, 11].flatMap fun k =>
        [15, 16, 17, 18, 19].map fun j => both (0x00f00000, 0) (both (bitSet k) (bitSet j)))
  -- csr = 0xc00 unless rd = rs1 = 0
  | _, .rv32g, .csrrw | _, .rv64g, .csrrw =>
    [7, 8, 9, 10, 11, 15, 16, 17, 18, 19].map fun k => both (0xfff00000, 0xc0000000) (bitSet k)
  -- `c.slli x0, 0`; `c.add x0, x2` to `x5`
  | _, .rv32c, .cslli => [(0xffff, 0x0002)]
  | _, .rv32c, .cadd | _, .rv64c, .cadd => [2, 3, 4, 5].map fun k => (0x0ffc, k <<< 2)
  -- shift amount 0
  | _, .rv64c, .csrli | _, .rv64c, .csrai | _, .rv64c, .cslli => [(0x107c, 0)]
  -- all of them
  | .rv64, .zb, .rev8 | _, .zbOnly64, .bclri | _, .zbOnly64, .bexti | _, .zbOnly64, .binvi
  | _, .zbOnly64, .bseti
  | _, .rvm23, .prefetch_r | _, .rvm23, .prefetch_w => [(0, 0)]
  -- the hints: immediate of `c.nop`, immediate 0, rd = 0
  | _, .zc, .cnop => [2, 3, 4, 5, 6, 12].map bitSet
  | _, .zc, .caddi => [(0x107c, 0)]
  | _, .zc, .cli | _, .zc, .clui | _, .zc, .cslli | _, .zc, .cmv | _, .zc, .cadd => [(0x0f80, 0)]
  | _, _, _ => []

end Verif.Decode
