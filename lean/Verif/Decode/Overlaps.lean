import Verif.Decode.Decoders
import Verif.Decode.Masks

/-!
# Instructions that match a common word

For each pair of groups tried by one decoder, the pairs of instructions that
both match some word, with such a word.  Written by `tools/gen_decode.py`.
-/

namespace Verif.Decode

/-- Pairs of instructions, the first from the first group, with a word that
matches both. -/
def clashes : Grp → Grp → List (Op × Op × Nat)
  | .riscv32g_RiscVIHints32, .riscv32g_RiscVIHints32 =>
    [(.addi_hint1, .addi_hint2, 0xffff8013),
     (.slli_hint1, .slli_hint2, 0x1551013),
     (.srai_hint1, .srai_hint2, 0x41ffd013),
     (.fence_hint1, .fence_hint2, 0xf800f),
     (.fence_hint3, .fence_hint4, 0xf8f),
     (.fence_hint3, .fence_hint7, 0xf8f),
     (.fence_hint4, .fence_hint7, 0xf000f8f)]
  | .riscv64g_RiscVGInstBase32, .riscv64g_RiscVGInstBase32 =>
    [(.addi, .nop, 0x13)]
  | .riscv64g_RiscVGHints32, .riscv64g_RiscVGHints32 =>
    [(.addi_hint1, .addi_hint2, 0xffff8013),
     (.slli_hint1, .slli_hint2, 0x1551013),
     (.srai_hint1, .srai_hint2, 0x41ffd013),
     (.fence_hint1, .fence_hint2, 0xf800f),
     (.fence_hint3, .fence_hint4, 0xf8f),
     (.fence_hint3, .fence_hint7, 0xf8f),
     (.fence_hint4, .fence_hint7, 0xf000f8f)]
  | .riscv32g_RiscVIInstBase32, .riscv32g_RiscVIHints32 =>
    [(.slli, .slli_semihost, 0x1f01013),
     (.slli, .slli_hint1, 0x1ff9013),
     (.slli, .slli_hint2, 0x1013),
     (.srai, .srai_semihost, 0x40705013),
     (.srai, .srai_hint1, 0x41ffd013),
     (.srai, .srai_hint2, 0x40005013),
     (.fence, .fence_hint1, 0xff800f),
     (.fence, .fence_hint3, 0xf00f8f),
     (.fence, .fence_hint5, 0xf0000f)]
  | .riscv64g_RiscVGInstBase32, .riscv64g_RiscVGHints32 =>
    [(.lui, .lui_hint, 0x37),
     (.auipc, .auipc_hint, 0x17),
     (.addi, .addi_hint1, 0xffff8013),
     (.addi, .addi_hint2, 0xffff8013),
     (.slti, .slti_hint, 0x2013),
     (.sltiu, .sltiu_hint, 0x3013),
     (.xori, .xori_hint, 0x4013),
     (.ori, .ori_hint, 0x6013),
     (.andi, .andi_hint, 0x7013),
     (.slli, .slli_semihost, 0x1f01013),
     (.slli, .slli_hint1, 0x1ff9013),
     (.slli, .slli_hint2, 0x1013),
     (.srli, .srli_hint, 0x5013),
     (.srai, .srai_semihost, 0x40705013),
     (.srai, .srai_hint1, 0x41ffd013),
     (.srai, .srai_hint2, 0x40005013),
     (.sub, .sub_hint, 0x40000033),
     (.sll, .sll_hint, 0x1033),
     (.slt, .slt_hint, 0x2033),
     (.sltu, .sltu_hint, 0x3033),
     (.«xor», .xor_hint, 0x4033),
     (.srl, .srl_hint, 0x5033),
     (.sra, .sra_hint, 0x40005033),
     (.«or», .or_hint, 0x6033),
     (.«and», .and_hint, 0x7033),
     (.fence, .fence_hint1, 0xff800f),
     (.fence, .fence_hint3, 0xf00f8f),
     (.fence, .fence_hint5, 0xf0000f)]
  | .riscv32g_RiscVIHints32, .riscv_zhintpause_RiscVZhintpause =>
    [(.fence_hint6, .pause, 0x100000f)]
  | .riscv32g_RiscVIHints32, .riscv_zicbop_RiscVZicbop =>
    [(.ori_hint, .prefetch_i, 0x6013)]
  | .riscv32g_RiscVZifenceiInst32, .riscv_zhintpause_RiscVZhintpause =>
    [(.fencei, .pause, 0x100100f)]
  | .riscv32g_RiscVZicsrInst32, .riscv_zimop_RiscVZimop =>
    [(.csrrw, .mop_rr_0, 0x83ff9ff3),
     (.csrrw, .mop_rr_1, 0x87ff9ff3),
     (.csrrw, .mop_rr_2, 0x8bff9ff3),
     (.csrrw, .mop_rr_3, 0x8fff9ff3),
     (.csrrw, .mop_rr_4, 0xc3ff9ff3),
     (.csrrw, .mop_rr_5, 0xc7ff9ff3),
     (.csrrw, .mop_rr_6, 0xcbff9ff3),
     (.csrrw, .mop_rr_7, 0xcfff9ff3),
     (.csrrs, .mop_rr_0, 0x83ffaff3),
     (.csrrs, .mop_rr_1, 0x87ffaff3),
     (.csrrs, .mop_rr_2, 0x8bffaff3),
     (.csrrs, .mop_rr_3, 0x8fffaff3),
     (.csrrs, .mop_rr_4, 0xc3ffaff3),
     (.csrrs, .mop_rr_5, 0xc7ffaff3),
     (.csrrs, .mop_rr_6, 0xcbffaff3),
     (.csrrs, .mop_rr_7, 0xcfffaff3),
     (.csrrc, .mop_rr_0, 0x83ffbff3),
     (.csrrc, .mop_rr_1, 0x87ffbff3),
     (.csrrc, .mop_rr_2, 0x8bffbff3),
     (.csrrc, .mop_rr_3, 0x8fffbff3),
     (.csrrc, .mop_rr_4, 0xc3ffbff3),
     (.csrrc, .mop_rr_5, 0xc7ffbff3),
     (.csrrc, .mop_rr_6, 0xcbffbff3),
     (.csrrc, .mop_rr_7, 0xcfffbff3),
     (.csrrs_nr, .mop_rr_0, 0x83ffa073),
     (.csrrs_nr, .mop_rr_1, 0x87ffa073),
     (.csrrs_nr, .mop_rr_2, 0x8bffa073),
     (.csrrs_nr, .mop_rr_3, 0x8fffa073),
     (.csrrs_nr, .mop_rr_4, 0xc3ffa073),
     (.csrrs_nr, .mop_rr_5, 0xc7ffa073),
     (.csrrs_nr, .mop_rr_6, 0xcbffa073),
     (.csrrs_nr, .mop_rr_7, 0xcfffa073),
     (.csrrc_nr, .mop_rr_0, 0x83ffb073),
     (.csrrc_nr, .mop_rr_1, 0x87ffb073),
     (.csrrc_nr, .mop_rr_2, 0x8bffb073),
     (.csrrc_nr, .mop_rr_3, 0x8fffb073),
     (.csrrc_nr, .mop_rr_4, 0xc3ffb073),
     (.csrrc_nr, .mop_rr_5, 0xc7ffb073),
     (.csrrc_nr, .mop_rr_6, 0xcbffb073),
     (.csrrc_nr, .mop_rr_7, 0xcfffb073),
     (.csrrw_nr, .mop_rr_0, 0x82001073),
     (.csrrw_nr, .mop_rr_1, 0x86001073),
     (.csrrw_nr, .mop_rr_2, 0x8a001073),
     (.csrrw_nr, .mop_rr_3, 0x8e001073),
     (.csrrw_nr, .mop_rr_4, 0xc2001073),
     (.csrrw_nr, .mop_rr_5, 0xc6001073),
     (.csrrw_nr, .mop_rr_6, 0xca001073),
     (.csrrw_nr, .mop_rr_7, 0xce001073),
     (.csrrs_nw, .mop_rr_0, 0x82002073),
     (.csrrs_nw, .mop_rr_1, 0x86002073),
     (.csrrs_nw, .mop_rr_2, 0x8a002073),
     (.csrrs_nw, .mop_rr_3, 0x8e002073),
     (.csrrs_nw, .mop_rr_4, 0xc2002073),
     (.csrrs_nw, .mop_rr_5, 0xc6002073),
     (.csrrs_nw, .mop_rr_6, 0xca002073),
     (.csrrs_nw, .mop_rr_7, 0xce002073),
     (.csrrc_nw, .mop_rr_0, 0x82003073),
     (.csrrc_nw, .mop_rr_1, 0x86003073),
     (.csrrc_nw, .mop_rr_2, 0x8a003073),
     (.csrrc_nw, .mop_rr_3, 0x8e003073),
     (.csrrc_nw, .mop_rr_4, 0xc2003073),
     (.csrrc_nw, .mop_rr_5, 0xc6003073),
     (.csrrc_nw, .mop_rr_6, 0xca003073),
     (.csrrc_nw, .mop_rr_7, 0xce003073),
     (.csrrwi, .mop_rr_0, 0x83ffdff3),
     (.csrrwi, .mop_rr_1, 0x87ffdff3),
     (.csrrwi, .mop_rr_2, 0x8bffdff3),
     (.csrrwi, .mop_rr_3, 0x8fffdff3),
     (.csrrwi, .mop_rr_4, 0xc3ffdff3),
     (.csrrwi, .mop_rr_5, 0xc7ffdff3),
     (.csrrwi, .mop_rr_6, 0xcbffdff3),
     (.csrrwi, .mop_rr_7, 0xcfffdff3),
     (.csrrsi, .mop_rr_0, 0x83ffeff3),
     (.csrrsi, .mop_rr_1, 0x87ffeff3),
     (.csrrsi, .mop_rr_2, 0x8bffeff3),
     (.csrrsi, .mop_rr_3, 0x8fffeff3),
     (.csrrsi, .mop_rr_4, 0xc3ffeff3),
     (.csrrsi, .mop_rr_5, 0xc7ffeff3),
     (.csrrsi, .mop_rr_6, 0xcbffeff3),
     (.csrrsi, .mop_rr_7, 0xcfffeff3),
     (.csrrci, .mop_rr_0, 0x83fffff3),
     (.csrrci, .mop_rr_1, 0x87fffff3),
     (.csrrci, .mop_rr_2, 0x8bfffff3),
     (.csrrci, .mop_rr_3, 0x8ffffff3),
     (.csrrci, .mop_rr_4, 0xc3fffff3),
     (.csrrci, .mop_rr_5, 0xc7fffff3),
     (.csrrci, .mop_rr_6, 0xcbfffff3),
     (.csrrci, .mop_rr_7, 0xcffffff3),
     (.csrrsi_nr, .mop_rr_0, 0x83ffe073),
     (.csrrsi_nr, .mop_rr_1, 0x87ffe073),
     (.csrrsi_nr, .mop_rr_2, 0x8bffe073),
     (.csrrsi_nr, .mop_rr_3, 0x8fffe073),
     (.csrrsi_nr, .mop_rr_4, 0xc3ffe073),
     (.csrrsi_nr, .mop_rr_5, 0xc7ffe073),
     (.csrrsi_nr, .mop_rr_6, 0xcbffe073),
     (.csrrsi_nr, .mop_rr_7, 0xcfffe073),
     (.csrrci_nr, .mop_rr_0, 0x83fff073),
     (.csrrci_nr, .mop_rr_1, 0x87fff073),
     (.csrrci_nr, .mop_rr_2, 0x8bfff073),
     (.csrrci_nr, .mop_rr_3, 0x8ffff073),
     (.csrrci_nr, .mop_rr_4, 0xc3fff073),
     (.csrrci_nr, .mop_rr_5, 0xc7fff073),
     (.csrrci_nr, .mop_rr_6, 0xcbfff073),
     (.csrrci_nr, .mop_rr_7, 0xcffff073),
     (.csrrwi_nr, .mop_rr_0, 0x82005073),
     (.csrrwi_nr, .mop_rr_1, 0x86005073),
     (.csrrwi_nr, .mop_rr_2, 0x8a005073),
     (.csrrwi_nr, .mop_rr_3, 0x8e005073),
     (.csrrwi_nr, .mop_rr_4, 0xc2005073),
     (.csrrwi_nr, .mop_rr_5, 0xc6005073),
     (.csrrwi_nr, .mop_rr_6, 0xca005073),
     (.csrrwi_nr, .mop_rr_7, 0xce005073),
     (.csrrsi_nw, .mop_rr_0, 0x82006073),
     (.csrrsi_nw, .mop_rr_1, 0x86006073),
     (.csrrsi_nw, .mop_rr_2, 0x8a006073),
     (.csrrsi_nw, .mop_rr_3, 0x8e006073),
     (.csrrsi_nw, .mop_rr_4, 0xc2006073),
     (.csrrsi_nw, .mop_rr_5, 0xc6006073),
     (.csrrsi_nw, .mop_rr_6, 0xca006073),
     (.csrrsi_nw, .mop_rr_7, 0xce006073),
     (.csrrci_nw, .mop_rr_0, 0x82007073),
     (.csrrci_nw, .mop_rr_1, 0x86007073),
     (.csrrci_nw, .mop_rr_2, 0x8a007073),
     (.csrrci_nw, .mop_rr_3, 0x8e007073),
     (.csrrci_nw, .mop_rr_4, 0xc2007073),
     (.csrrci_nw, .mop_rr_5, 0xc6007073),
     (.csrrci_nw, .mop_rr_6, 0xca007073),
     (.csrrci_nw, .mop_rr_7, 0xce007073)]
  | .riscv_zimop_RiscVZcmop, .riscv_zc_RiscVCZca =>
    [(.c_mop_1, .clui, 0x6081),
     (.c_mop_3, .clui, 0x6181),
     (.c_mop_5, .clui, 0x6281),
     (.c_mop_7, .clui, 0x6381),
     (.c_mop_9, .clui, 0x6481),
     (.c_mop_11, .clui, 0x6581),
     (.c_mop_13, .clui, 0x6681),
     (.c_mop_15, .clui, 0x6781)]
  | _, _ => []

/-- Mask and value of the instructions of a group. -/
def Grp.masks : Grp → List (Nat × Nat)
  | .riscv32g_RiscVIInstBase32 => m_riscv32g_RiscVIInstBase32
  | .riscv32g_RiscVIHints32 => m_riscv32g_RiscVIHints32
  | .riscv32g_RiscVZifenceiInst32 => m_riscv32g_RiscVZifenceiInst32
  | .riscv32g_RiscVZicsrInst32 => m_riscv32g_RiscVZicsrInst32
  | .riscv32g_RiscVMInst32 => m_riscv32g_RiscVMInst32
  | .riscv32g_RiscVAInst32 => m_riscv32g_RiscVAInst32
  | .riscv32g_RiscVFInst32 => m_riscv32g_RiscVFInst32
  | .riscv32g_RiscVDInst32 => m_riscv32g_RiscVDInst32
  | .riscv32g_RiscVPrivInst32 => m_riscv32g_RiscVPrivInst32
  | .riscv32g_RiscVCInstBase16 => m_riscv32g_RiscVCInstBase16
  | .riscv32g_RiscVCHints16 => m_riscv32g_RiscVCHints16
  | .riscv32zb_RiscVZbaInst32 => m_riscv32zb_RiscVZbaInst32
  | .riscv32zb_RiscVZbbInst32 => m_riscv32zb_RiscVZbbInst32
  | .riscv32zb_RiscVZbbInst32Only => m_riscv32zb_RiscVZbbInst32Only
  | .riscv32zb_RiscVZbbImmInst32 => m_riscv32zb_RiscVZbbImmInst32
  | .riscv32zb_RiscVZbcInst32 => m_riscv32zb_RiscVZbcInst32
  | .riscv32zb_RiscVZbsInst32 => m_riscv32zb_RiscVZbsInst32
  | .riscv32zb_RiscVZbsImmInst32 => m_riscv32zb_RiscVZbsImmInst32
  | .riscv_vector_RiscVVInst32 => m_riscv_vector_RiscVVInst32
  | .riscv64g_RiscVGInstBase32 => m_riscv64g_RiscVGInstBase32
  | .riscv64g_RiscVGHints32 => m_riscv64g_RiscVGHints32
  | .riscv64g_RiscVCInstBase16 => m_riscv64g_RiscVCInstBase16
  | .riscv64g_RiscVCHints16 => m_riscv64g_RiscVCHints16
  | .riscv64zb_RiscVZbaInst64 => m_riscv64zb_RiscVZbaInst64
  | .riscv64zb_RiscVZbbInst64 => m_riscv64zb_RiscVZbbInst64
  | .riscv64zb_RiscVZbsImmInst64 => m_riscv64zb_RiscVZbsImmInst64
  | .riscv_zfh32_RiscVZfh32Inst32 => m_riscv_zfh32_RiscVZfh32Inst32
  | .riscv_zfh64_RiscVZfh64Inst32 => m_riscv_zfh64_RiscVZfh64Inst32
  | .riscv_zvbb_RiscVZvkbInst32 => m_riscv_zvbb_RiscVZvkbInst32
  | .riscv_zvbb_RiscVBasicBitInst32 => m_riscv_zvbb_RiscVBasicBitInst32
  | .riscv_zicond_RiscVZicond => m_riscv_zicond_RiscVZicond
  | .riscv_zimop_RiscVZimop => m_riscv_zimop_RiscVZimop
  | .riscv_zhintpause_RiscVZhintpause => m_riscv_zhintpause_RiscVZhintpause
  | .riscv_zihintntl_RiscVZihintntl => m_riscv_zihintntl_RiscVZihintntl
  | .riscv_zicbop_RiscVZicbop => m_riscv_zicbop_RiscVZicbop
  | .riscv_zimop_RiscVZcmop => m_riscv_zimop_RiscVZcmop
  | .riscv_zihintntl_RiscVCZihintntl => m_riscv_zihintntl_RiscVCZihintntl
  | .riscv_zc_RiscVCZca => m_riscv_zc_RiscVCZca
  | .riscv_zc_RiscVCZcf => m_riscv_zc_RiscVCZcf
  | .riscv_zc_RiscVCZcb32 => m_riscv_zc_RiscVCZcb32
  | .riscv_zc_RiscVCZcmp => m_riscv_zc_RiscVCZcmp
  | .riscv_zc_RiscVCZcmt => m_riscv_zc_RiscVCZcmt

theorem Grp.masks_eq (g : Grp) : g.insts.map Inst.maskVal = g.masks := by
  cases g
  · exact m_riscv32g_RiscVIInstBase32_eq
  · exact m_riscv32g_RiscVIHints32_eq
  · exact m_riscv32g_RiscVZifenceiInst32_eq
  · exact m_riscv32g_RiscVZicsrInst32_eq
  · exact m_riscv32g_RiscVMInst32_eq
  · exact m_riscv32g_RiscVAInst32_eq
  · exact m_riscv32g_RiscVFInst32_eq
  · exact m_riscv32g_RiscVDInst32_eq
  · exact m_riscv32g_RiscVPrivInst32_eq
  · exact m_riscv32g_RiscVCInstBase16_eq
  · exact m_riscv32g_RiscVCHints16_eq
  · exact m_riscv32zb_RiscVZbaInst32_eq
  · exact m_riscv32zb_RiscVZbbInst32_eq
  · exact m_riscv32zb_RiscVZbbInst32Only_eq
  · exact m_riscv32zb_RiscVZbbImmInst32_eq
  · exact m_riscv32zb_RiscVZbcInst32_eq
  · exact m_riscv32zb_RiscVZbsInst32_eq
  · exact m_riscv32zb_RiscVZbsImmInst32_eq
  · exact m_riscv_vector_RiscVVInst32_eq
  · exact m_riscv64g_RiscVGInstBase32_eq
  · exact m_riscv64g_RiscVGHints32_eq
  · exact m_riscv64g_RiscVCInstBase16_eq
  · exact m_riscv64g_RiscVCHints16_eq
  · exact m_riscv64zb_RiscVZbaInst64_eq
  · exact m_riscv64zb_RiscVZbbInst64_eq
  · exact m_riscv64zb_RiscVZbsImmInst64_eq
  · exact m_riscv_zfh32_RiscVZfh32Inst32_eq
  · exact m_riscv_zfh64_RiscVZfh64Inst32_eq
  · exact m_riscv_zvbb_RiscVZvkbInst32_eq
  · exact m_riscv_zvbb_RiscVBasicBitInst32_eq
  · exact m_riscv_zicond_RiscVZicond_eq
  · exact m_riscv_zimop_RiscVZimop_eq
  · exact m_riscv_zhintpause_RiscVZhintpause_eq
  · exact m_riscv_zihintntl_RiscVZihintntl_eq
  · exact m_riscv_zicbop_RiscVZicbop_eq
  · exact m_riscv_zimop_RiscVZcmop_eq
  · exact m_riscv_zihintntl_RiscVCZihintntl_eq
  · exact m_riscv_zc_RiscVCZca_eq
  · exact m_riscv_zc_RiscVCZcf_eq
  · exact m_riscv_zc_RiscVCZcb32_eq
  · exact m_riscv_zc_RiscVCZcmp_eq
  · exact m_riscv_zc_RiscVCZcmt_eq

end Verif.Decode
