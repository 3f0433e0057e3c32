import Verif.Decode.Ops

/-!
# The names of the instructions as text

Written by `tools/gen_names.py`.
-/

namespace Verif.Exec

open Decode

/-- The name an entry has in the `.bin_fmt` files, which is also the opcode name of
the `.isa` files. -/
def opName : Op → String
  | .lui => "lui"
  | .auipc => "auipc"
  | .jal => "jal"
  | .j => "j"
  | .jalr => "jalr"
  | .jr => "jr"
  | .beq => "beq"
  | .bne => "bne"
  | .blt => "blt"
  | .bge => "bge"
  | .bltu => "bltu"
  | .bgeu => "bgeu"
  | .lb => "lb"
  | .lh => "lh"
  | .lw => "lw"
  | .lbu => "lbu"
  | .lhu => "lhu"
  | .sb => "sb"
  | .sh => "sh"
  | .sw => "sw"
  | .addi => "addi"
  | .nop => "nop"
  | .slti => "slti"
  | .sltiu => "sltiu"
  | .xori => "xori"
  | .ori => "ori"
  | .andi => "andi"
  | .slli => "slli"
  | .srli => "srli"
  | .srai => "srai"
  | .add => "add"
  | .sub => "sub"
  | .sll => "sll"
  | .slt => "slt"
  | .sltu => "sltu"
  | .«xor» => "xor"
  | .srl => "srl"
  | .sra => "sra"
  | .«or» => "or"
  | .«and» => "and"
  | .fence => "fence"
  | .fence_tso => "fence_tso"
  | .ecall => "ecall"
  | .ebreak => "ebreak"
  | .fencei => "fencei"
  | .csrrw => "csrrw"
  | .csrrs => "csrrs"
  | .csrrc => "csrrc"
  | .csrrs_nr => "csrrs_nr"
  | .csrrc_nr => "csrrc_nr"
  | .csrrw_nr => "csrrw_nr"
  | .csrrs_nw => "csrrs_nw"
  | .csrrc_nw => "csrrc_nw"
  | .csrrwi => "csrrwi"
  | .csrrsi => "csrrsi"
  | .csrrci => "csrrci"
  | .csrrsi_nr => "csrrsi_nr"
  | .csrrci_nr => "csrrci_nr"
  | .csrrwi_nr => "csrrwi_nr"
  | .csrrsi_nw => "csrrsi_nw"
  | .csrrci_nw => "csrrci_nw"
  | .unimp => "unimp"
  | .mul => "mul"
  | .mulh => "mulh"
  | .mulhsu => "mulhsu"
  | .mulhu => "mulhu"
  | .div => "div"
  | .divu => "divu"
  | .rem => "rem"
  | .remu => "remu"
  | .lrw => "lrw"
  | .scw => "scw"
  | .amoswapw => "amoswapw"
  | .amoaddw => "amoaddw"
  | .amoxorw => "amoxorw"
  | .amoandw => "amoandw"
  | .amoorw => "amoorw"
  | .amominw => "amominw"
  | .amomaxw => "amomaxw"
  | .amominuw => "amominuw"
  | .amomaxuw => "amomaxuw"
  | .flw => "flw"
  | .fsw => "fsw"
  | .fmadd_s => "fmadd_s"
  | .fmsub_s => "fmsub_s"
  | .fnmsub_s => "fnmsub_s"
  | .fnmadd_s => "fnmadd_s"
  | .fadd_s => "fadd_s"
  | .fsub_s => "fsub_s"
  | .fmul_s => "fmul_s"
  | .fdiv_s => "fdiv_s"
  | .fsqrt_s => "fsqrt_s"
  | .fsgnj_s => "fsgnj_s"
  | .fsgnjn_s => "fsgnjn_s"
  | .fsgnjx_s => "fsgnjx_s"
  | .fmin_s => "fmin_s"
  | .fmax_s => "fmax_s"
  | .fcvt_ws => "fcvt_ws"
  | .fcvt_wus => "fcvt_wus"
  | .fmv_xw => "fmv_xw"
  | .fcmpeq_s => "fcmpeq_s"
  | .fcmplt_s => "fcmplt_s"
  | .fcmple_s => "fcmple_s"
  | .fclass_s => "fclass_s"
  | .fcvt_sw => "fcvt_sw"
  | .fcvt_swu => "fcvt_swu"
  | .fmv_wx => "fmv_wx"
  | .fld => "fld"
  | .fsd => "fsd"
  | .fmadd_d => "fmadd_d"
  | .fmsub_d => "fmsub_d"
  | .fnmsub_d => "fnmsub_d"
  | .fnmadd_d => "fnmadd_d"
  | .fadd_d => "fadd_d"
  | .fsub_d => "fsub_d"
  | .fmul_d => "fmul_d"
  | .fdiv_d => "fdiv_d"
  | .fsqrt_d => "fsqrt_d"
  | .fsgnj_d => "fsgnj_d"
  | .fsgnjn_d => "fsgnjn_d"
  | .fsgnjx_d => "fsgnjx_d"
  | .fmin_d => "fmin_d"
  | .fmax_d => "fmax_d"
  | .fcvt_sd => "fcvt_sd"
  | .fcvt_ds => "fcvt_ds"
  | .fcmpeq_d => "fcmpeq_d"
  | .fcmplt_d => "fcmplt_d"
  | .fcmple_d => "fcmple_d"
  | .fclass_d => "fclass_d"
  | .fcvt_wd => "fcvt_wd"
  | .fcvt_wud => "fcvt_wud"
  | .fcvt_dw => "fcvt_dw"
  | .fcvt_dwu => "fcvt_dwu"
  | .uret => "uret"
  | .sret => "sret"
  | .mret => "mret"
  | .wfi => "wfi"
  | .sfence_vma_zz => "sfence_vma_zz"
  | .sfence_vma_zn => "sfence_vma_zn"
  | .sfence_vma_nz => "sfence_vma_nz"
  | .sfence_vma_nn => "sfence_vma_nn"
  | .lui_hint => "lui_hint"
  | .auipc_hint => "auipc_hint"
  | .addi_hint1 => "addi_hint1"
  | .addi_hint2 => "addi_hint2"
  | .slti_hint => "slti_hint"
  | .sltiu_hint => "sltiu_hint"
  | .xori_hint => "xori_hint"
  | .ori_hint => "ori_hint"
  | .andi_hint => "andi_hint"
  | .srli_hint => "srli_hint"
  | .slt_hint => "slt_hint"
  | .slli_semihost => "slli_semihost"
  | .slli_hint1 => "slli_hint1"
  | .slli_hint2 => "slli_hint2"
  | .srai_semihost => "srai_semihost"
  | .srai_hint1 => "srai_hint1"
  | .srai_hint2 => "srai_hint2"
  | .add_hint1 => "add_hint1"
  | .add_hint2 => "add_hint2"
  | .add_hint3 => "add_hint3"
  | .sub_hint => "sub_hint"
  | .sll_hint => "sll_hint"
  | .sltu_hint => "sltu_hint"
  | .xor_hint => "xor_hint"
  | .srl_hint => "srl_hint"
  | .sra_hint => "sra_hint"
  | .or_hint => "or_hint"
  | .and_hint => "and_hint"
  | .fence_hint1 => "fence_hint1"
  | .fence_hint2 => "fence_hint2"
  | .fence_hint3 => "fence_hint3"
  | .fence_hint4 => "fence_hint4"
  | .fence_hint5 => "fence_hint5"
  | .fence_hint6 => "fence_hint6"
  | .fence_hint7 => "fence_hint7"
  | .caddi4spn => "caddi4spn"
  | .cfld => "cfld"
  | .clw => "clw"
  | .cflw => "cflw"
  | .cfsd => "cfsd"
  | .csw => "csw"
  | .cfsw => "cfsw"
  | .cnop => "cnop"
  | .caddi => "caddi"
  | .cjal => "cjal"
  | .cli => "cli"
  | .caddi16sp => "caddi16sp"
  | .clui => "clui"
  | .csrli => "csrli"
  | .csrai => "csrai"
  | .candi => "candi"
  | .csub => "csub"
  | .cxor => "cxor"
  | .cor => "cor"
  | .cand => "cand"
  | .cj => "cj"
  | .cbeqz => "cbeqz"
  | .cbnez => "cbnez"
  | .cslli => "cslli"
  | .cfldsp => "cfldsp"
  | .clwsp => "clwsp"
  | .cflwsp => "cflwsp"
  | .cjr => "cjr"
  | .cmv => "cmv"
  | .cebreak => "cebreak"
  | .cjalr => "cjalr"
  | .cadd => "cadd"
  | .cfsdsp => "cfsdsp"
  | .cswsp => "cswsp"
  | .cfswsp => "cfswsp"
  | .cunimp => "cunimp"
  | .cnop_hint => "cnop_hint"
  | .caddi_hint => "caddi_hint"
  | .cli_hint => "cli_hint"
  | .clui_hint => "clui_hint"
  | .cmv_hint => "cmv_hint"
  | .cslli_hint => "cslli_hint"
  | .cadd_hint => "cadd_hint"
  | .sh1add => "sh1add"
  | .sh2add => "sh2add"
  | .sh3add => "sh3add"
  | .andn => "andn"
  | .orn => "orn"
  | .xnor => "xnor"
  | .clz => "clz"
  | .ctz => "ctz"
  | .cpop => "cpop"
  | .max => "max"
  | .maxu => "maxu"
  | .min => "min"
  | .minu => "minu"
  | .sext_b => "sext_b"
  | .sext_h => "sext_h"
  | .rol => "rol"
  | .ror => "ror"
  | .orcb => "orcb"
  | .rev8 => "rev8"
  | .zext_h => "zext_h"
  | .rori => "rori"
  | .clmul => "clmul"
  | .clmulh => "clmulh"
  | .clmulr => "clmulr"
  | .bclr => "bclr"
  | .bext => "bext"
  | .binv => "binv"
  | .bset => "bset"
  | .bclri => "bclri"
  | .bexti => "bexti"
  | .binvi => "binvi"
  | .bseti => "bseti"
  | .ld => "ld"
  | .lwu => "lwu"
  | .sd => "sd"
  | .addiw => "addiw"
  | .slliw => "slliw"
  | .srliw => "srliw"
  | .sraiw => "sraiw"
  | .addw => "addw"
  | .subw => "subw"
  | .sllw => "sllw"
  | .srlw => "srlw"
  | .sraw => "sraw"
  | .mulw => "mulw"
  | .divw => "divw"
  | .divuw => "divuw"
  | .remw => "remw"
  | .remuw => "remuw"
  | .lrd => "lrd"
  | .scd => "scd"
  | .amoswapd => "amoswapd"
  | .amoaddd => "amoaddd"
  | .amoxord => "amoxord"
  | .amoandd => "amoandd"
  | .amoord => "amoord"
  | .amomind => "amomind"
  | .amomaxd => "amomaxd"
  | .amominud => "amominud"
  | .amomaxud => "amomaxud"
  | .fcvt_ls => "fcvt_ls"
  | .fcvt_lus => "fcvt_lus"
  | .fcvt_sl => "fcvt_sl"
  | .fcvt_slu => "fcvt_slu"
  | .fcvt_ld => "fcvt_ld"
  | .fcvt_lud => "fcvt_lud"
  | .fcvt_dl => "fcvt_dl"
  | .fcvt_dlu => "fcvt_dlu"
  | .fmv_xd => "fmv_xd"
  | .fmv_dx => "fmv_dx"
  | .cld => "cld"
  | .csd => "csd"
  | .caddiw => "caddiw"
  | .csubw => "csubw"
  | .caddw => "caddw"
  | .cldsp => "cldsp"
  | .csdsp => "csdsp"
  | .add_uw => "add_uw"
  | .sh1add_uw => "sh1add_uw"
  | .sh2add_uw => "sh2add_uw"
  | .sh3add_uw => "sh3add_uw"
  | .slli_uw => "slli_uw"
  | .clzw => "clzw"
  | .cpopw => "cpopw"
  | .ctzw => "ctzw"
  | .rolw => "rolw"
  | .roriw => "roriw"
  | .rorw => "rorw"
  | .vsetvli_xn => "vsetvli_xn"
  | .vsetvli_nz => "vsetvli_nz"
  | .vsetvli_zz => "vsetvli_zz"
  | .vsetivli => "vsetivli"
  | .vsetvl_xn => "vsetvl_xn"
  | .vsetvl_nz => "vsetvl_nz"
  | .vsetvl_zz => "vsetvl_zz"
  | .vle8 => "vle8"
  | .vle16 => "vle16"
  | .vle32 => "vle32"
  | .vle64 => "vle64"
  | .vle8_vm1 => "vle8_vm1"
  | .vle16_vm1 => "vle16_vm1"
  | .vle32_vm1 => "vle32_vm1"
  | .vle64_vm1 => "vle64_vm1"
  | .vlm => "vlm"
  | .vle8ff => "vle8ff"
  | .vle16ff => "vle16ff"
  | .vle32ff => "vle32ff"
  | .vle64ff => "vle64ff"
  | .vl1re8 => "vl1re8"
  | .vl1re16 => "vl1re16"
  | .vl1re32 => "vl1re32"
  | .vl1re64 => "vl1re64"
  | .vl2re8 => "vl2re8"
  | .vl2re16 => "vl2re16"
  | .vl2re32 => "vl2re32"
  | .vl2re64 => "vl2re64"
  | .vl4re8 => "vl4re8"
  | .vl4re16 => "vl4re16"
  | .vl4re32 => "vl4re32"
  | .vl4re64 => "vl4re64"
  | .vl8re8 => "vl8re8"
  | .vl8re16 => "vl8re16"
  | .vl8re32 => "vl8re32"
  | .vl8re64 => "vl8re64"
  | .vlse8 => "vlse8"
  | .vlse16 => "vlse16"
  | .vlse32 => "vlse32"
  | .vlse64 => "vlse64"
  | .vluxei8 => "vluxei8"
  | .vluxei16 => "vluxei16"
  | .vluxei32 => "vluxei32"
  | .vluxei64 => "vluxei64"
  | .vloxei8 => "vloxei8"
  | .vloxei16 => "vloxei16"
  | .vloxei32 => "vloxei32"
  | .vloxei64 => "vloxei64"
  | .vlsege8 => "vlsege8"
  | .vlsege16 => "vlsege16"
  | .vlsege32 => "vlsege32"
  | .vlsege64 => "vlsege64"
  | .vlssege8 => "vlssege8"
  | .vlssege16 => "vlssege16"
  | .vlssege32 => "vlssege32"
  | .vlssege64 => "vlssege64"
  | .vluxsegei8 => "vluxsegei8"
  | .vluxsegei16 => "vluxsegei16"
  | .vluxsegei32 => "vluxsegei32"
  | .vluxsegei64 => "vluxsegei64"
  | .vloxsegei8 => "vloxsegei8"
  | .vloxsegei16 => "vloxsegei16"
  | .vloxsegei32 => "vloxsegei32"
  | .vloxsegei64 => "vloxsegei64"
  | .vse8 => "vse8"
  | .vse16 => "vse16"
  | .vse32 => "vse32"
  | .vse64 => "vse64"
  | .vsm => "vsm"
  | .vse8ff => "vse8ff"
  | .vse16ff => "vse16ff"
  | .vse32ff => "vse32ff"
  | .vse64ff => "vse64ff"
  | .vs1re8 => "vs1re8"
  | .vs1re16 => "vs1re16"
  | .vs1re32 => "vs1re32"
  | .vs1re64 => "vs1re64"
  | .vs2re8 => "vs2re8"
  | .vs2re16 => "vs2re16"
  | .vs2re32 => "vs2re32"
  | .vs2re64 => "vs2re64"
  | .vs4re8 => "vs4re8"
  | .vs4re16 => "vs4re16"
  | .vs4re32 => "vs4re32"
  | .vs4re64 => "vs4re64"
  | .vs8re8 => "vs8re8"
  | .vs8re16 => "vs8re16"
  | .vs8re32 => "vs8re32"
  | .vs8re64 => "vs8re64"
  | .vsse8 => "vsse8"
  | .vsse16 => "vsse16"
  | .vsse32 => "vsse32"
  | .vsse64 => "vsse64"
  | .vsuxei8 => "vsuxei8"
  | .vsuxei16 => "vsuxei16"
  | .vsuxei32 => "vsuxei32"
  | .vsuxei64 => "vsuxei64"
  | .vsoxei8 => "vsoxei8"
  | .vsoxei16 => "vsoxei16"
  | .vsoxei32 => "vsoxei32"
  | .vsoxei64 => "vsoxei64"
  | .vssege8 => "vssege8"
  | .vssege16 => "vssege16"
  | .vssege32 => "vssege32"
  | .vssege64 => "vssege64"
  | .vsssege8 => "vsssege8"
  | .vsssege16 => "vsssege16"
  | .vsssege32 => "vsssege32"
  | .vsssege64 => "vsssege64"
  | .vsuxsegei8 => "vsuxsegei8"
  | .vsuxsegei16 => "vsuxsegei16"
  | .vsuxsegei32 => "vsuxsegei32"
  | .vsuxsegei64 => "vsuxsegei64"
  | .vsoxsegei8 => "vsoxsegei8"
  | .vsoxsegei16 => "vsoxsegei16"
  | .vsoxsegei32 => "vsoxsegei32"
  | .vsoxsegei64 => "vsoxsegei64"
  | .vadd_vv => "vadd_vv"
  | .vadd_vx => "vadd_vx"
  | .vadd_vi => "vadd_vi"
  | .vsub_vv => "vsub_vv"
  | .vsub_vx => "vsub_vx"
  | .vrsub_vx => "vrsub_vx"
  | .vrsub_vi => "vrsub_vi"
  | .vminu_vv => "vminu_vv"
  | .vminu_vx => "vminu_vx"
  | .vmin_vv => "vmin_vv"
  | .vmin_vx => "vmin_vx"
  | .vmaxu_vv => "vmaxu_vv"
  | .vmaxu_vx => "vmaxu_vx"
  | .vmax_vv => "vmax_vv"
  | .vmax_vx => "vmax_vx"
  | .vand_vv => "vand_vv"
  | .vand_vx => "vand_vx"
  | .vand_vi => "vand_vi"
  | .vor_vv => "vor_vv"
  | .vor_vx => "vor_vx"
  | .vor_vi => "vor_vi"
  | .vxor_vv => "vxor_vv"
  | .vxor_vx => "vxor_vx"
  | .vxor_vi => "vxor_vi"
  | .vrgather_vv => "vrgather_vv"
  | .vrgather_vx => "vrgather_vx"
  | .vrgather_vi => "vrgather_vi"
  | .vslideup_vx => "vslideup_vx"
  | .vslideup_vi => "vslideup_vi"
  | .vrgatherei16_vv => "vrgatherei16_vv"
  | .vslidedown_vx => "vslidedown_vx"
  | .vslidedown_vi => "vslidedown_vi"
  | .vadc_vv => "vadc_vv"
  | .vadc_vx => "vadc_vx"
  | .vadc_vi => "vadc_vi"
  | .vmadc_vv => "vmadc_vv"
  | .vmadc_vx => "vmadc_vx"
  | .vmadc_vi => "vmadc_vi"
  | .vsbc_vv => "vsbc_vv"
  | .vsbc_vx => "vsbc_vx"
  | .vmsbc_vv => "vmsbc_vv"
  | .vmsbc_vx => "vmsbc_vx"
  | .vmerge_vv => "vmerge_vv"
  | .vmerge_vx => "vmerge_vx"
  | .vmerge_vi => "vmerge_vi"
  | .vmv_vv => "vmv_vv"
  | .vmv_vx => "vmv_vx"
  | .vmv_vi => "vmv_vi"
  | .vmseq_vv => "vmseq_vv"
  | .vmseq_vx => "vmseq_vx"
  | .vmseq_vi => "vmseq_vi"
  | .vmsne_vv => "vmsne_vv"
  | .vmsne_vx => "vmsne_vx"
  | .vmsne_vi => "vmsne_vi"
  | .vmsltu_vv => "vmsltu_vv"
  | .vmsltu_vx => "vmsltu_vx"
  | .vmslt_vv => "vmslt_vv"
  | .vmslt_vx => "vmslt_vx"
  | .vmsleu_vv => "vmsleu_vv"
  | .vmsleu_vx => "vmsleu_vx"
  | .vmsleu_vi => "vmsleu_vi"
  | .vmsle_vv => "vmsle_vv"
  | .vmsle_vx => "vmsle_vx"
  | .vmsle_vi => "vmsle_vi"
  | .vmsgtu_vx => "vmsgtu_vx"
  | .vmsgtu_vi => "vmsgtu_vi"
  | .vmsgt_vx => "vmsgt_vx"
  | .vmsgt_vi => "vmsgt_vi"
  | .vsaddu_vv => "vsaddu_vv"
  | .vsaddu_vx => "vsaddu_vx"
  | .vsaddu_vi => "vsaddu_vi"
  | .vsadd_vv => "vsadd_vv"
  | .vsadd_vx => "vsadd_vx"
  | .vsadd_vi => "vsadd_vi"
  | .vssubu_vv => "vssubu_vv"
  | .vssubu_vx => "vssubu_vx"
  | .vssub_vv => "vssub_vv"
  | .vssub_vx => "vssub_vx"
  | .vsll_vv => "vsll_vv"
  | .vsll_vx => "vsll_vx"
  | .vsll_vi => "vsll_vi"
  | .vsmul_vv => "vsmul_vv"
  | .vsmul_vx => "vsmul_vx"
  | .vmv1r_vi => "vmv1r_vi"
  | .vmv2r_vi => "vmv2r_vi"
  | .vmv4r_vi => "vmv4r_vi"
  | .vmv8r_vi => "vmv8r_vi"
  | .vsrl_vv => "vsrl_vv"
  | .vsrl_vx => "vsrl_vx"
  | .vsrl_vi => "vsrl_vi"
  | .vsra_vv => "vsra_vv"
  | .vsra_vx => "vsra_vx"
  | .vsra_vi => "vsra_vi"
  | .vssrl_vv => "vssrl_vv"
  | .vssrl_vx => "vssrl_vx"
  | .vssrl_vi => "vssrl_vi"
  | .vssra_vv => "vssra_vv"
  | .vssra_vx => "vssra_vx"
  | .vssra_vi => "vssra_vi"
  | .vnsrl_vv => "vnsrl_vv"
  | .vnsrl_vx => "vnsrl_vx"
  | .vnsrl_vi => "vnsrl_vi"
  | .vnsra_vv => "vnsra_vv"
  | .vnsra_vx => "vnsra_vx"
  | .vnsra_vi => "vnsra_vi"
  | .vnclipu_vv => "vnclipu_vv"
  | .vnclipu_vx => "vnclipu_vx"
  | .vnclipu_vi => "vnclipu_vi"
  | .vnclip_vv => "vnclip_vv"
  | .vnclip_vx => "vnclip_vx"
  | .vnclip_vi => "vnclip_vi"
  | .vwredsumu_vv => "vwredsumu_vv"
  | .vwredsum_vv => "vwredsum_vv"
  | .vredsum_vv => "vredsum_vv"
  | .vredand_vv => "vredand_vv"
  | .vredor_vv => "vredor_vv"
  | .vredxor_vv => "vredxor_vv"
  | .vredminu_vv => "vredminu_vv"
  | .vredmin_vv => "vredmin_vv"
  | .vredmaxu_vv => "vredmaxu_vv"
  | .vredmax_vv => "vredmax_vv"
  | .vaaddu_vv => "vaaddu_vv"
  | .vaaddu_vx => "vaaddu_vx"
  | .vaadd_vv => "vaadd_vv"
  | .vaadd_vx => "vaadd_vx"
  | .vasubu_vv => "vasubu_vv"
  | .vasubu_vx => "vasubu_vx"
  | .vasub_vv => "vasub_vv"
  | .vasub_vx => "vasub_vx"
  | .vslide1up_vx => "vslide1up_vx"
  | .vslide1down_vx => "vslide1down_vx"
  | .vcompress_vv => "vcompress_vv"
  | .vmandnot_vv => "vmandnot_vv"
  | .vmand_vv => "vmand_vv"
  | .vmor_vv => "vmor_vv"
  | .vmxor_vv => "vmxor_vv"
  | .vmornot_vv => "vmornot_vv"
  | .vmnand_vv => "vmnand_vv"
  | .vmnor_vv => "vmnor_vv"
  | .vmxnor_vv => "vmxnor_vv"
  | .vdivu_vv => "vdivu_vv"
  | .vdivu_vx => "vdivu_vx"
  | .vdiv_vv => "vdiv_vv"
  | .vdiv_vx => "vdiv_vx"
  | .vremu_vv => "vremu_vv"
  | .vremu_vx => "vremu_vx"
  | .vrem_vv => "vrem_vv"
  | .vrem_vx => "vrem_vx"
  | .vmulhu_vv => "vmulhu_vv"
  | .vmulhu_vx => "vmulhu_vx"
  | .vmul_vv => "vmul_vv"
  | .vmul_vx => "vmul_vx"
  | .vmulhsu_vv => "vmulhsu_vv"
  | .vmulhsu_vx => "vmulhsu_vx"
  | .vmulh_vv => "vmulh_vv"
  | .vmulh_vx => "vmulh_vx"
  | .vmadd_vv => "vmadd_vv"
  | .vmadd_vx => "vmadd_vx"
  | .vnmsub_vv => "vnmsub_vv"
  | .vnmsub_vx => "vnmsub_vx"
  | .vmacc_vv => "vmacc_vv"
  | .vmacc_vx => "vmacc_vx"
  | .vnmsac_vv => "vnmsac_vv"
  | .vnmsac_vx => "vnmsac_vx"
  | .vwaddu_vv => "vwaddu_vv"
  | .vwaddu_vx => "vwaddu_vx"
  | .vwadd_vv => "vwadd_vv"
  | .vwadd_vx => "vwadd_vx"
  | .vwsubu_vv => "vwsubu_vv"
  | .vwsubu_vx => "vwsubu_vx"
  | .vwsub_vv => "vwsub_vv"
  | .vwsub_vx => "vwsub_vx"
  | .vwaddu_w_vv => "vwaddu_w_vv"
  | .vwaddu_w_vx => "vwaddu_w_vx"
  | .vwadd_w_vv => "vwadd_w_vv"
  | .vwadd_w_vx => "vwadd_w_vx"
  | .vwsubu_w_vv => "vwsubu_w_vv"
  | .vwsubu_w_vx => "vwsubu_w_vx"
  | .vwsub_w_vv => "vwsub_w_vv"
  | .vwsub_w_vx => "vwsub_w_vx"
  | .vwmulu_vv => "vwmulu_vv"
  | .vwmulu_vx => "vwmulu_vx"
  | .vwmulsu_vv => "vwmulsu_vv"
  | .vwmulsu_vx => "vwmulsu_vx"
  | .vwmul_vv => "vwmul_vv"
  | .vwmul_vx => "vwmul_vx"
  | .vwmaccu_vv => "vwmaccu_vv"
  | .vwmaccu_vx => "vwmaccu_vx"
  | .vwmacc_vv => "vwmacc_vv"
  | .vwmacc_vx => "vwmacc_vx"
  | .vwmaccus_vv => "vwmaccus_vv"
  | .vwmaccus_vx => "vwmaccus_vx"
  | .vwmaccsu_vv => "vwmaccsu_vv"
  | .vwmaccsu_vx => "vwmaccsu_vx"
  | .vfadd_vv => "vfadd_vv"
  | .vfadd_vf => "vfadd_vf"
  | .vfredusum_vv => "vfredusum_vv"
  | .vfsub_vv => "vfsub_vv"
  | .vfsub_vf => "vfsub_vf"
  | .vfredosum_vv => "vfredosum_vv"
  | .vfmin_vv => "vfmin_vv"
  | .vfmin_vf => "vfmin_vf"
  | .vfredmin_vv => "vfredmin_vv"
  | .vfmax_vv => "vfmax_vv"
  | .vfmax_vf => "vfmax_vf"
  | .vfredmax_vv => "vfredmax_vv"
  | .vfsgnj_vv => "vfsgnj_vv"
  | .vfsgnj_vf => "vfsgnj_vf"
  | .vfsgnjn_vv => "vfsgnjn_vv"
  | .vfsgnjn_vf => "vfsgnjn_vf"
  | .vfsgnjx_vv => "vfsgnjx_vv"
  | .vfsgnjx_vf => "vfsgnjx_vf"
  | .vfslide1up_vf => "vfslide1up_vf"
  | .vfslide1down_vf => "vfslide1down_vf"
  | .vfmv_vf => "vfmv_vf"
  | .vfmerge_vf => "vfmerge_vf"
  | .vmfeq_vv => "vmfeq_vv"
  | .vmfeq_vf => "vmfeq_vf"
  | .vmfle_vv => "vmfle_vv"
  | .vmfle_vf => "vmfle_vf"
  | .vmflt_vv => "vmflt_vv"
  | .vmflt_vf => "vmflt_vf"
  | .vmfne_vv => "vmfne_vv"
  | .vmfne_vf => "vmfne_vf"
  | .vmfgt_vf => "vmfgt_vf"
  | .vmfge_vf => "vmfge_vf"
  | .vfdiv_vv => "vfdiv_vv"
  | .vfdiv_vf => "vfdiv_vf"
  | .vfrdiv_vf => "vfrdiv_vf"
  | .vfmul_vv => "vfmul_vv"
  | .vfmul_vf => "vfmul_vf"
  | .vfrsub_vf => "vfrsub_vf"
  | .vfmadd_vv => "vfmadd_vv"
  | .vfmadd_vf => "vfmadd_vf"
  | .vfnmadd_vv => "vfnmadd_vv"
  | .vfnmadd_vf => "vfnmadd_vf"
  | .vfmsub_vv => "vfmsub_vv"
  | .vfmsub_vf => "vfmsub_vf"
  | .vfnmsub_vv => "vfnmsub_vv"
  | .vfnmsub_vf => "vfnmsub_vf"
  | .vfmacc_vv => "vfmacc_vv"
  | .vfmacc_vf => "vfmacc_vf"
  | .vfnmacc_vv => "vfnmacc_vv"
  | .vfnmacc_vf => "vfnmacc_vf"
  | .vfmsac_vv => "vfmsac_vv"
  | .vfmsac_vf => "vfmsac_vf"
  | .vfnmsac_vv => "vfnmsac_vv"
  | .vfnmsac_vf => "vfnmsac_vf"
  | .vfwadd_vv => "vfwadd_vv"
  | .vfwadd_vf => "vfwadd_vf"
  | .vfwredusum_vv => "vfwredusum_vv"
  | .vfwsub_vv => "vfwsub_vv"
  | .vfwsub_vf => "vfwsub_vf"
  | .vfwredosum_vv => "vfwredosum_vv"
  | .vfwadd_w_vv => "vfwadd_w_vv"
  | .vfwadd_w_vf => "vfwadd_w_vf"
  | .vfwsub_w_vv => "vfwsub_w_vv"
  | .vfwsub_w_vf => "vfwsub_w_vf"
  | .vfwmul_vv => "vfwmul_vv"
  | .vfwmul_vf => "vfwmul_vf"
  | .vfwmacc_vv => "vfwmacc_vv"
  | .vfwmacc_vf => "vfwmacc_vf"
  | .vfwnmacc_vv => "vfwnmacc_vv"
  | .vfwnmacc_vf => "vfwnmacc_vf"
  | .vfwmsac_vv => "vfwmsac_vv"
  | .vfwmsac_vf => "vfwmsac_vf"
  | .vfwnmsac_vv => "vfwnmsac_vv"
  | .vfwnmsac_vf => "vfwnmsac_vf"
  | .vmv_x_s => "vmv_x_s"
  | .vcpop => "vcpop"
  | .vfirst => "vfirst"
  | .vmv_s_x => "vmv_s_x"
  | .vzext_vf8 => "vzext_vf8"
  | .vsext_vf8 => "vsext_vf8"
  | .vzext_vf4 => "vzext_vf4"
  | .vsext_vf4 => "vsext_vf4"
  | .vzext_vf2 => "vzext_vf2"
  | .vsext_vf2 => "vsext_vf2"
  | .vmsbf => "vmsbf"
  | .vmsof => "vmsof"
  | .vmsif => "vmsif"
  | .viota => "viota"
  | .vid => "vid"
  | .vfmv_f_s => "vfmv_f_s"
  | .vfmv_s_f => "vfmv_s_f"
  | .vfcvt_xu_f_v => "vfcvt_xu_f_v"
  | .vfcvt_x_f_v => "vfcvt_x_f_v"
  | .vfcvt_f_xu_v => "vfcvt_f_xu_v"
  | .vfcvt_f_x_v => "vfcvt_f_x_v"
  | .vfcvt_rtz_xu_f_v => "vfcvt_rtz_xu_f_v"
  | .vfcvt_rtz_x_f_v => "vfcvt_rtz_x_f_v"
  | .vfwcvt_xu_f_v => "vfwcvt_xu_f_v"
  | .vfwcvt_x_f_v => "vfwcvt_x_f_v"
  | .vfwcvt_f_xu_v => "vfwcvt_f_xu_v"
  | .vfwcvt_f_x_v => "vfwcvt_f_x_v"
  | .vfwcvt_f_f_v => "vfwcvt_f_f_v"
  | .vfwcvt_rtz_xu_f_v => "vfwcvt_rtz_xu_f_v"
  | .vfwcvt_rtz_x_f_v => "vfwcvt_rtz_x_f_v"
  | .vfncvt_xu_f_w => "vfncvt_xu_f_w"
  | .vfncvt_x_f_w => "vfncvt_x_f_w"
  | .vfncvt_f_xu_w => "vfncvt_f_xu_w"
  | .vfncvt_f_x_w => "vfncvt_f_x_w"
  | .vfncvt_f_f_w => "vfncvt_f_f_w"
  | .vfncvt_rod_f_f_w => "vfncvt_rod_f_f_w"
  | .vfncvt_rtz_xu_f_w => "vfncvt_rtz_xu_f_w"
  | .vfncvt_rtz_x_f_w => "vfncvt_rtz_x_f_w"
  | .vfsqrt_v => "vfsqrt_v"
  | .vfrsqrt7_v => "vfrsqrt7_v"
  | .vfrec7_v => "vfrec7_v"
  | .vfclass_v => "vfclass_v"
  | .flh => "flh"
  | .fsh => "fsh"
  | .fmv_xh => "fmv_xh"
  | .fmv_hx => "fmv_hx"
  | .fcvt_sh => "fcvt_sh"
  | .fcvt_hs => "fcvt_hs"
  | .fcvt_dh => "fcvt_dh"
  | .fcvt_hd => "fcvt_hd"
  | .fadd_h => "fadd_h"
  | .fsub_h => "fsub_h"
  | .fmul_h => "fmul_h"
  | .fdiv_h => "fdiv_h"
  | .fmin_h => "fmin_h"
  | .fmax_h => "fmax_h"
  | .fsgnj_h => "fsgnj_h"
  | .fsgnjn_h => "fsgnjn_h"
  | .fsgnjx_h => "fsgnjx_h"
  | .fsqrt_h => "fsqrt_h"
  | .fcvt_hw => "fcvt_hw"
  | .fcvt_wh => "fcvt_wh"
  | .fcvt_hwu => "fcvt_hwu"
  | .fcvt_wuh => "fcvt_wuh"
  | .fcmpeq_h => "fcmpeq_h"
  | .fcmplt_h => "fcmplt_h"
  | .fcmple_h => "fcmple_h"
  | .fclass_h => "fclass_h"
  | .fmadd_h => "fmadd_h"
  | .fmsub_h => "fmsub_h"
  | .fnmsub_h => "fnmsub_h"
  | .fnmadd_h => "fnmadd_h"
  | .fcvt_lh => "fcvt_lh"
  | .fcvt_luh => "fcvt_luh"
  | .fcvt_hl => "fcvt_hl"
  | .fcvt_hlu => "fcvt_hlu"
  | .vandn_vv => "vandn_vv"
  | .vandn_vx => "vandn_vx"
  | .vbrev8_v => "vbrev8_v"
  | .vrev8_v => "vrev8_v"
  | .vrol_vv => "vrol_vv"
  | .vrol_vx => "vrol_vx"
  | .vror_vv => "vror_vv"
  | .vror_vx => "vror_vx"
  | .vror_vi => "vror_vi"
  | .vbrev_v => "vbrev_v"
  | .vclz_v => "vclz_v"
  | .vctz_v => "vctz_v"
  | .vcpop_v => "vcpop_v"
  | .vwsll_vv => "vwsll_vv"
  | .vwsll_vx => "vwsll_vx"
  | .vwsll_vi => "vwsll_vi"
  | .czero_eqz => "czero_eqz"
  | .czero_nez => "czero_nez"
  | .mop_r_0 => "mop_r_0"
  | .mop_r_1 => "mop_r_1"
  | .mop_r_2 => "mop_r_2"
  | .mop_r_3 => "mop_r_3"
  | .mop_r_4 => "mop_r_4"
  | .mop_r_5 => "mop_r_5"
  | .mop_r_6 => "mop_r_6"
  | .mop_r_7 => "mop_r_7"
  | .mop_r_8 => "mop_r_8"
  | .mop_r_9 => "mop_r_9"
  | .mop_r_10 => "mop_r_10"
  | .mop_r_11 => "mop_r_11"
  | .mop_r_12 => "mop_r_12"
  | .mop_r_13 => "mop_r_13"
  | .mop_r_14 => "mop_r_14"
  | .mop_r_15 => "mop_r_15"
  | .mop_r_16 => "mop_r_16"
  | .mop_r_17 => "mop_r_17"
  | .mop_r_18 => "mop_r_18"
  | .mop_r_19 => "mop_r_19"
  | .mop_r_20 => "mop_r_20"
  | .mop_r_21 => "mop_r_21"
  | .mop_r_22 => "mop_r_22"
  | .mop_r_23 => "mop_r_23"
  | .mop_r_24 => "mop_r_24"
  | .mop_r_25 => "mop_r_25"
  | .mop_r_26 => "mop_r_26"
  | .mop_r_27 => "mop_r_27"
  | .mop_r_28 => "mop_r_28"
  | .mop_r_29 => "mop_r_29"
  | .mop_r_30 => "mop_r_30"
  | .mop_r_31 => "mop_r_31"
  | .mop_rr_0 => "mop_rr_0"
  | .mop_rr_1 => "mop_rr_1"
  | .mop_rr_2 => "mop_rr_2"
  | .mop_rr_3 => "mop_rr_3"
  | .mop_rr_4 => "mop_rr_4"
  | .mop_rr_5 => "mop_rr_5"
  | .mop_rr_6 => "mop_rr_6"
  | .mop_rr_7 => "mop_rr_7"
  | .c_mop_1 => "c_mop_1"
  | .c_mop_3 => "c_mop_3"
  | .c_mop_5 => "c_mop_5"
  | .c_mop_7 => "c_mop_7"
  | .c_mop_9 => "c_mop_9"
  | .c_mop_11 => "c_mop_11"
  | .c_mop_13 => "c_mop_13"
  | .c_mop_15 => "c_mop_15"
  | .pause => "pause"
  | .ntl_p1 => "ntl_p1"
  | .ntl_pall => "ntl_pall"
  | .ntl_s1 => "ntl_s1"
  | .ntl_all => "ntl_all"
  | .c_ntl_p1 => "c_ntl_p1"
  | .c_ntl_pall => "c_ntl_pall"
  | .c_ntl_s1 => "c_ntl_s1"
  | .c_ntl_all => "c_ntl_all"
  | .prefetch_i => "prefetch_i"
  | .prefetch_r => "prefetch_r"
  | .prefetch_w => "prefetch_w"
  | .c_lbu => "c_lbu"
  | .c_lhu => "c_lhu"
  | .c_lh => "c_lh"
  | .c_sb => "c_sb"
  | .c_sh => "c_sh"
  | .c_zext_b => "c_zext_b"
  | .c_sext_b => "c_sext_b"
  | .c_zext_h => "c_zext_h"
  | .c_sext_h => "c_sext_h"
  | .c_not => "c_not"
  | .c_mul => "c_mul"
  | .c_zext_w => "c_zext_w"
  | .cm_push => "cm_push"
  | .cm_pop => "cm_pop"
  | .cm_popret => "cm_popret"
  | .cm_popretz => "cm_popretz"
  | .cm_mvsa01 => "cm_mvsa01"
  | .cm_mva01s => "cm_mva01s"
  | .cm_jt => "cm_jt"
  | .cm_jalt => "cm_jalt"

end Verif.Exec
