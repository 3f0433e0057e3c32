/-!
# Instruction names

The instruction names of the `.bin_fmt` files.  Written by
`tools/gen_decode.py`.
-/

namespace Verif.Decode

/-- Instruction names (riscv32g.bin_fmt, riscv32zb.bin_fmt, riscv64g.bin_fmt, riscv64zb.bin_fmt, riscv_vector.bin_fmt, riscv_zfh32.bin_fmt, riscv_zfh64.bin_fmt, riscv_zvbb.bin_fmt, riscv_zicond.bin_fmt, riscv_zimop.bin_fmt, riscv_zhintpause.bin_fmt, riscv_zihintntl.bin_fmt, riscv_zicbop.bin_fmt, riscv_zc.bin_fmt). -/
inductive Op where
  | lui
  | auipc
  | jal
  | j
  | jalr
  | jr
  | beq
  | bne
  | blt
  | bge
  | bltu
  | bgeu
  | lb
  | lh
  | lw
  | lbu
  | lhu
  | sb
  | sh
  | sw
  | addi
  | nop
  | slti
  | sltiu
  | xori
  | ori
  | andi
  | slli
  | srli
  | srai
  | add
  | sub
  | sll
  | slt
  | sltu
  | «xor»
  | srl
  | sra
  | «or»
  | «and»
  | fence
  | fence_tso
  | ecall
  | ebreak
  | fencei
  | csrrw
  | csrrs
  | csrrc
  | csrrs_nr
  | csrrc_nr
  | csrrw_nr
  | csrrs_nw
  | csrrc_nw
  | csrrwi
  | csrrsi
  | csrrci
  | csrrsi_nr
  | csrrci_nr
  | csrrwi_nr
  | csrrsi_nw
  | csrrci_nw
  | unimp
  | mul
  | mulh
  | mulhsu
  | mulhu
  | div
  | divu
  | rem
  | remu
  | lrw
  | scw
  | amoswapw
  | amoaddw
  | amoxorw
  | amoandw
  | amoorw
  | amominw
  | amomaxw
  | amominuw
  | amomaxuw
  | flw
  | fsw
  | fmadd_s
  | fmsub_s
  | fnmsub_s
  | fnmadd_s
  | fadd_s
  | fsub_s
  | fmul_s
  | fdiv_s
  | fsqrt_s
  | fsgnj_s
  | fsgnjn_s
  | fsgnjx_s
  | fmin_s
  | fmax_s
  | fcvt_ws
  | fcvt_wus
  | fmv_xw
  | fcmpeq_s
  | fcmplt_s
  | fcmple_s
  | fclass_s
  | fcvt_sw
  | fcvt_swu
  | fmv_wx
  | fld
  | fsd
  | fmadd_d
  | fmsub_d
  | fnmsub_d
  | fnmadd_d
  | fadd_d
  | fsub_d
  | fmul_d
  | fdiv_d
  | fsqrt_d
  | fsgnj_d
  | fsgnjn_d
  | fsgnjx_d
  | fmin_d
  | fmax_d
  | fcvt_sd
  | fcvt_ds
  | fcmpeq_d
  | fcmplt_d
  | fcmple_d
  | fclass_d
  | fcvt_wd
  | fcvt_wud
  | fcvt_dw
  | fcvt_dwu
  | uret
  | sret
  | mret
  | wfi
  | sfence_vma_zz
  | sfence_vma_zn
  | sfence_vma_nz
  | sfence_vma_nn
  | lui_hint
  | auipc_hint
  | addi_hint1
  | addi_hint2
  | slti_hint
  | sltiu_hint
  | xori_hint
  | ori_hint
  | andi_hint
  | srli_hint
  | slt_hint
  | slli_semihost
  | slli_hint1
  | slli_hint2
  | srai_semihost
  | srai_hint1
  | srai_hint2
  | add_hint1
  | add_hint2
  | add_hint3
  | sub_hint
  | sll_hint
  | sltu_hint
  | xor_hint
  | srl_hint
  | sra_hint
  | or_hint
  | and_hint
  | fence_hint1
  | fence_hint2
  | fence_hint3
  | fence_hint4
  | fence_hint5
  | fence_hint6
  | fence_hint7
  | caddi4spn
  | cfld
  | clw
  | cflw
  | cfsd
  | csw
  | cfsw
  | cnop
  | caddi
  | cjal
  | cli
  | caddi16sp
  | clui
  | csrli
  | csrai
  | candi
  | csub
  | cxor
  | cor
  | cand
  | cj
  | cbeqz
  | cbnez
  | cslli
  | cfldsp
  | clwsp
  | cflwsp
  | cjr
  | cmv
  | cebreak
  | cjalr
  | cadd
  | cfsdsp
  | cswsp
  | cfswsp
  | cunimp
  | cnop_hint
  | caddi_hint
  | cli_hint
  | clui_hint
  | cmv_hint
  | cslli_hint
  | cadd_hint
  | sh1add
  | sh2add
  | sh3add
  | andn
  | orn
  | xnor
  | clz
  | ctz
  | cpop
  | max
  | maxu
  | min
  | minu
  | sext_b
  | sext_h
  | rol
  | ror
  | orcb
  | rev8
  | zext_h
  | rori
  | clmul
  | clmulh
  | clmulr
  | bclr
  | bext
  | binv
  | bset
  | bclri
  | bexti
  | binvi
  | bseti
  | ld
  | lwu
  | sd
  | addiw
  | slliw
  | srliw
  | sraiw
  | addw
  | subw
  | sllw
  | srlw
  | sraw
  | mulw
  | divw
  | divuw
  | remw
  | remuw
  | lrd
  | scd
  | amoswapd
  | amoaddd
  | amoxord
  | amoandd
  | amoord
  | amomind
  | amomaxd
  | amominud
  | amomaxud
  | fcvt_ls
  | fcvt_lus
  | fcvt_sl
  | fcvt_slu
  | fcvt_ld
  | fcvt_lud
  | fcvt_dl
  | fcvt_dlu
  | fmv_xd
  | fmv_dx
  | cld
  | csd
  | caddiw
  | csubw
  | caddw
  | cldsp
  | csdsp
  | add_uw
  | sh1add_uw
  | sh2add_uw
  | sh3add_uw
  | slli_uw
  | clzw
  | cpopw
  | ctzw
  | rolw
  | roriw
  | rorw
  | vsetvli_xn
  | vsetvli_nz
  | vsetvli_zz
  | vsetivli
  | vsetvl_xn
  | vsetvl_nz
  | vsetvl_zz
  | vle8
  | vle16
  | vle32
  | vle64
  | vle8_vm1
  | vle16_vm1
  | vle32_vm1
  | vle64_vm1
  | vlm
  | vle8ff
  | vle16ff
  | vle32ff
  | vle64ff
  | vl1re8
  | vl1re16
  | vl1re32
  | vl1re64
  | vl2re8
  | vl2re16
  | vl2re32
  | vl2re64
  | vl4re8
  | vl4re16
  | vl4re32
  | vl4re64
  | vl8re8
  | vl8re16
  | vl8re32
  | vl8re64
  | vlse8
  | vlse16
  | vlse32
  | vlse64
  | vluxei8
  | vluxei16
  | vluxei32
  | vluxei64
  | vloxei8
  | vloxei16
  | vloxei32
  | vloxei64
  | vlsege8
  | vlsege16
  | vlsege32
  | vlsege64
  | vlssege8
  | vlssege16
  | vlssege32
  | vlssege64
  | vluxsegei8
  | vluxsegei16
  | vluxsegei32
  | vluxsegei64
  | vloxsegei8
  | vloxsegei16
  | vloxsegei32
  | vloxsegei64
  | vse8
  | vse16
  | vse32
  | vse64
  | vsm
  | vse8ff
  | vse16ff
  | vse32ff
  | vse64ff
  | vs1re8
  | vs1re16
  | vs1re32
  | vs1re64
  | vs2re8
  | vs2re16
  | vs2re32
  | vs2re64
  | vs4re8
  | vs4re16
  | vs4re32
  | vs4re64
  | vs8re8
  | vs8re16
  | vs8re32
  | vs8re64
  | vsse8
  | vsse16
  | vsse32
  | vsse64
  | vsuxei8
  | vsuxei16
  | vsuxei32
  | vsuxei64
  | vsoxei8
  | vsoxei16
  | vsoxei32
  | vsoxei64
  | vssege8
  | vssege16
  | vssege32
  | vssege64
  | vsssege8
  | vsssege16
  | vsssege32
  | vsssege64
  | vsuxsegei8
  | vsuxsegei16
  | vsuxsegei32
  | vsuxsegei64
  | vsoxsegei8
  | vsoxsegei16
  | vsoxsegei32
  | vsoxsegei64
  | vadd_vv
  | vadd_vx
  | vadd_vi
  | vsub_vv
  | vsub_vx
  | vrsub_vx
  | vrsub_vi
  | vminu_vv
  | vminu_vx
  | vmin_vv
  | vmin_vx
  | vmaxu_vv
  | vmaxu_vx
  | vmax_vv
  | vmax_vx
  | vand_vv
  | vand_vx
  | vand_vi
  | vor_vv
  | vor_vx
  | vor_vi
  | vxor_vv
  | vxor_vx
  | vxor_vi
  | vrgather_vv
  | vrgather_vx
  | vrgather_vi
  | vslideup_vx
  | vslideup_vi
  | vrgatherei16_vv
  | vslidedown_vx
  | vslidedown_vi
  | vadc_vv
  | vadc_vx
  | vadc_vi
  | vmadc_vv
  | vmadc_vx
  | vmadc_vi
  | vsbc_vv
  | vsbc_vx
  | vmsbc_vv
  | vmsbc_vx
  | vmerge_vv
  | vmerge_vx
  | vmerge_vi
  | vmv_vv
  | vmv_vx
  | vmv_vi
  | vmseq_vv
  | vmseq_vx
  | vmseq_vi
  | vmsne_vv
  | vmsne_vx
  | vmsne_vi
  | vmsltu_vv
  | vmsltu_vx
  | vmslt_vv
  | vmslt_vx
  | vmsleu_vv
  | vmsleu_vx
  | vmsleu_vi
  | vmsle_vv
  | vmsle_vx
  | vmsle_vi
  | vmsgtu_vx
  | vmsgtu_vi
  | vmsgt_vx
  | vmsgt_vi
  | vsaddu_vv
  | vsaddu_vx
  | vsaddu_vi
  | vsadd_vv
  | vsadd_vx
  | vsadd_vi
  | vssubu_vv
  | vssubu_vx
  | vssub_vv
  | vssub_vx
  | vsll_vv
  | vsll_vx
  | vsll_vi
  | vsmul_vv
  | vsmul_vx
  | vmv1r_vi
  | vmv2r_vi
  | vmv4r_vi
  | vmv8r_vi
  | vsrl_vv
  | vsrl_vx
  | vsrl_vi
  | vsra_vv
  | vsra_vx
  | vsra_vi
  | vssrl_vv
  | vssrl_vx
  | vssrl_vi
  | vssra_vv
  | vssra_vx
  | vssra_vi
  | vnsrl_vv
  | vnsrl_vx
  | vnsrl_vi
  | vnsra_vv
  | vnsra_vx
  | vnsra_vi
  | vnclipu_vv
  | vnclipu_vx
  | vnclipu_vi
  | vnclip_vv
  | vnclip_vx
  | vnclip_vi
  | vwredsumu_vv
  | vwredsum_vv
  | vredsum_vv
  | vredand_vv
  | vredor_vv
  | vredxor_vv
  | vredminu_vv
  | vredmin_vv
  | vredmaxu_vv
  | vredmax_vv
  | vaaddu_vv
  | vaaddu_vx
  | vaadd_vv
  | vaadd_vx
  | vasubu_vv
  | vasubu_vx
  | vasub_vv
  | vasub_vx
  | vslide1up_vx
  | vslide1down_vx
  | vcompress_vv
  | vmandnot_vv
  | vmand_vv
  | vmor_vv
  | vmxor_vv
  | vmornot_vv
  | vmnand_vv
  | vmnor_vv
  | vmxnor_vv
  | vdivu_vv
  | vdivu_vx
  | vdiv_vv
  | vdiv_vx
  | vremu_vv
  | vremu_vx
  | vrem_vv
  | vrem_vx
  | vmulhu_vv
  | vmulhu_vx
  | vmul_vv
  | vmul_vx
  | vmulhsu_vv
  | vmulhsu_vx
  | vmulh_vv
  | vmulh_vx
  | vmadd_vv
  | vmadd_vx
  | vnmsub_vv
  | vnmsub_vx
  | vmacc_vv
  | vmacc_vx
  | vnmsac_vv
  | vnmsac_vx
  | vwaddu_vv
  | vwaddu_vx
  | vwadd_vv
  | vwadd_vx
  | vwsubu_vv
  | vwsubu_vx
  | vwsub_vv
  | vwsub_vx
  | vwaddu_w_vv
  | vwaddu_w_vx
  | vwadd_w_vv
  | vwadd_w_vx
  | vwsubu_w_vv
  | vwsubu_w_vx
  | vwsub_w_vv
  | vwsub_w_vx
  | vwmulu_vv
  | vwmulu_vx
  | vwmulsu_vv
  | vwmulsu_vx
  | vwmul_vv
  | vwmul_vx
  | vwmaccu_vv
  | vwmaccu_vx
  | vwmacc_vv
  | vwmacc_vx
  | vwmaccus_vv
  | vwmaccus_vx
  | vwmaccsu_vv
  | vwmaccsu_vx
  | vfadd_vv
  | vfadd_vf
  | vfredusum_vv
  | vfsub_vv
  | vfsub_vf
  | vfredosum_vv
  | vfmin_vv
  | vfmin_vf
  | vfredmin_vv
  | vfmax_vv
  | vfmax_vf
  | vfredmax_vv
  | vfsgnj_vv
  | vfsgnj_vf
  | vfsgnjn_vv
  | vfsgnjn_vf
  | vfsgnjx_vv
  | vfsgnjx_vf
  | vfslide1up_vf
  | vfslide1down_vf
  | vfmv_vf
  | vfmerge_vf
  | vmfeq_vv
  | vmfeq_vf
  | vmfle_vv
  | vmfle_vf
  | vmflt_vv
  | vmflt_vf
  | vmfne_vv
  | vmfne_vf
  | vmfgt_vf
  | vmfge_vf
  | vfdiv_vv
  | vfdiv_vf
  | vfrdiv_vf
  | vfmul_vv
  | vfmul_vf
  | vfrsub_vf
  | vfmadd_vv
  | vfmadd_vf
  | vfnmadd_vv
  | vfnmadd_vf
  | vfmsub_vv
  | vfmsub_vf
  | vfnmsub_vv
  | vfnmsub_vf
  | vfmacc_vv
  | vfmacc_vf
  | vfnmacc_vv
  | vfnmacc_vf
  | vfmsac_vv
  | vfmsac_vf
  | vfnmsac_vv
  | vfnmsac_vf
  | vfwadd_vv
  | vfwadd_vf
  | vfwredusum_vv
  | vfwsub_vv
  | vfwsub_vf
  | vfwredosum_vv
  | vfwadd_w_vv
  | vfwadd_w_vf
  | vfwsub_w_vv
  | vfwsub_w_vf
  | vfwmul_vv
  | vfwmul_vf
  | vfwmacc_vv
  | vfwmacc_vf
  | vfwnmacc_vv
  | vfwnmacc_vf
  | vfwmsac_vv
  | vfwmsac_vf
  | vfwnmsac_vv
  | vfwnmsac_vf
  | vmv_x_s
  | vcpop
  | vfirst
  | vmv_s_x
  | vzext_vf8
  | vsext_vf8
  | vzext_vf4
  | vsext_vf4
  | vzext_vf2
  | vsext_vf2
  | vmsbf
  | vmsof
  | vmsif
  | viota
  | vid
  | vfmv_f_s
  | vfmv_s_f
  | vfcvt_xu_f_v
  | vfcvt_x_f_v
  | vfcvt_f_xu_v
  | vfcvt_f_x_v
  | vfcvt_rtz_xu_f_v
  | vfcvt_rtz_x_f_v
  | vfwcvt_xu_f_v
  | vfwcvt_x_f_v
  | vfwcvt_f_xu_v
  | vfwcvt_f_x_v
  | vfwcvt_f_f_v
  | vfwcvt_rtz_xu_f_v
  | vfwcvt_rtz_x_f_v
  | vfncvt_xu_f_w
  | vfncvt_x_f_w
  | vfncvt_f_xu_w
  | vfncvt_f_x_w
  | vfncvt_f_f_w
  | vfncvt_rod_f_f_w
  | vfncvt_rtz_xu_f_w
  | vfncvt_rtz_x_f_w
  | vfsqrt_v
  | vfrsqrt7_v
  | vfrec7_v
  | vfclass_v
  | flh
  | fsh
  | fmv_xh
  | fmv_hx
  | fcvt_sh
  | fcvt_hs
  | fcvt_dh
  | fcvt_hd
  | fadd_h
  | fsub_h
  | fmul_h
  | fdiv_h
  | fmin_h
  | fmax_h
  | fsgnj_h
  | fsgnjn_h
  | fsgnjx_h
  | fsqrt_h
  | fcvt_hw
  | fcvt_wh
  | fcvt_hwu
  | fcvt_wuh
  | fcmpeq_h
  | fcmplt_h
  | fcmple_h
  | fclass_h
  | fmadd_h
  | fmsub_h
  | fnmsub_h
  | fnmadd_h
  | fcvt_lh
  | fcvt_luh
  | fcvt_hl
  | fcvt_hlu
  | vandn_vv
  | vandn_vx
  | vbrev8_v
  | vrev8_v
  | vrol_vv
  | vrol_vx
  | vror_vv
  | vror_vx
  | vror_vi
  | vbrev_v
  | vclz_v
  | vctz_v
  | vcpop_v
  | vwsll_vv
  | vwsll_vx
  | vwsll_vi
  | czero_eqz
  | czero_nez
  | mop_r_0
  | mop_r_1
  | mop_r_2
  | mop_r_3
  | mop_r_4
  | mop_r_5
  | mop_r_6
  | mop_r_7
  | mop_r_8
  | mop_r_9
  | mop_r_10
  | mop_r_11
  | mop_r_12
  | mop_r_13
  | mop_r_14
  | mop_r_15
  | mop_r_16
  | mop_r_17
  | mop_r_18
  | mop_r_19
  | mop_r_20
  | mop_r_21
  | mop_r_22
  | mop_r_23
  | mop_r_24
  | mop_r_25
  | mop_r_26
  | mop_r_27
  | mop_r_28
  | mop_r_29
  | mop_r_30
  | mop_r_31
  | mop_rr_0
  | mop_rr_1
  | mop_rr_2
  | mop_rr_3
  | mop_rr_4
  | mop_rr_5
  | mop_rr_6
  | mop_rr_7
  | c_mop_1
  | c_mop_3
  | c_mop_5
  | c_mop_7
  | c_mop_9
  | c_mop_11
  | c_mop_13
  | c_mop_15
  | pause
  | ntl_p1
  | ntl_pall
  | ntl_s1
  | ntl_all
  | c_ntl_p1
  | c_ntl_pall
  | c_ntl_s1
  | c_ntl_all
  | prefetch_i
  | prefetch_r
  | prefetch_w
  | c_lbu
  | c_lhu
  | c_lh
  | c_sb
  | c_sh
  | c_zext_b
  | c_sext_b
  | c_zext_h
  | c_sext_h
  | c_not
  | c_mul
  | c_zext_w
  | cm_push
  | cm_pop
  | cm_popret
  | cm_popretz
  | cm_mvsa01
  | cm_mva01s
  | cm_jt
  | cm_jalt
  deriving DecidableEq, Repr

end Verif.Decode
