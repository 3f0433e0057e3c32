import Verif.Decode.Pairs

/-!
# Kernel checks of the instruction groups

Written by `tools/gen_decode.py`.
-/

namespace Verif.Decode

theorem self_riscv32g_RiscVIInstBase32 : selfOk .riscv32g_RiscVIInstBase32 = true := by decide +kernel
theorem self_riscv32g_RiscVIHints32 : selfOk .riscv32g_RiscVIHints32 = true := by decide +kernel
theorem self_riscv32g_RiscVZifenceiInst32 : selfOk .riscv32g_RiscVZifenceiInst32 = true := by decide +kernel
theorem self_riscv32g_RiscVZicsrInst32 : selfOk .riscv32g_RiscVZicsrInst32 = true := by decide +kernel
theorem self_riscv32g_RiscVMInst32 : selfOk .riscv32g_RiscVMInst32 = true := by decide +kernel
theorem self_riscv32g_RiscVAInst32 : selfOk .riscv32g_RiscVAInst32 = true := by decide +kernel
theorem self_riscv32g_RiscVFInst32 : selfOk .riscv32g_RiscVFInst32 = true := by decide +kernel
theorem self_riscv32g_RiscVDInst32 : selfOk .riscv32g_RiscVDInst32 = true := by decide +kernel
theorem self_riscv32g_RiscVPrivInst32 : selfOk .riscv32g_RiscVPrivInst32 = true := by decide +kernel
theorem self_riscv32g_RiscVCInstBase16 : selfOk .riscv32g_RiscVCInstBase16 = true := by decide +kernel
theorem self_riscv32g_RiscVCHints16 : selfOk .riscv32g_RiscVCHints16 = true := by decide +kernel
theorem self_riscv32zb_RiscVZbaInst32 : selfOk .riscv32zb_RiscVZbaInst32 = true := by decide +kernel
theorem self_riscv32zb_RiscVZbbInst32 : selfOk .riscv32zb_RiscVZbbInst32 = true := by decide +kernel
theorem self_riscv32zb_RiscVZbbInst32Only : selfOk .riscv32zb_RiscVZbbInst32Only = true := by decide +kernel
theorem self_riscv32zb_RiscVZbbImmInst32 : selfOk .riscv32zb_RiscVZbbImmInst32 = true := by decide +kernel
theorem self_riscv32zb_RiscVZbcInst32 : selfOk .riscv32zb_RiscVZbcInst32 = true := by decide +kernel
theorem self_riscv32zb_RiscVZbsInst32 : selfOk .riscv32zb_RiscVZbsInst32 = true := by decide +kernel
theorem self_riscv32zb_RiscVZbsImmInst32 : selfOk .riscv32zb_RiscVZbsImmInst32 = true := by decide +kernel
theorem self_riscv_vector_RiscVVInst32 : selfOk .riscv_vector_RiscVVInst32 = true := by decide +kernel
theorem self_riscv64g_RiscVGInstBase32 : selfOk .riscv64g_RiscVGInstBase32 = true := by decide +kernel
theorem self_riscv64g_RiscVGHints32 : selfOk .riscv64g_RiscVGHints32 = true := by decide +kernel
theorem self_riscv64g_RiscVCInstBase16 : selfOk .riscv64g_RiscVCInstBase16 = true := by decide +kernel
theorem self_riscv64g_RiscVCHints16 : selfOk .riscv64g_RiscVCHints16 = true := by decide +kernel
theorem self_riscv64zb_RiscVZbaInst64 : selfOk .riscv64zb_RiscVZbaInst64 = true := by decide +kernel
theorem self_riscv64zb_RiscVZbbInst64 : selfOk .riscv64zb_RiscVZbbInst64 = true := by decide +kernel
theorem self_riscv64zb_RiscVZbsImmInst64 : selfOk .riscv64zb_RiscVZbsImmInst64 = true := by decide +kernel
theorem self_riscv_zfh32_RiscVZfh32Inst32 : selfOk .riscv_zfh32_RiscVZfh32Inst32 = true := by decide +kernel
theorem self_riscv_zfh64_RiscVZfh64Inst32 : selfOk .riscv_zfh64_RiscVZfh64Inst32 = true := by decide +kernel
theorem self_riscv_zvbb_RiscVZvkbInst32 : selfOk .riscv_zvbb_RiscVZvkbInst32 = true := by decide +kernel
theorem self_riscv_zvbb_RiscVBasicBitInst32 : selfOk .riscv_zvbb_RiscVBasicBitInst32 = true := by decide +kernel
theorem self_riscv_zicond_RiscVZicond : selfOk .riscv_zicond_RiscVZicond = true := by decide +kernel
theorem self_riscv_zimop_RiscVZimop : selfOk .riscv_zimop_RiscVZimop = true := by decide +kernel
theorem self_riscv_zhintpause_RiscVZhintpause : selfOk .riscv_zhintpause_RiscVZhintpause = true := by decide +kernel
theorem self_riscv_zihintntl_RiscVZihintntl : selfOk .riscv_zihintntl_RiscVZihintntl = true := by decide +kernel
theorem self_riscv_zicbop_RiscVZicbop : selfOk .riscv_zicbop_RiscVZicbop = true := by decide +kernel
theorem self_riscv_zimop_RiscVZcmop : selfOk .riscv_zimop_RiscVZcmop = true := by decide +kernel
theorem self_riscv_zihintntl_RiscVCZihintntl : selfOk .riscv_zihintntl_RiscVCZihintntl = true := by decide +kernel
theorem self_riscv_zc_RiscVCZca : selfOk .riscv_zc_RiscVCZca = true := by decide +kernel
theorem self_riscv_zc_RiscVCZcf : selfOk .riscv_zc_RiscVCZcf = true := by decide +kernel
theorem self_riscv_zc_RiscVCZcb32 : selfOk .riscv_zc_RiscVCZcb32 = true := by decide +kernel
theorem self_riscv_zc_RiscVCZcmp : selfOk .riscv_zc_RiscVCZcmp = true := by decide +kernel
theorem self_riscv_zc_RiscVCZcmt : selfOk .riscv_zc_RiscVCZcmt = true := by decide +kernel

theorem self_all (g : Grp) : selfOk g = true := by
  cases g
  · exact self_riscv32g_RiscVIInstBase32
  · exact self_riscv32g_RiscVIHints32
  · exact self_riscv32g_RiscVZifenceiInst32
  · exact self_riscv32g_RiscVZicsrInst32
  · exact self_riscv32g_RiscVMInst32
  · exact self_riscv32g_RiscVAInst32
  · exact self_riscv32g_RiscVFInst32
  · exact self_riscv32g_RiscVDInst32
  · exact self_riscv32g_RiscVPrivInst32
  · exact self_riscv32g_RiscVCInstBase16
  · exact self_riscv32g_RiscVCHints16
  · exact self_riscv32zb_RiscVZbaInst32
  · exact self_riscv32zb_RiscVZbbInst32
  · exact self_riscv32zb_RiscVZbbInst32Only
  · exact self_riscv32zb_RiscVZbbImmInst32
  · exact self_riscv32zb_RiscVZbcInst32
  · exact self_riscv32zb_RiscVZbsInst32
  · exact self_riscv32zb_RiscVZbsImmInst32
  · exact self_riscv_vector_RiscVVInst32
  · exact self_riscv64g_RiscVGInstBase32
  · exact self_riscv64g_RiscVGHints32
  · exact self_riscv64g_RiscVCInstBase16
  · exact self_riscv64g_RiscVCHints16
  · exact self_riscv64zb_RiscVZbaInst64
  · exact self_riscv64zb_RiscVZbbInst64
  · exact self_riscv64zb_RiscVZbsImmInst64
  · exact self_riscv_zfh32_RiscVZfh32Inst32
  · exact self_riscv_zfh64_RiscVZfh64Inst32
  · exact self_riscv_zvbb_RiscVZvkbInst32
  · exact self_riscv_zvbb_RiscVBasicBitInst32
  · exact self_riscv_zicond_RiscVZicond
  · exact self_riscv_zimop_RiscVZimop
  · exact self_riscv_zhintpause_RiscVZhintpause
  · exact self_riscv_zihintntl_RiscVZihintntl
  · exact self_riscv_zicbop_RiscVZicbop
  · exact self_riscv_zimop_RiscVZcmop
  · exact self_riscv_zihintntl_RiscVCZihintntl
  · exact self_riscv_zc_RiscVCZca
  · exact self_riscv_zc_RiscVCZcf
  · exact self_riscv_zc_RiscVCZcb32
  · exact self_riscv_zc_RiscVCZcmp
  · exact self_riscv_zc_RiscVCZcmt

theorem cross_riscv32g_RiscVIInstBase32_riscv32g_RiscVIHints32 :
    crossOk .riscv32g_RiscVIInstBase32 .riscv32g_RiscVIHints32 = true := by decide +kernel
theorem cross_riscv32g_RiscVIInstBase32_riscv32g_RiscVZifenceiInst32 :
    crossOk .riscv32g_RiscVIInstBase32 .riscv32g_RiscVZifenceiInst32 = true := by decide +kernel
theorem cross_riscv32g_RiscVIInstBase32_riscv32g_RiscVZicsrInst32 :
    crossOk .riscv32g_RiscVIInstBase32 .riscv32g_RiscVZicsrInst32 = true := by decide +kernel
theorem cross_riscv32g_RiscVIInstBase32_riscv32g_RiscVMInst32 :
    crossOk .riscv32g_RiscVIInstBase32 .riscv32g_RiscVMInst32 = true := by decide +kernel
theorem cross_riscv32g_RiscVIInstBase32_riscv32g_RiscVAInst32 :
    crossOk .riscv32g_RiscVIInstBase32 .riscv32g_RiscVAInst32 = true := by decide +kernel
theorem cross_riscv32g_RiscVIInstBase32_riscv32g_RiscVFInst32 :
    crossOk .riscv32g_RiscVIInstBase32 .riscv32g_RiscVFInst32 = true := by decide +kernel
theorem cross_riscv32g_RiscVIInstBase32_riscv32g_RiscVDInst32 :
    crossOk .riscv32g_RiscVIInstBase32 .riscv32g_RiscVDInst32 = true := by decide +kernel
theorem cross_riscv32g_RiscVIInstBase32_riscv32g_RiscVPrivInst32 :
    crossOk .riscv32g_RiscVIInstBase32 .riscv32g_RiscVPrivInst32 = true := by decide +kernel
theorem cross_riscv32g_RiscVIHints32_riscv32g_RiscVZifenceiInst32 :
    crossOk .riscv32g_RiscVIHints32 .riscv32g_RiscVZifenceiInst32 = true := by decide +kernel
theorem cross_riscv32g_RiscVIHints32_riscv32g_RiscVZicsrInst32 :
    crossOk .riscv32g_RiscVIHints32 .riscv32g_RiscVZicsrInst32 = true := by decide +kernel
theorem cross_riscv32g_RiscVIHints32_riscv32g_RiscVMInst32 :
    crossOk .riscv32g_RiscVIHints32 .riscv32g_RiscVMInst32 = true := by decide +kernel
theorem cross_riscv32g_RiscVIHints32_riscv32g_RiscVAInst32 :
    crossOk .riscv32g_RiscVIHints32 .riscv32g_RiscVAInst32 = true := by decide +kernel
theorem cross_riscv32g_RiscVIHints32_riscv32g_RiscVFInst32 :
    crossOk .riscv32g_RiscVIHints32 .riscv32g_RiscVFInst32 = true := by decide +kernel
theorem cross_riscv32g_RiscVIHints32_riscv32g_RiscVDInst32 :
    crossOk .riscv32g_RiscVIHints32 .riscv32g_RiscVDInst32 = true := by decide +kernel
theorem cross_riscv32g_RiscVIHints32_riscv32g_RiscVPrivInst32 :
    crossOk .riscv32g_RiscVIHints32 .riscv32g_RiscVPrivInst32 = true := by decide +kernel
theorem cross_riscv32g_RiscVZifenceiInst32_riscv32g_RiscVZicsrInst32 :
    crossOk .riscv32g_RiscVZifenceiInst32 .riscv32g_RiscVZicsrInst32 = true := by decide +kernel
theorem cross_riscv32g_RiscVZifenceiInst32_riscv32g_RiscVMInst32 :
    crossOk .riscv32g_RiscVZifenceiInst32 .riscv32g_RiscVMInst32 = true := by decide +kernel
theorem cross_riscv32g_RiscVZifenceiInst32_riscv32g_RiscVAInst32 :
    crossOk .riscv32g_RiscVZifenceiInst32 .riscv32g_RiscVAInst32 = true := by decide +kernel
theorem cross_riscv32g_RiscVZifenceiInst32_riscv32g_RiscVFInst32 :
    crossOk .riscv32g_RiscVZifenceiInst32 .riscv32g_RiscVFInst32 = true := by decide +kernel
theorem cross_riscv32g_RiscVZifenceiInst32_riscv32g_RiscVDInst32 :
    crossOk .riscv32g_RiscVZifenceiInst32 .riscv32g_RiscVDInst32 = true := by decide +kernel
theorem cross_riscv32g_RiscVZifenceiInst32_riscv32g_RiscVPrivInst32 :
    crossOk .riscv32g_RiscVZifenceiInst32 .riscv32g_RiscVPrivInst32 = true := by decide +kernel
theorem cross_riscv32g_RiscVZicsrInst32_riscv32g_RiscVMInst32 :
    crossOk .riscv32g_RiscVZicsrInst32 .riscv32g_RiscVMInst32 = true := by decide +kernel
theorem cross_riscv32g_RiscVZicsrInst32_riscv32g_RiscVAInst32 :
    crossOk .riscv32g_RiscVZicsrInst32 .riscv32g_RiscVAInst32 = true := by decide +kernel
theorem cross_riscv32g_RiscVZicsrInst32_riscv32g_RiscVFInst32 :
    crossOk .riscv32g_RiscVZicsrInst32 .riscv32g_RiscVFInst32 = true := by decide +kernel
theorem cross_riscv32g_RiscVZicsrInst32_riscv32g_RiscVDInst32 :
    crossOk .riscv32g_RiscVZicsrInst32 .riscv32g_RiscVDInst32 = true := by decide +kernel
theorem cross_riscv32g_RiscVZicsrInst32_riscv32g_RiscVPrivInst32 :
    crossOk .riscv32g_RiscVZicsrInst32 .riscv32g_RiscVPrivInst32 = true := by decide +kernel
theorem cross_riscv32g_RiscVMInst32_riscv32g_RiscVAInst32 :
    crossOk .riscv32g_RiscVMInst32 .riscv32g_RiscVAInst32 = true := by decide +kernel
theorem cross_riscv32g_RiscVMInst32_riscv32g_RiscVFInst32 :
    crossOk .riscv32g_RiscVMInst32 .riscv32g_RiscVFInst32 = true := by decide +kernel
theorem cross_riscv32g_RiscVMInst32_riscv32g_RiscVDInst32 :
    crossOk .riscv32g_RiscVMInst32 .riscv32g_RiscVDInst32 = true := by decide +kernel
theorem cross_riscv32g_RiscVMInst32_riscv32g_RiscVPrivInst32 :
    crossOk .riscv32g_RiscVMInst32 .riscv32g_RiscVPrivInst32 = true := by decide +kernel
theorem cross_riscv32g_RiscVAInst32_riscv32g_RiscVFInst32 :
    crossOk .riscv32g_RiscVAInst32 .riscv32g_RiscVFInst32 = true := by decide +kernel
theorem cross_riscv32g_RiscVAInst32_riscv32g_RiscVDInst32 :
    crossOk .riscv32g_RiscVAInst32 .riscv32g_RiscVDInst32 = true := by decide +kernel
theorem cross_riscv32g_RiscVAInst32_riscv32g_RiscVPrivInst32 :
    crossOk .riscv32g_RiscVAInst32 .riscv32g_RiscVPrivInst32 = true := by decide +kernel
theorem cross_riscv32g_RiscVFInst32_riscv32g_RiscVDInst32 :
    crossOk .riscv32g_RiscVFInst32 .riscv32g_RiscVDInst32 = true := by decide +kernel
theorem cross_riscv32g_RiscVFInst32_riscv32g_RiscVPrivInst32 :
    crossOk .riscv32g_RiscVFInst32 .riscv32g_RiscVPrivInst32 = true := by decide +kernel
theorem cross_riscv32g_RiscVDInst32_riscv32g_RiscVPrivInst32 :
    crossOk .riscv32g_RiscVDInst32 .riscv32g_RiscVPrivInst32 = true := by decide +kernel
theorem cross_riscv32g_RiscVCInstBase16_riscv32g_RiscVCHints16 :
    crossOk .riscv32g_RiscVCInstBase16 .riscv32g_RiscVCHints16 = true := by decide +kernel
theorem cross_riscv32g_RiscVIInstBase32_riscv32zb_RiscVZbaInst32 :
    crossOk .riscv32g_RiscVIInstBase32 .riscv32zb_RiscVZbaInst32 = true := by decide +kernel
theorem cross_riscv32g_RiscVIInstBase32_riscv32zb_RiscVZbbInst32 :
    crossOk .riscv32g_RiscVIInstBase32 .riscv32zb_RiscVZbbInst32 = true := by decide +kernel
theorem cross_riscv32g_RiscVIInstBase32_riscv32zb_RiscVZbbInst32Only :
    crossOk .riscv32g_RiscVIInstBase32 .riscv32zb_RiscVZbbInst32Only = true := by decide +kernel
theorem cross_riscv32g_RiscVIInstBase32_riscv32zb_RiscVZbbImmInst32 :
    crossOk .riscv32g_RiscVIInstBase32 .riscv32zb_RiscVZbbImmInst32 = true := by decide +kernel
theorem cross_riscv32g_RiscVIInstBase32_riscv32zb_RiscVZbcInst32 :
    crossOk .riscv32g_RiscVIInstBase32 .riscv32zb_RiscVZbcInst32 = true := by decide +kernel
theorem cross_riscv32g_RiscVIInstBase32_riscv32zb_RiscVZbsInst32 :
    crossOk .riscv32g_RiscVIInstBase32 .riscv32zb_RiscVZbsInst32 = true := by decide +kernel
theorem cross_riscv32g_RiscVIInstBase32_riscv32zb_RiscVZbsImmInst32 :
    crossOk .riscv32g_RiscVIInstBase32 .riscv32zb_RiscVZbsImmInst32 = true := by decide +kernel
theorem cross_riscv32g_RiscVIHints32_riscv32zb_RiscVZbaInst32 :
    crossOk .riscv32g_RiscVIHints32 .riscv32zb_RiscVZbaInst32 = true := by decide +kernel
theorem cross_riscv32g_RiscVIHints32_riscv32zb_RiscVZbbInst32 :
    crossOk .riscv32g_RiscVIHints32 .riscv32zb_RiscVZbbInst32 = true := by decide +kernel
theorem cross_riscv32g_RiscVIHints32_riscv32zb_RiscVZbbInst32Only :
    crossOk .riscv32g_RiscVIHints32 .riscv32zb_RiscVZbbInst32Only = true := by decide +kernel
theorem cross_riscv32g_RiscVIHints32_riscv32zb_RiscVZbbImmInst32 :
    crossOk .riscv32g_RiscVIHints32 .riscv32zb_RiscVZbbImmInst32 = true := by decide +kernel
theorem cross_riscv32g_RiscVIHints32_riscv32zb_RiscVZbcInst32 :
    crossOk .riscv32g_RiscVIHints32 .riscv32zb_RiscVZbcInst32 = true := by decide +kernel
theorem cross_riscv32g_RiscVIHints32_riscv32zb_RiscVZbsInst32 :
    crossOk .riscv32g_RiscVIHints32 .riscv32zb_RiscVZbsInst32 = true := by decide +kernel
theorem cross_riscv32g_RiscVIHints32_riscv32zb_RiscVZbsImmInst32 :
    crossOk .riscv32g_RiscVIHints32 .riscv32zb_RiscVZbsImmInst32 = true := by decide +kernel
theorem cross_riscv32g_RiscVZifenceiInst32_riscv32zb_RiscVZbaInst32 :
    crossOk .riscv32g_RiscVZifenceiInst32 .riscv32zb_RiscVZbaInst32 = true := by decide +kernel
theorem cross_riscv32g_RiscVZifenceiInst32_riscv32zb_RiscVZbbInst32 :
    crossOk .riscv32g_RiscVZifenceiInst32 .riscv32zb_RiscVZbbInst32 = true := by decide +kernel
theorem cross_riscv32g_RiscVZifenceiInst32_riscv32zb_RiscVZbbInst32Only :
    crossOk .riscv32g_RiscVZifenceiInst32 .riscv32zb_RiscVZbbInst32Only = true := by decide +kernel
theorem cross_riscv32g_RiscVZifenceiInst32_riscv32zb_RiscVZbbImmInst32 :
    crossOk .riscv32g_RiscVZifenceiInst32 .riscv32zb_RiscVZbbImmInst32 = true := by decide +kernel
theorem cross_riscv32g_RiscVZifenceiInst32_riscv32zb_RiscVZbcInst32 :
    crossOk .riscv32g_RiscVZifenceiInst32 .riscv32zb_RiscVZbcInst32 = true := by decide +kernel
theorem cross_riscv32g_RiscVZifenceiInst32_riscv32zb_RiscVZbsInst32 :
    crossOk .riscv32g_RiscVZifenceiInst32 .riscv32zb_RiscVZbsInst32 = true := by decide +kernel
theorem cross_riscv32g_RiscVZifenceiInst32_riscv32zb_RiscVZbsImmInst32 :
    crossOk .riscv32g_RiscVZifenceiInst32 .riscv32zb_RiscVZbsImmInst32 = true := by decide +kernel
theorem cross_riscv32g_RiscVZicsrInst32_riscv32zb_RiscVZbaInst32 :
    crossOk .riscv32g_RiscVZicsrInst32 .riscv32zb_RiscVZbaInst32 = true := by decide +kernel
theorem cross_riscv32g_RiscVZicsrInst32_riscv32zb_RiscVZbbInst32 :
    crossOk .riscv32g_RiscVZicsrInst32 .riscv32zb_RiscVZbbInst32 = true := by decide +kernel
theorem cross_riscv32g_RiscVZicsrInst32_riscv32zb_RiscVZbbInst32Only :
    crossOk .riscv32g_RiscVZicsrInst32 .riscv32zb_RiscVZbbInst32Only = true := by decide +kernel
theorem cross_riscv32g_RiscVZicsrInst32_riscv32zb_RiscVZbbImmInst32 :
    crossOk .riscv32g_RiscVZicsrInst32 .riscv32zb_RiscVZbbImmInst32 = true := by decide +kernel
theorem cross_riscv32g_RiscVZicsrInst32_riscv32zb_RiscVZbcInst32 :
    crossOk .riscv32g_RiscVZicsrInst32 .riscv32zb_RiscVZbcInst32 = true := by decide +kernel
theorem cross_riscv32g_RiscVZicsrInst32_riscv32zb_RiscVZbsInst32 :
    crossOk .riscv32g_RiscVZicsrInst32 .riscv32zb_RiscVZbsInst32 = true := by decide +kernel
theorem cross_riscv32g_RiscVZicsrInst32_riscv32zb_RiscVZbsImmInst32 :
    crossOk .riscv32g_RiscVZicsrInst32 .riscv32zb_RiscVZbsImmInst32 = true := by decide +kernel
theorem cross_riscv32g_RiscVMInst32_riscv32zb_RiscVZbaInst32 :
    crossOk .riscv32g_RiscVMInst32 .riscv32zb_RiscVZbaInst32 = true := by decide +kernel
theorem cross_riscv32g_RiscVMInst32_riscv32zb_RiscVZbbInst32 :
    crossOk .riscv32g_RiscVMInst32 .riscv32zb_RiscVZbbInst32 = true := by decide +kernel
theorem cross_riscv32g_RiscVMInst32_riscv32zb_RiscVZbbInst32Only :
    crossOk .riscv32g_RiscVMInst32 .riscv32zb_RiscVZbbInst32Only = true := by decide +kernel
theorem cross_riscv32g_RiscVMInst32_riscv32zb_RiscVZbbImmInst32 :
    crossOk .riscv32g_RiscVMInst32 .riscv32zb_RiscVZbbImmInst32 = true := by decide +kernel
theorem cross_riscv32g_RiscVMInst32_riscv32zb_RiscVZbcInst32 :
    crossOk .riscv32g_RiscVMInst32 .riscv32zb_RiscVZbcInst32 = true := by decide +kernel
theorem cross_riscv32g_RiscVMInst32_riscv32zb_RiscVZbsInst32 :
    crossOk .riscv32g_RiscVMInst32 .riscv32zb_RiscVZbsInst32 = true := by decide +kernel
theorem cross_riscv32g_RiscVMInst32_riscv32zb_RiscVZbsImmInst32 :
    crossOk .riscv32g_RiscVMInst32 .riscv32zb_RiscVZbsImmInst32 = true := by decide +kernel
theorem cross_riscv32g_RiscVAInst32_riscv32zb_RiscVZbaInst32 :
    crossOk .riscv32g_RiscVAInst32 .riscv32zb_RiscVZbaInst32 = true := by decide +kernel
theorem cross_riscv32g_RiscVAInst32_riscv32zb_RiscVZbbInst32 :
    crossOk .riscv32g_RiscVAInst32 .riscv32zb_RiscVZbbInst32 = true := by decide +kernel
theorem cross_riscv32g_RiscVAInst32_riscv32zb_RiscVZbbInst32Only :
    crossOk .riscv32g_RiscVAInst32 .riscv32zb_RiscVZbbInst32Only = true := by decide +kernel
theorem cross_riscv32g_RiscVAInst32_riscv32zb_RiscVZbbImmInst32 :
    crossOk .riscv32g_RiscVAInst32 .riscv32zb_RiscVZbbImmInst32 = true := by decide +kernel
theorem cross_riscv32g_RiscVAInst32_riscv32zb_RiscVZbcInst32 :
    crossOk .riscv32g_RiscVAInst32 .riscv32zb_RiscVZbcInst32 = true := by decide +kernel
theorem cross_riscv32g_RiscVAInst32_riscv32zb_RiscVZbsInst32 :
    crossOk .riscv32g_RiscVAInst32 .riscv32zb_RiscVZbsInst32 = true := by decide +kernel
theorem cross_riscv32g_RiscVAInst32_riscv32zb_RiscVZbsImmInst32 :
    crossOk .riscv32g_RiscVAInst32 .riscv32zb_RiscVZbsImmInst32 = true := by decide +kernel
theorem cross_riscv32g_RiscVFInst32_riscv32zb_RiscVZbaInst32 :
    crossOk .riscv32g_RiscVFInst32 .riscv32zb_RiscVZbaInst32 = true := by decide +kernel
theorem cross_riscv32g_RiscVFInst32_riscv32zb_RiscVZbbInst32 :
    crossOk .riscv32g_RiscVFInst32 .riscv32zb_RiscVZbbInst32 = true := by decide +kernel
theorem cross_riscv32g_RiscVFInst32_riscv32zb_RiscVZbbInst32Only :
    crossOk .riscv32g_RiscVFInst32 .riscv32zb_RiscVZbbInst32Only = true := by decide +kernel
theorem cross_riscv32g_RiscVFInst32_riscv32zb_RiscVZbbImmInst32 :
    crossOk .riscv32g_RiscVFInst32 .riscv32zb_RiscVZbbImmInst32 = true := by decide +kernel
theorem cross_riscv32g_RiscVFInst32_riscv32zb_RiscVZbcInst32 :
    crossOk .riscv32g_RiscVFInst32 .riscv32zb_RiscVZbcInst32 = true := by decide +kernel
theorem cross_riscv32g_RiscVFInst32_riscv32zb_RiscVZbsInst32 :
    crossOk .riscv32g_RiscVFInst32 .riscv32zb_RiscVZbsInst32 = true := by decide +kernel
theorem cross_riscv32g_RiscVFInst32_riscv32zb_RiscVZbsImmInst32 :
    crossOk .riscv32g_RiscVFInst32 .riscv32zb_RiscVZbsImmInst32 = true := by decide +kernel
theorem cross_riscv32g_RiscVDInst32_riscv32zb_RiscVZbaInst32 :
    crossOk .riscv32g_RiscVDInst32 .riscv32zb_RiscVZbaInst32 = true := by decide +kernel
theorem cross_riscv32g_RiscVDInst32_riscv32zb_RiscVZbbInst32 :
    crossOk .riscv32g_RiscVDInst32 .riscv32zb_RiscVZbbInst32 = true := by decide +kernel
theorem cross_riscv32g_RiscVDInst32_riscv32zb_RiscVZbbInst32Only :
    crossOk .riscv32g_RiscVDInst32 .riscv32zb_RiscVZbbInst32Only = true := by decide +kernel
theorem cross_riscv32g_RiscVDInst32_riscv32zb_RiscVZbbImmInst32 :
    crossOk .riscv32g_RiscVDInst32 .riscv32zb_RiscVZbbImmInst32 = true := by decide +kernel
theorem cross_riscv32g_RiscVDInst32_riscv32zb_RiscVZbcInst32 :
    crossOk .riscv32g_RiscVDInst32 .riscv32zb_RiscVZbcInst32 = true := by decide +kernel
theorem cross_riscv32g_RiscVDInst32_riscv32zb_RiscVZbsInst32 :
    crossOk .riscv32g_RiscVDInst32 .riscv32zb_RiscVZbsInst32 = true := by decide +kernel
theorem cross_riscv32g_RiscVDInst32_riscv32zb_RiscVZbsImmInst32 :
    crossOk .riscv32g_RiscVDInst32 .riscv32zb_RiscVZbsImmInst32 = true := by decide +kernel
theorem cross_riscv32g_RiscVPrivInst32_riscv32zb_RiscVZbaInst32 :
    crossOk .riscv32g_RiscVPrivInst32 .riscv32zb_RiscVZbaInst32 = true := by decide +kernel
theorem cross_riscv32g_RiscVPrivInst32_riscv32zb_RiscVZbbInst32 :
    crossOk .riscv32g_RiscVPrivInst32 .riscv32zb_RiscVZbbInst32 = true := by decide +kernel
theorem cross_riscv32g_RiscVPrivInst32_riscv32zb_RiscVZbbInst32Only :
    crossOk .riscv32g_RiscVPrivInst32 .riscv32zb_RiscVZbbInst32Only = true := by decide +kernel
theorem cross_riscv32g_RiscVPrivInst32_riscv32zb_RiscVZbbImmInst32 :
    crossOk .riscv32g_RiscVPrivInst32 .riscv32zb_RiscVZbbImmInst32 = true := by decide +kernel
theorem cross_riscv32g_RiscVPrivInst32_riscv32zb_RiscVZbcInst32 :
    crossOk .riscv32g_RiscVPrivInst32 .riscv32zb_RiscVZbcInst32 = true := by decide +kernel
theorem cross_riscv32g_RiscVPrivInst32_riscv32zb_RiscVZbsInst32 :
    crossOk .riscv32g_RiscVPrivInst32 .riscv32zb_RiscVZbsInst32 = true := by decide +kernel
theorem cross_riscv32g_RiscVPrivInst32_riscv32zb_RiscVZbsImmInst32 :
    crossOk .riscv32g_RiscVPrivInst32 .riscv32zb_RiscVZbsImmInst32 = true := by decide +kernel
theorem cross_riscv32zb_RiscVZbaInst32_riscv32zb_RiscVZbbInst32 :
    crossOk .riscv32zb_RiscVZbaInst32 .riscv32zb_RiscVZbbInst32 = true := by decide +kernel
theorem cross_riscv32zb_RiscVZbaInst32_riscv32zb_RiscVZbbInst32Only :
    crossOk .riscv32zb_RiscVZbaInst32 .riscv32zb_RiscVZbbInst32Only = true := by decide +kernel
theorem cross_riscv32zb_RiscVZbaInst32_riscv32zb_RiscVZbbImmInst32 :
    crossOk .riscv32zb_RiscVZbaInst32 .riscv32zb_RiscVZbbImmInst32 = true := by decide +kernel
theorem cross_riscv32zb_RiscVZbaInst32_riscv32zb_RiscVZbcInst32 :
    crossOk .riscv32zb_RiscVZbaInst32 .riscv32zb_RiscVZbcInst32 = true := by decide +kernel
theorem cross_riscv32zb_RiscVZbaInst32_riscv32zb_RiscVZbsInst32 :
    crossOk .riscv32zb_RiscVZbaInst32 .riscv32zb_RiscVZbsInst32 = true := by decide +kernel
theorem cross_riscv32zb_RiscVZbaInst32_riscv32zb_RiscVZbsImmInst32 :
    crossOk .riscv32zb_RiscVZbaInst32 .riscv32zb_RiscVZbsImmInst32 = true := by decide +kernel
theorem cross_riscv32zb_RiscVZbbInst32_riscv32zb_RiscVZbbInst32Only :
    crossOk .riscv32zb_RiscVZbbInst32 .riscv32zb_RiscVZbbInst32Only = true := by decide +kernel
theorem cross_riscv32zb_RiscVZbbInst32_riscv32zb_RiscVZbbImmInst32 :
    crossOk .riscv32zb_RiscVZbbInst32 .riscv32zb_RiscVZbbImmInst32 = true := by decide +kernel
theorem cross_riscv32zb_RiscVZbbInst32_riscv32zb_RiscVZbcInst32 :
    crossOk .riscv32zb_RiscVZbbInst32 .riscv32zb_RiscVZbcInst32 = true := by decide +kernel
theorem cross_riscv32zb_RiscVZbbInst32_riscv32zb_RiscVZbsInst32 :
    crossOk .riscv32zb_RiscVZbbInst32 .riscv32zb_RiscVZbsInst32 = true := by decide +kernel
theorem cross_riscv32zb_RiscVZbbInst32_riscv32zb_RiscVZbsImmInst32 :
    crossOk .riscv32zb_RiscVZbbInst32 .riscv32zb_RiscVZbsImmInst32 = true := by decide +kernel
theorem cross_riscv32zb_RiscVZbbInst32Only_riscv32zb_RiscVZbbImmInst32 :
    crossOk .riscv32zb_RiscVZbbInst32Only .riscv32zb_RiscVZbbImmInst32 = true := by decide +kernel
theorem cross_riscv32zb_RiscVZbbInst32Only_riscv32zb_RiscVZbcInst32 :
    crossOk .riscv32zb_RiscVZbbInst32Only .riscv32zb_RiscVZbcInst32 = true := by decide +kernel
theorem cross_riscv32zb_RiscVZbbInst32Only_riscv32zb_RiscVZbsInst32 :
    crossOk .riscv32zb_RiscVZbbInst32Only .riscv32zb_RiscVZbsInst32 = true := by decide +kernel
theorem cross_riscv32zb_RiscVZbbInst32Only_riscv32zb_RiscVZbsImmInst32 :
    crossOk .riscv32zb_RiscVZbbInst32Only .riscv32zb_RiscVZbsImmInst32 = true := by decide +kernel
theorem cross_riscv32zb_RiscVZbbImmInst32_riscv32zb_RiscVZbcInst32 :
    crossOk .riscv32zb_RiscVZbbImmInst32 .riscv32zb_RiscVZbcInst32 = true := by decide +kernel
theorem cross_riscv32zb_RiscVZbbImmInst32_riscv32zb_RiscVZbsInst32 :
    crossOk .riscv32zb_RiscVZbbImmInst32 .riscv32zb_RiscVZbsInst32 = true := by decide +kernel
theorem cross_riscv32zb_RiscVZbbImmInst32_riscv32zb_RiscVZbsImmInst32 :
    crossOk .riscv32zb_RiscVZbbImmInst32 .riscv32zb_RiscVZbsImmInst32 = true := by decide +kernel
theorem cross_riscv32zb_RiscVZbcInst32_riscv32zb_RiscVZbsInst32 :
    crossOk .riscv32zb_RiscVZbcInst32 .riscv32zb_RiscVZbsInst32 = true := by decide +kernel
theorem cross_riscv32zb_RiscVZbcInst32_riscv32zb_RiscVZbsImmInst32 :
    crossOk .riscv32zb_RiscVZbcInst32 .riscv32zb_RiscVZbsImmInst32 = true := by decide +kernel
theorem cross_riscv32zb_RiscVZbsInst32_riscv32zb_RiscVZbsImmInst32 :
    crossOk .riscv32zb_RiscVZbsInst32 .riscv32zb_RiscVZbsImmInst32 = true := by decide +kernel
theorem cross_riscv32g_RiscVIInstBase32_riscv_vector_RiscVVInst32 :
    crossOk .riscv32g_RiscVIInstBase32 .riscv_vector_RiscVVInst32 = true := by decide +kernel
theorem cross_riscv32g_RiscVIHints32_riscv_vector_RiscVVInst32 :
    crossOk .riscv32g_RiscVIHints32 .riscv_vector_RiscVVInst32 = true := by decide +kernel
theorem cross_riscv32g_RiscVZifenceiInst32_riscv_vector_RiscVVInst32 :
    crossOk .riscv32g_RiscVZifenceiInst32 .riscv_vector_RiscVVInst32 = true := by decide +kernel
theorem cross_riscv32g_RiscVZicsrInst32_riscv_vector_RiscVVInst32 :
    crossOk .riscv32g_RiscVZicsrInst32 .riscv_vector_RiscVVInst32 = true := by decide +kernel
theorem cross_riscv32g_RiscVMInst32_riscv_vector_RiscVVInst32 :
    crossOk .riscv32g_RiscVMInst32 .riscv_vector_RiscVVInst32 = true := by decide +kernel
theorem cross_riscv32g_RiscVAInst32_riscv_vector_RiscVVInst32 :
    crossOk .riscv32g_RiscVAInst32 .riscv_vector_RiscVVInst32 = true := by decide +kernel
theorem cross_riscv32g_RiscVFInst32_riscv_vector_RiscVVInst32 :
    crossOk .riscv32g_RiscVFInst32 .riscv_vector_RiscVVInst32 = true := by decide +kernel
theorem cross_riscv32g_RiscVDInst32_riscv_vector_RiscVVInst32 :
    crossOk .riscv32g_RiscVDInst32 .riscv_vector_RiscVVInst32 = true := by decide +kernel
theorem cross_riscv32g_RiscVPrivInst32_riscv_vector_RiscVVInst32 :
    crossOk .riscv32g_RiscVPrivInst32 .riscv_vector_RiscVVInst32 = true := by decide +kernel
theorem cross_riscv_vector_RiscVVInst32_riscv32zb_RiscVZbaInst32 :
    crossOk .riscv_vector_RiscVVInst32 .riscv32zb_RiscVZbaInst32 = true := by decide +kernel
theorem cross_riscv_vector_RiscVVInst32_riscv32zb_RiscVZbbInst32 :
    crossOk .riscv_vector_RiscVVInst32 .riscv32zb_RiscVZbbInst32 = true := by decide +kernel
theorem cross_riscv_vector_RiscVVInst32_riscv32zb_RiscVZbcInst32 :
    crossOk .riscv_vector_RiscVVInst32 .riscv32zb_RiscVZbcInst32 = true := by decide +kernel
theorem cross_riscv_vector_RiscVVInst32_riscv32zb_RiscVZbsInst32 :
    crossOk .riscv_vector_RiscVVInst32 .riscv32zb_RiscVZbsInst32 = true := by decide +kernel
theorem cross_riscv64g_RiscVGInstBase32_riscv64g_RiscVGHints32 :
    crossOk .riscv64g_RiscVGInstBase32 .riscv64g_RiscVGHints32 = true := by decide +kernel
theorem cross_riscv64g_RiscVCInstBase16_riscv64g_RiscVCHints16 :
    crossOk .riscv64g_RiscVCInstBase16 .riscv64g_RiscVCHints16 = true := by decide +kernel
theorem cross_riscv64g_RiscVGInstBase32_riscv32zb_RiscVZbaInst32 :
    crossOk .riscv64g_RiscVGInstBase32 .riscv32zb_RiscVZbaInst32 = true := by decide +kernel
theorem cross_riscv64g_RiscVGInstBase32_riscv64zb_RiscVZbaInst64 :
    crossOk .riscv64g_RiscVGInstBase32 .riscv64zb_RiscVZbaInst64 = true := by decide +kernel
theorem cross_riscv64g_RiscVGInstBase32_riscv32zb_RiscVZbbInst32 :
    crossOk .riscv64g_RiscVGInstBase32 .riscv32zb_RiscVZbbInst32 = true := by decide +kernel
theorem cross_riscv64g_RiscVGInstBase32_riscv64zb_RiscVZbbInst64 :
    crossOk .riscv64g_RiscVGInstBase32 .riscv64zb_RiscVZbbInst64 = true := by decide +kernel
theorem cross_riscv64g_RiscVGInstBase32_riscv32zb_RiscVZbcInst32 :
    crossOk .riscv64g_RiscVGInstBase32 .riscv32zb_RiscVZbcInst32 = true := by decide +kernel
theorem cross_riscv64g_RiscVGInstBase32_riscv32zb_RiscVZbsInst32 :
    crossOk .riscv64g_RiscVGInstBase32 .riscv32zb_RiscVZbsInst32 = true := by decide +kernel
theorem cross_riscv64g_RiscVGInstBase32_riscv64zb_RiscVZbsImmInst64 :
    crossOk .riscv64g_RiscVGInstBase32 .riscv64zb_RiscVZbsImmInst64 = true := by decide +kernel
theorem cross_riscv64g_RiscVGHints32_riscv32zb_RiscVZbaInst32 :
    crossOk .riscv64g_RiscVGHints32 .riscv32zb_RiscVZbaInst32 = true := by decide +kernel
theorem cross_riscv64g_RiscVGHints32_riscv64zb_RiscVZbaInst64 :
    crossOk .riscv64g_RiscVGHints32 .riscv64zb_RiscVZbaInst64 = true := by decide +kernel
theorem cross_riscv64g_RiscVGHints32_riscv32zb_RiscVZbbInst32 :
    crossOk .riscv64g_RiscVGHints32 .riscv32zb_RiscVZbbInst32 = true := by decide +kernel
theorem cross_riscv64g_RiscVGHints32_riscv64zb_RiscVZbbInst64 :
    crossOk .riscv64g_RiscVGHints32 .riscv64zb_RiscVZbbInst64 = true := by decide +kernel
theorem cross_riscv64g_RiscVGHints32_riscv32zb_RiscVZbcInst32 :
    crossOk .riscv64g_RiscVGHints32 .riscv32zb_RiscVZbcInst32 = true := by decide +kernel
theorem cross_riscv64g_RiscVGHints32_riscv32zb_RiscVZbsInst32 :
    crossOk .riscv64g_RiscVGHints32 .riscv32zb_RiscVZbsInst32 = true := by decide +kernel
theorem cross_riscv64g_RiscVGHints32_riscv64zb_RiscVZbsImmInst64 :
    crossOk .riscv64g_RiscVGHints32 .riscv64zb_RiscVZbsImmInst64 = true := by decide +kernel
theorem cross_riscv32zb_RiscVZbaInst32_riscv64zb_RiscVZbaInst64 :
    crossOk .riscv32zb_RiscVZbaInst32 .riscv64zb_RiscVZbaInst64 = true := by decide +kernel
theorem cross_riscv32zb_RiscVZbaInst32_riscv64zb_RiscVZbbInst64 :
    crossOk .riscv32zb_RiscVZbaInst32 .riscv64zb_RiscVZbbInst64 = true := by decide +kernel
theorem cross_riscv32zb_RiscVZbaInst32_riscv64zb_RiscVZbsImmInst64 :
    crossOk .riscv32zb_RiscVZbaInst32 .riscv64zb_RiscVZbsImmInst64 = true := by decide +kernel
theorem cross_riscv64zb_RiscVZbaInst64_riscv32zb_RiscVZbbInst32 :
    crossOk .riscv64zb_RiscVZbaInst64 .riscv32zb_RiscVZbbInst32 = true := by decide +kernel
theorem cross_riscv64zb_RiscVZbaInst64_riscv64zb_RiscVZbbInst64 :
    crossOk .riscv64zb_RiscVZbaInst64 .riscv64zb_RiscVZbbInst64 = true := by decide +kernel
theorem cross_riscv64zb_RiscVZbaInst64_riscv32zb_RiscVZbcInst32 :
    crossOk .riscv64zb_RiscVZbaInst64 .riscv32zb_RiscVZbcInst32 = true := by decide +kernel
theorem cross_riscv64zb_RiscVZbaInst64_riscv32zb_RiscVZbsInst32 :
    crossOk .riscv64zb_RiscVZbaInst64 .riscv32zb_RiscVZbsInst32 = true := by decide +kernel
theorem cross_riscv64zb_RiscVZbaInst64_riscv64zb_RiscVZbsImmInst64 :
    crossOk .riscv64zb_RiscVZbaInst64 .riscv64zb_RiscVZbsImmInst64 = true := by decide +kernel
theorem cross_riscv32zb_RiscVZbbInst32_riscv64zb_RiscVZbbInst64 :
    crossOk .riscv32zb_RiscVZbbInst32 .riscv64zb_RiscVZbbInst64 = true := by decide +kernel
theorem cross_riscv32zb_RiscVZbbInst32_riscv64zb_RiscVZbsImmInst64 :
    crossOk .riscv32zb_RiscVZbbInst32 .riscv64zb_RiscVZbsImmInst64 = true := by decide +kernel
theorem cross_riscv64zb_RiscVZbbInst64_riscv32zb_RiscVZbcInst32 :
    crossOk .riscv64zb_RiscVZbbInst64 .riscv32zb_RiscVZbcInst32 = true := by decide +kernel
theorem cross_riscv64zb_RiscVZbbInst64_riscv32zb_RiscVZbsInst32 :
    crossOk .riscv64zb_RiscVZbbInst64 .riscv32zb_RiscVZbsInst32 = true := by decide +kernel
theorem cross_riscv64zb_RiscVZbbInst64_riscv64zb_RiscVZbsImmInst64 :
    crossOk .riscv64zb_RiscVZbbInst64 .riscv64zb_RiscVZbsImmInst64 = true := by decide +kernel
theorem cross_riscv32zb_RiscVZbcInst32_riscv64zb_RiscVZbsImmInst64 :
    crossOk .riscv32zb_RiscVZbcInst32 .riscv64zb_RiscVZbsImmInst64 = true := by decide +kernel
theorem cross_riscv32zb_RiscVZbsInst32_riscv64zb_RiscVZbsImmInst64 :
    crossOk .riscv32zb_RiscVZbsInst32 .riscv64zb_RiscVZbsImmInst64 = true := by decide +kernel
theorem cross_riscv64g_RiscVGInstBase32_riscv_vector_RiscVVInst32 :
    crossOk .riscv64g_RiscVGInstBase32 .riscv_vector_RiscVVInst32 = true := by decide +kernel
theorem cross_riscv64g_RiscVGHints32_riscv_vector_RiscVVInst32 :
    crossOk .riscv64g_RiscVGHints32 .riscv_vector_RiscVVInst32 = true := by decide +kernel
theorem cross_riscv_vector_RiscVVInst32_riscv64zb_RiscVZbaInst64 :
    crossOk .riscv_vector_RiscVVInst32 .riscv64zb_RiscVZbaInst64 = true := by decide +kernel
theorem cross_riscv_vector_RiscVVInst32_riscv64zb_RiscVZbbInst64 :
    crossOk .riscv_vector_RiscVVInst32 .riscv64zb_RiscVZbbInst64 = true := by decide +kernel
theorem cross_riscv_vector_RiscVVInst32_riscv64zb_RiscVZbsImmInst64 :
    crossOk .riscv_vector_RiscVVInst32 .riscv64zb_RiscVZbsImmInst64 = true := by decide +kernel
theorem cross_riscv_zvbb_RiscVZvkbInst32_riscv_zvbb_RiscVBasicBitInst32 :
    crossOk .riscv_zvbb_RiscVZvkbInst32 .riscv_zvbb_RiscVBasicBitInst32 = true := by decide +kernel
theorem cross_riscv32g_RiscVIInstBase32_riscv_zicond_RiscVZicond :
    crossOk .riscv32g_RiscVIInstBase32 .riscv_zicond_RiscVZicond = true := by decide +kernel
theorem cross_riscv32g_RiscVIInstBase32_riscv_zimop_RiscVZimop :
    crossOk .riscv32g_RiscVIInstBase32 .riscv_zimop_RiscVZimop = true := by decide +kernel
theorem cross_riscv32g_RiscVIInstBase32_riscv_zhintpause_RiscVZhintpause :
    crossOk .riscv32g_RiscVIInstBase32 .riscv_zhintpause_RiscVZhintpause = true := by decide +kernel
theorem cross_riscv32g_RiscVIInstBase32_riscv_zihintntl_RiscVZihintntl :
    crossOk .riscv32g_RiscVIInstBase32 .riscv_zihintntl_RiscVZihintntl = true := by decide +kernel
theorem cross_riscv32g_RiscVIInstBase32_riscv_zicbop_RiscVZicbop :
    crossOk .riscv32g_RiscVIInstBase32 .riscv_zicbop_RiscVZicbop = true := by decide +kernel
theorem cross_riscv32g_RiscVIHints32_riscv_zicond_RiscVZicond :
    crossOk .riscv32g_RiscVIHints32 .riscv_zicond_RiscVZicond = true := by decide +kernel
theorem cross_riscv32g_RiscVIHints32_riscv_zimop_RiscVZimop :
    crossOk .riscv32g_RiscVIHints32 .riscv_zimop_RiscVZimop = true := by decide +kernel
theorem cross_riscv32g_RiscVIHints32_riscv_zhintpause_RiscVZhintpause :
    crossOk .riscv32g_RiscVIHints32 .riscv_zhintpause_RiscVZhintpause = true := by decide +kernel
theorem cross_riscv32g_RiscVIHints32_riscv_zihintntl_RiscVZihintntl :
    crossOk .riscv32g_RiscVIHints32 .riscv_zihintntl_RiscVZihintntl = true := by decide +kernel
theorem cross_riscv32g_RiscVIHints32_riscv_zicbop_RiscVZicbop :
    crossOk .riscv32g_RiscVIHints32 .riscv_zicbop_RiscVZicbop = true := by decide +kernel
theorem cross_riscv32g_RiscVZifenceiInst32_riscv_zicond_RiscVZicond :
    crossOk .riscv32g_RiscVZifenceiInst32 .riscv_zicond_RiscVZicond = true := by decide +kernel
theorem cross_riscv32g_RiscVZifenceiInst32_riscv_zimop_RiscVZimop :
    crossOk .riscv32g_RiscVZifenceiInst32 .riscv_zimop_RiscVZimop = true := by decide +kernel
theorem cross_riscv32g_RiscVZifenceiInst32_riscv_zhintpause_RiscVZhintpause :
    crossOk .riscv32g_RiscVZifenceiInst32 .riscv_zhintpause_RiscVZhintpause = true := by decide +kernel
theorem cross_riscv32g_RiscVZifenceiInst32_riscv_zihintntl_RiscVZihintntl :
    crossOk .riscv32g_RiscVZifenceiInst32 .riscv_zihintntl_RiscVZihintntl = true := by decide +kernel
theorem cross_riscv32g_RiscVZifenceiInst32_riscv_zicbop_RiscVZicbop :
    crossOk .riscv32g_RiscVZifenceiInst32 .riscv_zicbop_RiscVZicbop = true := by decide +kernel
theorem cross_riscv32g_RiscVZicsrInst32_riscv_zicond_RiscVZicond :
    crossOk .riscv32g_RiscVZicsrInst32 .riscv_zicond_RiscVZicond = true := by decide +kernel
theorem cross_riscv32g_RiscVZicsrInst32_riscv_zimop_RiscVZimop :
    crossOk .riscv32g_RiscVZicsrInst32 .riscv_zimop_RiscVZimop = true := by decide +kernel
theorem cross_riscv32g_RiscVZicsrInst32_riscv_zhintpause_RiscVZhintpause :
    crossOk .riscv32g_RiscVZicsrInst32 .riscv_zhintpause_RiscVZhintpause = true := by decide +kernel
theorem cross_riscv32g_RiscVZicsrInst32_riscv_zihintntl_RiscVZihintntl :
    crossOk .riscv32g_RiscVZicsrInst32 .riscv_zihintntl_RiscVZihintntl = true := by decide +kernel
theorem cross_riscv32g_RiscVZicsrInst32_riscv_zicbop_RiscVZicbop :
    crossOk .riscv32g_RiscVZicsrInst32 .riscv_zicbop_RiscVZicbop = true := by decide +kernel
theorem cross_riscv32g_RiscVMInst32_riscv_zicond_RiscVZicond :
    crossOk .riscv32g_RiscVMInst32 .riscv_zicond_RiscVZicond = true := by decide +kernel
theorem cross_riscv32g_RiscVMInst32_riscv_zimop_RiscVZimop :
    crossOk .riscv32g_RiscVMInst32 .riscv_zimop_RiscVZimop = true := by decide +kernel
theorem cross_riscv32g_RiscVMInst32_riscv_zhintpause_RiscVZhintpause :
    crossOk .riscv32g_RiscVMInst32 .riscv_zhintpause_RiscVZhintpause = true := by decide +kernel
theorem cross_riscv32g_RiscVMInst32_riscv_zihintntl_RiscVZihintntl :
    crossOk .riscv32g_RiscVMInst32 .riscv_zihintntl_RiscVZihintntl = true := by decide +kernel
theorem cross_riscv32g_RiscVMInst32_riscv_zicbop_RiscVZicbop :
    crossOk .riscv32g_RiscVMInst32 .riscv_zicbop_RiscVZicbop = true := by decide +kernel
theorem cross_riscv32g_RiscVAInst32_riscv_zicond_RiscVZicond :
    crossOk .riscv32g_RiscVAInst32 .riscv_zicond_RiscVZicond = true := by decide +kernel
theorem cross_riscv32g_RiscVAInst32_riscv_zimop_RiscVZimop :
    crossOk .riscv32g_RiscVAInst32 .riscv_zimop_RiscVZimop = true := by decide +kernel
theorem cross_riscv32g_RiscVAInst32_riscv_zhintpause_RiscVZhintpause :
    crossOk .riscv32g_RiscVAInst32 .riscv_zhintpause_RiscVZhintpause = true := by decide +kernel
theorem cross_riscv32g_RiscVAInst32_riscv_zihintntl_RiscVZihintntl :
    crossOk .riscv32g_RiscVAInst32 .riscv_zihintntl_RiscVZihintntl = true := by decide +kernel
theorem cross_riscv32g_RiscVAInst32_riscv_zicbop_RiscVZicbop :
    crossOk .riscv32g_RiscVAInst32 .riscv_zicbop_RiscVZicbop = true := by decide +kernel
theorem cross_riscv32g_RiscVFInst32_riscv_zicond_RiscVZicond :
    crossOk .riscv32g_RiscVFInst32 .riscv_zicond_RiscVZicond = true := by decide +kernel
theorem cross_riscv32g_RiscVFInst32_riscv_zimop_RiscVZimop :
    crossOk .riscv32g_RiscVFInst32 .riscv_zimop_RiscVZimop = true := by decide +kernel
theorem cross_riscv32g_RiscVFInst32_riscv_zhintpause_RiscVZhintpause :
    crossOk .riscv32g_RiscVFInst32 .riscv_zhintpause_RiscVZhintpause = true := by decide +kernel
theorem cross_riscv32g_RiscVFInst32_riscv_zihintntl_RiscVZihintntl :
    crossOk .riscv32g_RiscVFInst32 .riscv_zihintntl_RiscVZihintntl = true := by decide +kernel
theorem cross_riscv32g_RiscVFInst32_riscv_zicbop_RiscVZicbop :
    crossOk .riscv32g_RiscVFInst32 .riscv_zicbop_RiscVZicbop = true := by decide +kernel
theorem cross_riscv32g_RiscVDInst32_riscv_zicond_RiscVZicond :
    crossOk .riscv32g_RiscVDInst32 .riscv_zicond_RiscVZicond = true := by decide +kernel
theorem cross_riscv32g_RiscVDInst32_riscv_zimop_RiscVZimop :
    crossOk .riscv32g_RiscVDInst32 .riscv_zimop_RiscVZimop = true := by decide +kernel
theorem cross_riscv32g_RiscVDInst32_riscv_zhintpause_RiscVZhintpause :
    crossOk .riscv32g_RiscVDInst32 .riscv_zhintpause_RiscVZhintpause = true := by decide +kernel
theorem cross_riscv32g_RiscVDInst32_riscv_zihintntl_RiscVZihintntl :
    crossOk .riscv32g_RiscVDInst32 .riscv_zihintntl_RiscVZihintntl = true := by decide +kernel
theorem cross_riscv32g_RiscVDInst32_riscv_zicbop_RiscVZicbop :
    crossOk .riscv32g_RiscVDInst32 .riscv_zicbop_RiscVZicbop = true := by decide +kernel
theorem cross_riscv32g_RiscVPrivInst32_riscv_zicond_RiscVZicond :
    crossOk .riscv32g_RiscVPrivInst32 .riscv_zicond_RiscVZicond = true := by decide +kernel
theorem cross_riscv32g_RiscVPrivInst32_riscv_zimop_RiscVZimop :
    crossOk .riscv32g_RiscVPrivInst32 .riscv_zimop_RiscVZimop = true := by decide +kernel
theorem cross_riscv32g_RiscVPrivInst32_riscv_zhintpause_RiscVZhintpause :
    crossOk .riscv32g_RiscVPrivInst32 .riscv_zhintpause_RiscVZhintpause = true := by decide +kernel
theorem cross_riscv32g_RiscVPrivInst32_riscv_zihintntl_RiscVZihintntl :
    crossOk .riscv32g_RiscVPrivInst32 .riscv_zihintntl_RiscVZihintntl = true := by decide +kernel
theorem cross_riscv32g_RiscVPrivInst32_riscv_zicbop_RiscVZicbop :
    crossOk .riscv32g_RiscVPrivInst32 .riscv_zicbop_RiscVZicbop = true := by decide +kernel
theorem cross_riscv32zb_RiscVZbaInst32_riscv_zicond_RiscVZicond :
    crossOk .riscv32zb_RiscVZbaInst32 .riscv_zicond_RiscVZicond = true := by decide +kernel
theorem cross_riscv32zb_RiscVZbaInst32_riscv_zimop_RiscVZimop :
    crossOk .riscv32zb_RiscVZbaInst32 .riscv_zimop_RiscVZimop = true := by decide +kernel
theorem cross_riscv32zb_RiscVZbaInst32_riscv_zhintpause_RiscVZhintpause :
    crossOk .riscv32zb_RiscVZbaInst32 .riscv_zhintpause_RiscVZhintpause = true := by decide +kernel
theorem cross_riscv32zb_RiscVZbaInst32_riscv_zihintntl_RiscVZihintntl :
    crossOk .riscv32zb_RiscVZbaInst32 .riscv_zihintntl_RiscVZihintntl = true := by decide +kernel
theorem cross_riscv32zb_RiscVZbaInst32_riscv_zicbop_RiscVZicbop :
    crossOk .riscv32zb_RiscVZbaInst32 .riscv_zicbop_RiscVZicbop = true := by decide +kernel
theorem cross_riscv32zb_RiscVZbbInst32_riscv_zicond_RiscVZicond :
    crossOk .riscv32zb_RiscVZbbInst32 .riscv_zicond_RiscVZicond = true := by decide +kernel
theorem cross_riscv32zb_RiscVZbbInst32_riscv_zimop_RiscVZimop :
    crossOk .riscv32zb_RiscVZbbInst32 .riscv_zimop_RiscVZimop = true := by decide +kernel
theorem cross_riscv32zb_RiscVZbbInst32_riscv_zhintpause_RiscVZhintpause :
    crossOk .riscv32zb_RiscVZbbInst32 .riscv_zhintpause_RiscVZhintpause = true := by decide +kernel
theorem cross_riscv32zb_RiscVZbbInst32_riscv_zihintntl_RiscVZihintntl :
    crossOk .riscv32zb_RiscVZbbInst32 .riscv_zihintntl_RiscVZihintntl = true := by decide +kernel
theorem cross_riscv32zb_RiscVZbbInst32_riscv_zicbop_RiscVZicbop :
    crossOk .riscv32zb_RiscVZbbInst32 .riscv_zicbop_RiscVZicbop = true := by decide +kernel
theorem cross_riscv32zb_RiscVZbcInst32_riscv_zicond_RiscVZicond :
    crossOk .riscv32zb_RiscVZbcInst32 .riscv_zicond_RiscVZicond = true := by decide +kernel
theorem cross_riscv32zb_RiscVZbcInst32_riscv_zimop_RiscVZimop :
    crossOk .riscv32zb_RiscVZbcInst32 .riscv_zimop_RiscVZimop = true := by decide +kernel
theorem cross_riscv32zb_RiscVZbcInst32_riscv_zhintpause_RiscVZhintpause :
    crossOk .riscv32zb_RiscVZbcInst32 .riscv_zhintpause_RiscVZhintpause = true := by decide +kernel
theorem cross_riscv32zb_RiscVZbcInst32_riscv_zihintntl_RiscVZihintntl :
    crossOk .riscv32zb_RiscVZbcInst32 .riscv_zihintntl_RiscVZihintntl = true := by decide +kernel
theorem cross_riscv32zb_RiscVZbcInst32_riscv_zicbop_RiscVZicbop :
    crossOk .riscv32zb_RiscVZbcInst32 .riscv_zicbop_RiscVZicbop = true := by decide +kernel
theorem cross_riscv32zb_RiscVZbsInst32_riscv_zicond_RiscVZicond :
    crossOk .riscv32zb_RiscVZbsInst32 .riscv_zicond_RiscVZicond = true := by decide +kernel
theorem cross_riscv32zb_RiscVZbsInst32_riscv_zimop_RiscVZimop :
    crossOk .riscv32zb_RiscVZbsInst32 .riscv_zimop_RiscVZimop = true := by decide +kernel
theorem cross_riscv32zb_RiscVZbsInst32_riscv_zhintpause_RiscVZhintpause :
    crossOk .riscv32zb_RiscVZbsInst32 .riscv_zhintpause_RiscVZhintpause = true := by decide +kernel
theorem cross_riscv32zb_RiscVZbsInst32_riscv_zihintntl_RiscVZihintntl :
    crossOk .riscv32zb_RiscVZbsInst32 .riscv_zihintntl_RiscVZihintntl = true := by decide +kernel
theorem cross_riscv32zb_RiscVZbsInst32_riscv_zicbop_RiscVZicbop :
    crossOk .riscv32zb_RiscVZbsInst32 .riscv_zicbop_RiscVZicbop = true := by decide +kernel
theorem cross_riscv_zicond_RiscVZicond_riscv_zimop_RiscVZimop :
    crossOk .riscv_zicond_RiscVZicond .riscv_zimop_RiscVZimop = true := by decide +kernel
theorem cross_riscv_zicond_RiscVZicond_riscv_zhintpause_RiscVZhintpause :
    crossOk .riscv_zicond_RiscVZicond .riscv_zhintpause_RiscVZhintpause = true := by decide +kernel
theorem cross_riscv_zicond_RiscVZicond_riscv_zihintntl_RiscVZihintntl :
    crossOk .riscv_zicond_RiscVZicond .riscv_zihintntl_RiscVZihintntl = true := by decide +kernel
theorem cross_riscv_zicond_RiscVZicond_riscv_zicbop_RiscVZicbop :
    crossOk .riscv_zicond_RiscVZicond .riscv_zicbop_RiscVZicbop = true := by decide +kernel
theorem cross_riscv_zimop_RiscVZimop_riscv_zhintpause_RiscVZhintpause :
    crossOk .riscv_zimop_RiscVZimop .riscv_zhintpause_RiscVZhintpause = true := by decide +kernel
theorem cross_riscv_zimop_RiscVZimop_riscv_zihintntl_RiscVZihintntl :
    crossOk .riscv_zimop_RiscVZimop .riscv_zihintntl_RiscVZihintntl = true := by decide +kernel
theorem cross_riscv_zimop_RiscVZimop_riscv_zicbop_RiscVZicbop :
    crossOk .riscv_zimop_RiscVZimop .riscv_zicbop_RiscVZicbop = true := by decide +kernel
theorem cross_riscv_zhintpause_RiscVZhintpause_riscv_zihintntl_RiscVZihintntl :
    crossOk .riscv_zhintpause_RiscVZhintpause .riscv_zihintntl_RiscVZihintntl = true := by decide +kernel
theorem cross_riscv_zhintpause_RiscVZhintpause_riscv_zicbop_RiscVZicbop :
    crossOk .riscv_zhintpause_RiscVZhintpause .riscv_zicbop_RiscVZicbop = true := by decide +kernel
theorem cross_riscv_zihintntl_RiscVZihintntl_riscv_zicbop_RiscVZicbop :
    crossOk .riscv_zihintntl_RiscVZihintntl .riscv_zicbop_RiscVZicbop = true := by decide +kernel
theorem cross_riscv_zimop_RiscVZcmop_riscv_zihintntl_RiscVCZihintntl :
    crossOk .riscv_zimop_RiscVZcmop .riscv_zihintntl_RiscVCZihintntl = true := by decide +kernel
theorem cross_riscv_zimop_RiscVZcmop_riscv_zc_RiscVCZca :
    crossOk .riscv_zimop_RiscVZcmop .riscv_zc_RiscVCZca = true := by decide +kernel
theorem cross_riscv_zimop_RiscVZcmop_riscv_zc_RiscVCZcf :
    crossOk .riscv_zimop_RiscVZcmop .riscv_zc_RiscVCZcf = true := by decide +kernel
theorem cross_riscv_zimop_RiscVZcmop_riscv_zc_RiscVCZcb32 :
    crossOk .riscv_zimop_RiscVZcmop .riscv_zc_RiscVCZcb32 = true := by decide +kernel
theorem cross_riscv_zimop_RiscVZcmop_riscv_zc_RiscVCZcmp :
    crossOk .riscv_zimop_RiscVZcmop .riscv_zc_RiscVCZcmp = true := by decide +kernel
theorem cross_riscv_zimop_RiscVZcmop_riscv_zc_RiscVCZcmt :
    crossOk .riscv_zimop_RiscVZcmop .riscv_zc_RiscVCZcmt = true := by decide +kernel
theorem cross_riscv_zihintntl_RiscVCZihintntl_riscv_zc_RiscVCZca :
    crossOk .riscv_zihintntl_RiscVCZihintntl .riscv_zc_RiscVCZca = true := by decide +kernel
theorem cross_riscv_zihintntl_RiscVCZihintntl_riscv_zc_RiscVCZcf :
    crossOk .riscv_zihintntl_RiscVCZihintntl .riscv_zc_RiscVCZcf = true := by decide +kernel
theorem cross_riscv_zihintntl_RiscVCZihintntl_riscv_zc_RiscVCZcb32 :
    crossOk .riscv_zihintntl_RiscVCZihintntl .riscv_zc_RiscVCZcb32 = true := by decide +kernel
theorem cross_riscv_zihintntl_RiscVCZihintntl_riscv_zc_RiscVCZcmp :
    crossOk .riscv_zihintntl_RiscVCZihintntl .riscv_zc_RiscVCZcmp = true := by decide +kernel
theorem cross_riscv_zihintntl_RiscVCZihintntl_riscv_zc_RiscVCZcmt :
    crossOk .riscv_zihintntl_RiscVCZihintntl .riscv_zc_RiscVCZcmt = true := by decide +kernel
theorem cross_riscv_zc_RiscVCZca_riscv_zc_RiscVCZcf :
    crossOk .riscv_zc_RiscVCZca .riscv_zc_RiscVCZcf = true := by decide +kernel
theorem cross_riscv_zc_RiscVCZca_riscv_zc_RiscVCZcb32 :
    crossOk .riscv_zc_RiscVCZca .riscv_zc_RiscVCZcb32 = true := by decide +kernel
theorem cross_riscv_zc_RiscVCZca_riscv_zc_RiscVCZcmp :
    crossOk .riscv_zc_RiscVCZca .riscv_zc_RiscVCZcmp = true := by decide +kernel
theorem cross_riscv_zc_RiscVCZca_riscv_zc_RiscVCZcmt :
    crossOk .riscv_zc_RiscVCZca .riscv_zc_RiscVCZcmt = true := by decide +kernel
theorem cross_riscv_zc_RiscVCZcf_riscv_zc_RiscVCZcb32 :
    crossOk .riscv_zc_RiscVCZcf .riscv_zc_RiscVCZcb32 = true := by decide +kernel
theorem cross_riscv_zc_RiscVCZcf_riscv_zc_RiscVCZcmp :
    crossOk .riscv_zc_RiscVCZcf .riscv_zc_RiscVCZcmp = true := by decide +kernel
theorem cross_riscv_zc_RiscVCZcf_riscv_zc_RiscVCZcmt :
    crossOk .riscv_zc_RiscVCZcf .riscv_zc_RiscVCZcmt = true := by decide +kernel
theorem cross_riscv_zc_RiscVCZcb32_riscv_zc_RiscVCZcmp :
    crossOk .riscv_zc_RiscVCZcb32 .riscv_zc_RiscVCZcmp = true := by decide +kernel
theorem cross_riscv_zc_RiscVCZcb32_riscv_zc_RiscVCZcmt :
    crossOk .riscv_zc_RiscVCZcb32 .riscv_zc_RiscVCZcmt = true := by decide +kernel
theorem cross_riscv_zc_RiscVCZcmp_riscv_zc_RiscVCZcmt :
    crossOk .riscv_zc_RiscVCZcmp .riscv_zc_RiscVCZcmt = true := by decide +kernel

theorem pairs_rv32g_32 :
    (Decoder.groups .rv32g_32).Pairwise fun g h => crossOk g h = true := by
  simp only [Decoder.groups, List.pairwise_cons, List.mem_cons, List.not_mem_nil, or_false,
    forall_eq_or_imp, forall_eq, false_implies, implies_true, and_true, List.Pairwise.nil,
    true_and,
    cross_riscv32g_RiscVIInstBase32_riscv32g_RiscVIHints32,
    cross_riscv32g_RiscVIInstBase32_riscv32g_RiscVZifenceiInst32,
    cross_riscv32g_RiscVIInstBase32_riscv32g_RiscVZicsrInst32,
    cross_riscv32g_RiscVIInstBase32_riscv32g_RiscVMInst32,
    cross_riscv32g_RiscVIInstBase32_riscv32g_RiscVAInst32,
    cross_riscv32g_RiscVIInstBase32_riscv32g_RiscVFInst32,
    cross_riscv32g_RiscVIInstBase32_riscv32g_RiscVDInst32,
    cross_riscv32g_RiscVIInstBase32_riscv32g_RiscVPrivInst32,
    cross_riscv32g_RiscVIHints32_riscv32g_RiscVZifenceiInst32,
    cross_riscv32g_RiscVIHints32_riscv32g_RiscVZicsrInst32,
    cross_riscv32g_RiscVIHints32_riscv32g_RiscVMInst32,
    cross_riscv32g_RiscVIHints32_riscv32g_RiscVAInst32,
    cross_riscv32g_RiscVIHints32_riscv32g_RiscVFInst32,
    cross_riscv32g_RiscVIHints32_riscv32g_RiscVDInst32,
    cross_riscv32g_RiscVIHints32_riscv32g_RiscVPrivInst32,
    cross_riscv32g_RiscVZifenceiInst32_riscv32g_RiscVZicsrInst32,
    cross_riscv32g_RiscVZifenceiInst32_riscv32g_RiscVMInst32,
    cross_riscv32g_RiscVZifenceiInst32_riscv32g_RiscVAInst32,
    cross_riscv32g_RiscVZifenceiInst32_riscv32g_RiscVFInst32,
    cross_riscv32g_RiscVZifenceiInst32_riscv32g_RiscVDInst32,
    cross_riscv32g_RiscVZifenceiInst32_riscv32g_RiscVPrivInst32,
    cross_riscv32g_RiscVZicsrInst32_riscv32g_RiscVMInst32,
    cross_riscv32g_RiscVZicsrInst32_riscv32g_RiscVAInst32,
    cross_riscv32g_RiscVZicsrInst32_riscv32g_RiscVFInst32,
    cross_riscv32g_RiscVZicsrInst32_riscv32g_RiscVDInst32,
    cross_riscv32g_RiscVZicsrInst32_riscv32g_RiscVPrivInst32,
    cross_riscv32g_RiscVMInst32_riscv32g_RiscVAInst32,
    cross_riscv32g_RiscVMInst32_riscv32g_RiscVFInst32,
    cross_riscv32g_RiscVMInst32_riscv32g_RiscVDInst32,
    cross_riscv32g_RiscVMInst32_riscv32g_RiscVPrivInst32,
    cross_riscv32g_RiscVAInst32_riscv32g_RiscVFInst32,
    cross_riscv32g_RiscVAInst32_riscv32g_RiscVDInst32,
    cross_riscv32g_RiscVAInst32_riscv32g_RiscVPrivInst32,
    cross_riscv32g_RiscVFInst32_riscv32g_RiscVDInst32,
    cross_riscv32g_RiscVFInst32_riscv32g_RiscVPrivInst32,
    cross_riscv32g_RiscVDInst32_riscv32g_RiscVPrivInst32]

theorem pairs_rv32g_16 :
    (Decoder.groups .rv32g_16).Pairwise fun g h => crossOk g h = true := by
  simp only [Decoder.groups, List.pairwise_cons, List.mem_cons, List.not_mem_nil, or_false,
    forall_eq_or_imp, forall_eq, false_implies, implies_true, and_true, List.Pairwise.nil,
    true_and,
    cross_riscv32g_RiscVCInstBase16_riscv32g_RiscVCHints16]

theorem pairs_rv32gzb_32 :
    (Decoder.groups .rv32gzb_32).Pairwise fun g h => crossOk g h = true := by
  simp only [Decoder.groups, List.pairwise_cons, List.mem_cons, List.not_mem_nil, or_false,
    forall_eq_or_imp, forall_eq, false_implies, implies_true, and_true, List.Pairwise.nil,
    true_and,
    cross_riscv32g_RiscVIInstBase32_riscv32g_RiscVIHints32,
    cross_riscv32g_RiscVIInstBase32_riscv32g_RiscVZifenceiInst32,
    cross_riscv32g_RiscVIInstBase32_riscv32g_RiscVZicsrInst32,
    cross_riscv32g_RiscVIInstBase32_riscv32g_RiscVMInst32,
    cross_riscv32g_RiscVIInstBase32_riscv32g_RiscVAInst32,
    cross_riscv32g_RiscVIInstBase32_riscv32g_RiscVFInst32,
    cross_riscv32g_RiscVIInstBase32_riscv32g_RiscVDInst32,
    cross_riscv32g_RiscVIInstBase32_riscv32g_RiscVPrivInst32,
    cross_riscv32g_RiscVIInstBase32_riscv32zb_RiscVZbaInst32,
    cross_riscv32g_RiscVIInstBase32_riscv32zb_RiscVZbbInst32,
    cross_riscv32g_RiscVIInstBase32_riscv32zb_RiscVZbbInst32Only,
    cross_riscv32g_RiscVIInstBase32_riscv32zb_RiscVZbbImmInst32,
    cross_riscv32g_RiscVIInstBase32_riscv32zb_RiscVZbcInst32,
    cross_riscv32g_RiscVIInstBase32_riscv32zb_RiscVZbsInst32,
    cross_riscv32g_RiscVIInstBase32_riscv32zb_RiscVZbsImmInst32,
    cross_riscv32g_RiscVIHints32_riscv32g_RiscVZifenceiInst32,
    cross_riscv32g_RiscVIHints32_riscv32g_RiscVZicsrInst32,
    cross_riscv32g_RiscVIHints32_riscv32g_RiscVMInst32,
    cross_riscv32g_RiscVIHints32_riscv32g_RiscVAInst32,
    cross_riscv32g_RiscVIHints32_riscv32g_RiscVFInst32,
    cross_riscv32g_RiscVIHints32_riscv32g_RiscVDInst32,
    cross_riscv32g_RiscVIHints32_riscv32g_RiscVPrivInst32,
    cross_riscv32g_RiscVIHints32_riscv32zb_RiscVZbaInst32,
    cross_riscv32g_RiscVIHints32_riscv32zb_RiscVZbbInst32,
    cross_riscv32g_RiscVIHints32_riscv32zb_RiscVZbbInst32Only,
    cross_riscv32g_RiscVIHints32_riscv32zb_RiscVZbbImmInst32,
    cross_riscv32g_RiscVIHints32_riscv32zb_RiscVZbcInst32,
    cross_riscv32g_RiscVIHints32_riscv32zb_RiscVZbsInst32,
    cross_riscv32g_RiscVIHints32_riscv32zb_RiscVZbsImmInst32,
    cross_riscv32g_RiscVZifenceiInst32_riscv32g_RiscVZicsrInst32,
    cross_riscv32g_RiscVZifenceiInst32_riscv32g_RiscVMInst32,
    cross_riscv32g_RiscVZifenceiInst32_riscv32g_RiscVAInst32,
    cross_riscv32g_RiscVZifenceiInst32_riscv32g_RiscVFInst32,
    cross_riscv32g_RiscVZifenceiInst32_riscv32g_RiscVDInst32,
    cross_riscv32g_RiscVZifenceiInst32_riscv32g_RiscVPrivInst32,
    cross_riscv32g_RiscVZifenceiInst32_riscv32zb_RiscVZbaInst32,
    cross_riscv32g_RiscVZifenceiInst32_riscv32zb_RiscVZbbInst32,
    cross_riscv32g_RiscVZifenceiInst32_riscv32zb_RiscVZbbInst32Only,
    cross_riscv32g_RiscVZifenceiInst32_riscv32zb_RiscVZbbImmInst32,
    cross_riscv32g_RiscVZifenceiInst32_riscv32zb_RiscVZbcInst32,
    cross_riscv32g_RiscVZifenceiInst32_riscv32zb_RiscVZbsInst32,
    cross_riscv32g_RiscVZifenceiInst32_riscv32zb_RiscVZbsImmInst32,
    cross_riscv32g_RiscVZicsrInst32_riscv32g_RiscVMInst32,
    cross_riscv32g_RiscVZicsrInst32_riscv32g_RiscVAInst32,
    cross_riscv32g_RiscVZicsrInst32_riscv32g_RiscVFInst32,
    cross_riscv32g_RiscVZicsrInst32_riscv32g_RiscVDInst32,
    cross_riscv32g_RiscVZicsrInst32_riscv32g_RiscVPrivInst32,
    cross_riscv32g_RiscVZicsrInst32_riscv32zb_RiscVZbaInst32,
    cross_riscv32g_RiscVZicsrInst32_riscv32zb_RiscVZbbInst32,
    cross_riscv32g_RiscVZicsrInst32_riscv32zb_RiscVZbbInst32Only,
    cross_riscv32g_RiscVZicsrInst32_riscv32zb_RiscVZbbImmInst32,
    cross_riscv32g_RiscVZicsrInst32_riscv32zb_RiscVZbcInst32,
    cross_riscv32g_RiscVZicsrInst32_riscv32zb_RiscVZbsInst32,
    cross_riscv32g_RiscVZicsrInst32_riscv32zb_RiscVZbsImmInst32,
    cross_riscv32g_RiscVMInst32_riscv32g_RiscVAInst32,
    cross_riscv32g_RiscVMInst32_riscv32g_RiscVFInst32,
    cross_riscv32g_RiscVMInst32_riscv32g_RiscVDInst32,
    cross_riscv32g_RiscVMInst32_riscv32g_RiscVPrivInst32,
    cross_riscv32g_RiscVMInst32_riscv32zb_RiscVZbaInst32,
    cross_riscv32g_RiscVMInst32_riscv32zb_RiscVZbbInst32,
    cross_riscv32g_RiscVMInst32_riscv32zb_RiscVZbbInst32Only,
    cross_riscv32g_RiscVMInst32_riscv32zb_RiscVZbbImmInst32,
    cross_riscv32g_RiscVMInst32_riscv32zb_RiscVZbcInst32,
    cross_riscv32g_RiscVMInst32_riscv32zb_RiscVZbsInst32,
    cross_riscv32g_RiscVMInst32_riscv32zb_RiscVZbsImmInst32,
    cross_riscv32g_RiscVAInst32_riscv32g_RiscVFInst32,
    cross_riscv32g_RiscVAInst32_riscv32g_RiscVDInst32,
    cross_riscv32g_RiscVAInst32_riscv32g_RiscVPrivInst32,
    cross_riscv32g_RiscVAInst32_riscv32zb_RiscVZbaInst32,
    cross_riscv32g_RiscVAInst32_riscv32zb_RiscVZbbInst32,
    cross_riscv32g_RiscVAInst32_riscv32zb_RiscVZbbInst32Only,
    cross_riscv32g_RiscVAInst32_riscv32zb_RiscVZbbImmInst32,
    cross_riscv32g_RiscVAInst32_riscv32zb_RiscVZbcInst32,
    cross_riscv32g_RiscVAInst32_riscv32zb_RiscVZbsInst32,
    cross_riscv32g_RiscVAInst32_riscv32zb_RiscVZbsImmInst32,
    cross_riscv32g_RiscVFInst32_riscv32g_RiscVDInst32,
    cross_riscv32g_RiscVFInst32_riscv32g_RiscVPrivInst32,
    cross_riscv32g_RiscVFInst32_riscv32zb_RiscVZbaInst32,
    cross_riscv32g_RiscVFInst32_riscv32zb_RiscVZbbInst32,
    cross_riscv32g_RiscVFInst32_riscv32zb_RiscVZbbInst32Only,
    cross_riscv32g_RiscVFInst32_riscv32zb_RiscVZbbImmInst32,
    cross_riscv32g_RiscVFInst32_riscv32zb_RiscVZbcInst32,
    cross_riscv32g_RiscVFInst32_riscv32zb_RiscVZbsInst32,
    cross_riscv32g_RiscVFInst32_riscv32zb_RiscVZbsImmInst32,
    cross_riscv32g_RiscVDInst32_riscv32g_RiscVPrivInst32,
    cross_riscv32g_RiscVDInst32_riscv32zb_RiscVZbaInst32,
    cross_riscv32g_RiscVDInst32_riscv32zb_RiscVZbbInst32,
    cross_riscv32g_RiscVDInst32_riscv32zb_RiscVZbbInst32Only,
    cross_riscv32g_RiscVDInst32_riscv32zb_RiscVZbbImmInst32,
    cross_riscv32g_RiscVDInst32_riscv32zb_RiscVZbcInst32,
    cross_riscv32g_RiscVDInst32_riscv32zb_RiscVZbsInst32,
    cross_riscv32g_RiscVDInst32_riscv32zb_RiscVZbsImmInst32,
    cross_riscv32g_RiscVPrivInst32_riscv32zb_RiscVZbaInst32,
    cross_riscv32g_RiscVPrivInst32_riscv32zb_RiscVZbbInst32,
    cross_riscv32g_RiscVPrivInst32_riscv32zb_RiscVZbbInst32Only,
    cross_riscv32g_RiscVPrivInst32_riscv32zb_RiscVZbbImmInst32,
    cross_riscv32g_RiscVPrivInst32_riscv32zb_RiscVZbcInst32,
    cross_riscv32g_RiscVPrivInst32_riscv32zb_RiscVZbsInst32,
    cross_riscv32g_RiscVPrivInst32_riscv32zb_RiscVZbsImmInst32,
    cross_riscv32zb_RiscVZbaInst32_riscv32zb_RiscVZbbInst32,
    cross_riscv32zb_RiscVZbaInst32_riscv32zb_RiscVZbbInst32Only,
    cross_riscv32zb_RiscVZbaInst32_riscv32zb_RiscVZbbImmInst32,
    cross_riscv32zb_RiscVZbaInst32_riscv32zb_RiscVZbcInst32,
    cross_riscv32zb_RiscVZbaInst32_riscv32zb_RiscVZbsInst32,
    cross_riscv32zb_RiscVZbaInst32_riscv32zb_RiscVZbsImmInst32,
    cross_riscv32zb_RiscVZbbInst32_riscv32zb_RiscVZbbInst32Only,
    cross_riscv32zb_RiscVZbbInst32_riscv32zb_RiscVZbbImmInst32,
    cross_riscv32zb_RiscVZbbInst32_riscv32zb_RiscVZbcInst32,
    cross_riscv32zb_RiscVZbbInst32_riscv32zb_RiscVZbsInst32,
    cross_riscv32zb_RiscVZbbInst32_riscv32zb_RiscVZbsImmInst32,
    cross_riscv32zb_RiscVZbbInst32Only_riscv32zb_RiscVZbbImmInst32,
    cross_riscv32zb_RiscVZbbInst32Only_riscv32zb_RiscVZbcInst32,
    cross_riscv32zb_RiscVZbbInst32Only_riscv32zb_RiscVZbsInst32,
    cross_riscv32zb_RiscVZbbInst32Only_riscv32zb_RiscVZbsImmInst32,
    cross_riscv32zb_RiscVZbbImmInst32_riscv32zb_RiscVZbcInst32,
    cross_riscv32zb_RiscVZbbImmInst32_riscv32zb_RiscVZbsInst32,
    cross_riscv32zb_RiscVZbbImmInst32_riscv32zb_RiscVZbsImmInst32,
    cross_riscv32zb_RiscVZbcInst32_riscv32zb_RiscVZbsInst32,
    cross_riscv32zb_RiscVZbcInst32_riscv32zb_RiscVZbsImmInst32,
    cross_riscv32zb_RiscVZbsInst32_riscv32zb_RiscVZbsImmInst32]

theorem pairs_rv32gzb_16 :
    (Decoder.groups .rv32gzb_16).Pairwise fun g h => crossOk g h = true := by
  simp only [Decoder.groups, List.pairwise_cons, List.mem_cons, List.not_mem_nil, or_false,
    forall_eq_or_imp, forall_eq, false_implies, implies_true, and_true, List.Pairwise.nil,
    true_and,
    cross_riscv32g_RiscVCInstBase16_riscv32g_RiscVCHints16]

theorem pairs_rv32gv_32 :
    (Decoder.groups .rv32gv_32).Pairwise fun g h => crossOk g h = true := by
  simp only [Decoder.groups, List.pairwise_cons, List.mem_cons, List.not_mem_nil, or_false,
    forall_eq_or_imp, forall_eq, false_implies, implies_true, and_true, List.Pairwise.nil,
    true_and,
    cross_riscv32g_RiscVIInstBase32_riscv32g_RiscVIHints32,
    cross_riscv32g_RiscVIInstBase32_riscv32g_RiscVZifenceiInst32,
    cross_riscv32g_RiscVIInstBase32_riscv32g_RiscVZicsrInst32,
    cross_riscv32g_RiscVIInstBase32_riscv32g_RiscVMInst32,
    cross_riscv32g_RiscVIInstBase32_riscv32g_RiscVAInst32,
    cross_riscv32g_RiscVIInstBase32_riscv32g_RiscVFInst32,
    cross_riscv32g_RiscVIInstBase32_riscv32g_RiscVDInst32,
    cross_riscv32g_RiscVIInstBase32_riscv32g_RiscVPrivInst32,
    cross_riscv32g_RiscVIInstBase32_riscv_vector_RiscVVInst32,
    cross_riscv32g_RiscVIHints32_riscv32g_RiscVZifenceiInst32,
    cross_riscv32g_RiscVIHints32_riscv32g_RiscVZicsrInst32,
    cross_riscv32g_RiscVIHints32_riscv32g_RiscVMInst32,
    cross_riscv32g_RiscVIHints32_riscv32g_RiscVAInst32,
    cross_riscv32g_RiscVIHints32_riscv32g_RiscVFInst32,
    cross_riscv32g_RiscVIHints32_riscv32g_RiscVDInst32,
    cross_riscv32g_RiscVIHints32_riscv32g_RiscVPrivInst32,
    cross_riscv32g_RiscVIHints32_riscv_vector_RiscVVInst32,
    cross_riscv32g_RiscVZifenceiInst32_riscv32g_RiscVZicsrInst32,
    cross_riscv32g_RiscVZifenceiInst32_riscv32g_RiscVMInst32,
    cross_riscv32g_RiscVZifenceiInst32_riscv32g_RiscVAInst32,
    cross_riscv32g_RiscVZifenceiInst32_riscv32g_RiscVFInst32,
    cross_riscv32g_RiscVZifenceiInst32_riscv32g_RiscVDInst32,
    cross_riscv32g_RiscVZifenceiInst32_riscv32g_RiscVPrivInst32,
    cross_riscv32g_RiscVZifenceiInst32_riscv_vector_RiscVVInst32,
    cross_riscv32g_RiscVZicsrInst32_riscv32g_RiscVMInst32,
    cross_riscv32g_RiscVZicsrInst32_riscv32g_RiscVAInst32,
    cross_riscv32g_RiscVZicsrInst32_riscv32g_RiscVFInst32,
    cross_riscv32g_RiscVZicsrInst32_riscv32g_RiscVDInst32,
    cross_riscv32g_RiscVZicsrInst32_riscv32g_RiscVPrivInst32,
    cross_riscv32g_RiscVZicsrInst32_riscv_vector_RiscVVInst32,
    cross_riscv32g_RiscVMInst32_riscv32g_RiscVAInst32,
    cross_riscv32g_RiscVMInst32_riscv32g_RiscVFInst32,
    cross_riscv32g_RiscVMInst32_riscv32g_RiscVDInst32,
    cross_riscv32g_RiscVMInst32_riscv32g_RiscVPrivInst32,
    cross_riscv32g_RiscVMInst32_riscv_vector_RiscVVInst32,
    cross_riscv32g_RiscVAInst32_riscv32g_RiscVFInst32,
    cross_riscv32g_RiscVAInst32_riscv32g_RiscVDInst32,
    cross_riscv32g_RiscVAInst32_riscv32g_RiscVPrivInst32,
    cross_riscv32g_RiscVAInst32_riscv_vector_RiscVVInst32,
    cross_riscv32g_RiscVFInst32_riscv32g_RiscVDInst32,
    cross_riscv32g_RiscVFInst32_riscv32g_RiscVPrivInst32,
    cross_riscv32g_RiscVFInst32_riscv_vector_RiscVVInst32,
    cross_riscv32g_RiscVDInst32_riscv32g_RiscVPrivInst32,
    cross_riscv32g_RiscVDInst32_riscv_vector_RiscVVInst32,
    cross_riscv32g_RiscVPrivInst32_riscv_vector_RiscVVInst32]

theorem pairs_rv32gv_16 :
    (Decoder.groups .rv32gv_16).Pairwise fun g h => crossOk g h = true := by
  simp only [Decoder.groups, List.pairwise_cons, List.mem_cons, List.not_mem_nil, or_false,
    forall_eq_or_imp, forall_eq, false_implies, implies_true, and_true, List.Pairwise.nil,
    true_and,
    cross_riscv32g_RiscVCInstBase16_riscv32g_RiscVCHints16]

theorem pairs_rv32gvzb_32 :
    (Decoder.groups .rv32gvzb_32).Pairwise fun g h => crossOk g h = true := by
  simp only [Decoder.groups, List.pairwise_cons, List.mem_cons, List.not_mem_nil, or_false,
    forall_eq_or_imp, forall_eq, false_implies, implies_true, and_true, List.Pairwise.nil,
    true_and,
    cross_riscv32g_RiscVIInstBase32_riscv32g_RiscVIHints32,
    cross_riscv32g_RiscVIInstBase32_riscv32g_RiscVZifenceiInst32,
    cross_riscv32g_RiscVIInstBase32_riscv32g_RiscVZicsrInst32,
    cross_riscv32g_RiscVIInstBase32_riscv32g_RiscVMInst32,
    cross_riscv32g_RiscVIInstBase32_riscv32g_RiscVAInst32,
    cross_riscv32g_RiscVIInstBase32_riscv32g_RiscVFInst32,
    cross_riscv32g_RiscVIInstBase32_riscv32g_RiscVDInst32,
    cross_riscv32g_RiscVIInstBase32_riscv32g_RiscVPrivInst32,
    cross_riscv32g_RiscVIInstBase32_riscv_vector_RiscVVInst32,
    cross_riscv32g_RiscVIInstBase32_riscv32zb_RiscVZbaInst32,
    cross_riscv32g_RiscVIInstBase32_riscv32zb_RiscVZbbInst32,
    cross_riscv32g_RiscVIInstBase32_riscv32zb_RiscVZbcInst32,
    cross_riscv32g_RiscVIInstBase32_riscv32zb_RiscVZbsInst32,
    cross_riscv32g_RiscVIHints32_riscv32g_RiscVZifenceiInst32,
    cross_riscv32g_RiscVIHints32_riscv32g_RiscVZicsrInst32,
    cross_riscv32g_RiscVIHints32_riscv32g_RiscVMInst32,
    cross_riscv32g_RiscVIHints32_riscv32g_RiscVAInst32,
    cross_riscv32g_RiscVIHints32_riscv32g_RiscVFInst32,
    cross_riscv32g_RiscVIHints32_riscv32g_RiscVDInst32,
    cross_riscv32g_RiscVIHints32_riscv32g_RiscVPrivInst32,
    cross_riscv32g_RiscVIHints32_riscv_vector_RiscVVInst32,
    cross_riscv32g_RiscVIHints32_riscv32zb_RiscVZbaInst32,
    cross_riscv32g_RiscVIHints32_riscv32zb_RiscVZbbInst32,
    cross_riscv32g_RiscVIHints32_riscv32zb_RiscVZbcInst32,
    cross_riscv32g_RiscVIHints32_riscv32zb_RiscVZbsInst32,
    cross_riscv32g_RiscVZifenceiInst32_riscv32g_RiscVZicsrInst32,
    cross_riscv32g_RiscVZifenceiInst32_riscv32g_RiscVMInst32,
    cross_riscv32g_RiscVZifenceiInst32_riscv32g_RiscVAInst32,
    cross_riscv32g_RiscVZifenceiInst32_riscv32g_RiscVFInst32,
    cross_riscv32g_RiscVZifenceiInst32_riscv32g_RiscVDInst32,
    cross_riscv32g_RiscVZifenceiInst32_riscv32g_RiscVPrivInst32,
    cross_riscv32g_RiscVZifenceiInst32_riscv_vector_RiscVVInst32,
    cross_riscv32g_RiscVZifenceiInst32_riscv32zb_RiscVZbaInst32,
    cross_riscv32g_RiscVZifenceiInst32_riscv32zb_RiscVZbbInst32,
    cross_riscv32g_RiscVZifenceiInst32_riscv32zb_RiscVZbcInst32,
    cross_riscv32g_RiscVZifenceiInst32_riscv32zb_RiscVZbsInst32,
    cross_riscv32g_RiscVZicsrInst32_riscv32g_RiscVMInst32,
    cross_riscv32g_RiscVZicsrInst32_riscv32g_RiscVAInst32,
    cross_riscv32g_RiscVZicsrInst32_riscv32g_RiscVFInst32,
    cross_riscv32g_RiscVZicsrInst32_riscv32g_RiscVDInst32,
    cross_riscv32g_RiscVZicsrInst32_riscv32g_RiscVPrivInst32,
    cross_riscv32g_RiscVZicsrInst32_riscv_vector_RiscVVInst32,
    cross_riscv32g_RiscVZicsrInst32_riscv32zb_RiscVZbaInst32,
    cross_riscv32g_RiscVZicsrInst32_riscv32zb_RiscVZbbInst32,
    cross_riscv32g_RiscVZicsrInst32_riscv32zb_RiscVZbcInst32,
    cross_riscv32g_RiscVZicsrInst32_riscv32zb_RiscVZbsInst32,
    cross_riscv32g_RiscVMInst32_riscv32g_RiscVAInst32,
    cross_riscv32g_RiscVMInst32_riscv32g_RiscVFInst32,
    cross_riscv32g_RiscVMInst32_riscv32g_RiscVDInst32,
    cross_riscv32g_RiscVMInst32_riscv32g_RiscVPrivInst32,
    cross_riscv32g_RiscVMInst32_riscv_vector_RiscVVInst32,
    cross_riscv32g_RiscVMInst32_riscv32zb_RiscVZbaInst32,
    cross_riscv32g_RiscVMInst32_riscv32zb_RiscVZbbInst32,
    cross_riscv32g_RiscVMInst32_riscv32zb_RiscVZbcInst32,
    cross_riscv32g_RiscVMInst32_riscv32zb_RiscVZbsInst32,
    cross_riscv32g_RiscVAInst32_riscv32g_RiscVFInst32,
    cross_riscv32g_RiscVAInst32_riscv32g_RiscVDInst32,
    cross_riscv32g_RiscVAInst32_riscv32g_RiscVPrivInst32,
    cross_riscv32g_RiscVAInst32_riscv_vector_RiscVVInst32,
    cross_riscv32g_RiscVAInst32_riscv32zb_RiscVZbaInst32,
    cross_riscv32g_RiscVAInst32_riscv32zb_RiscVZbbInst32,
    cross_riscv32g_RiscVAInst32_riscv32zb_RiscVZbcInst32,
    cross_riscv32g_RiscVAInst32_riscv32zb_RiscVZbsInst32,
    cross_riscv32g_RiscVFInst32_riscv32g_RiscVDInst32,
    cross_riscv32g_RiscVFInst32_riscv32g_RiscVPrivInst32,
    cross_riscv32g_RiscVFInst32_riscv_vector_RiscVVInst32,
    cross_riscv32g_RiscVFInst32_riscv32zb_RiscVZbaInst32,
    cross_riscv32g_RiscVFInst32_riscv32zb_RiscVZbbInst32,
    cross_riscv32g_RiscVFInst32_riscv32zb_RiscVZbcInst32,
    cross_riscv32g_RiscVFInst32_riscv32zb_RiscVZbsInst32,
    cross_riscv32g_RiscVDInst32_riscv32g_RiscVPrivInst32,
    cross_riscv32g_RiscVDInst32_riscv_vector_RiscVVInst32,
    cross_riscv32g_RiscVDInst32_riscv32zb_RiscVZbaInst32,
    cross_riscv32g_RiscVDInst32_riscv32zb_RiscVZbbInst32,
    cross_riscv32g_RiscVDInst32_riscv32zb_RiscVZbcInst32,
    cross_riscv32g_RiscVDInst32_riscv32zb_RiscVZbsInst32,
    cross_riscv32g_RiscVPrivInst32_riscv_vector_RiscVVInst32,
    cross_riscv32g_RiscVPrivInst32_riscv32zb_RiscVZbaInst32,
    cross_riscv32g_RiscVPrivInst32_riscv32zb_RiscVZbbInst32,
    cross_riscv32g_RiscVPrivInst32_riscv32zb_RiscVZbcInst32,
    cross_riscv32g_RiscVPrivInst32_riscv32zb_RiscVZbsInst32,
    cross_riscv_vector_RiscVVInst32_riscv32zb_RiscVZbaInst32,
    cross_riscv_vector_RiscVVInst32_riscv32zb_RiscVZbbInst32,
    cross_riscv_vector_RiscVVInst32_riscv32zb_RiscVZbcInst32,
    cross_riscv_vector_RiscVVInst32_riscv32zb_RiscVZbsInst32,
    cross_riscv32zb_RiscVZbaInst32_riscv32zb_RiscVZbbInst32,
    cross_riscv32zb_RiscVZbaInst32_riscv32zb_RiscVZbcInst32,
    cross_riscv32zb_RiscVZbaInst32_riscv32zb_RiscVZbsInst32,
    cross_riscv32zb_RiscVZbbInst32_riscv32zb_RiscVZbcInst32,
    cross_riscv32zb_RiscVZbbInst32_riscv32zb_RiscVZbsInst32,
    cross_riscv32zb_RiscVZbcInst32_riscv32zb_RiscVZbsInst32]

theorem pairs_rv32gvzb_16 :
    (Decoder.groups .rv32gvzb_16).Pairwise fun g h => crossOk g h = true := by
  simp only [Decoder.groups, List.pairwise_cons, List.mem_cons, List.not_mem_nil, or_false,
    forall_eq_or_imp, forall_eq, false_implies, implies_true, and_true, List.Pairwise.nil,
    true_and,
    cross_riscv32g_RiscVCInstBase16_riscv32g_RiscVCHints16]

theorem pairs_rv64g_32 :
    (Decoder.groups .rv64g_32).Pairwise fun g h => crossOk g h = true := by
  simp only [Decoder.groups, List.pairwise_cons, List.mem_cons, List.not_mem_nil, or_false,
    forall_eq_or_imp, forall_eq, false_implies, implies_true, and_true, List.Pairwise.nil,
    true_and,
    cross_riscv64g_RiscVGInstBase32_riscv64g_RiscVGHints32]

theorem pairs_rv64g_16 :
    (Decoder.groups .rv64g_16).Pairwise fun g h => crossOk g h = true := by
  simp only [Decoder.groups, List.pairwise_cons, List.mem_cons, List.not_mem_nil, or_false,
    forall_eq_or_imp, forall_eq, false_implies, implies_true, and_true, List.Pairwise.nil,
    true_and,
    cross_riscv64g_RiscVCInstBase16_riscv64g_RiscVCHints16]

theorem pairs_rv64gzb_32 :
    (Decoder.groups .rv64gzb_32).Pairwise fun g h => crossOk g h = true := by
  simp only [Decoder.groups, List.pairwise_cons, List.mem_cons, List.not_mem_nil, or_false,
    forall_eq_or_imp, forall_eq, false_implies, implies_true, and_true, List.Pairwise.nil,
    true_and,
    cross_riscv64g_RiscVGInstBase32_riscv64g_RiscVGHints32,
    cross_riscv64g_RiscVGInstBase32_riscv32zb_RiscVZbaInst32,
    cross_riscv64g_RiscVGInstBase32_riscv64zb_RiscVZbaInst64,
    cross_riscv64g_RiscVGInstBase32_riscv32zb_RiscVZbbInst32,
    cross_riscv64g_RiscVGInstBase32_riscv64zb_RiscVZbbInst64,
    cross_riscv64g_RiscVGInstBase32_riscv32zb_RiscVZbcInst32,
    cross_riscv64g_RiscVGInstBase32_riscv32zb_RiscVZbsInst32,
    cross_riscv64g_RiscVGInstBase32_riscv64zb_RiscVZbsImmInst64,
    cross_riscv64g_RiscVGHints32_riscv32zb_RiscVZbaInst32,
    cross_riscv64g_RiscVGHints32_riscv64zb_RiscVZbaInst64,
    cross_riscv64g_RiscVGHints32_riscv32zb_RiscVZbbInst32,
    cross_riscv64g_RiscVGHints32_riscv64zb_RiscVZbbInst64,
    cross_riscv64g_RiscVGHints32_riscv32zb_RiscVZbcInst32,
    cross_riscv64g_RiscVGHints32_riscv32zb_RiscVZbsInst32,
    cross_riscv64g_RiscVGHints32_riscv64zb_RiscVZbsImmInst64,
    cross_riscv32zb_RiscVZbaInst32_riscv64zb_RiscVZbaInst64,
    cross_riscv32zb_RiscVZbaInst32_riscv32zb_RiscVZbbInst32,
    cross_riscv32zb_RiscVZbaInst32_riscv64zb_RiscVZbbInst64,
    cross_riscv32zb_RiscVZbaInst32_riscv32zb_RiscVZbcInst32,
    cross_riscv32zb_RiscVZbaInst32_riscv32zb_RiscVZbsInst32,
    cross_riscv32zb_RiscVZbaInst32_riscv64zb_RiscVZbsImmInst64,
    cross_riscv64zb_RiscVZbaInst64_riscv32zb_RiscVZbbInst32,
    cross_riscv64zb_RiscVZbaInst64_riscv64zb_RiscVZbbInst64,
    cross_riscv64zb_RiscVZbaInst64_riscv32zb_RiscVZbcInst32,
    cross_riscv64zb_RiscVZbaInst64_riscv32zb_RiscVZbsInst32,
    cross_riscv64zb_RiscVZbaInst64_riscv64zb_RiscVZbsImmInst64,
    cross_riscv32zb_RiscVZbbInst32_riscv64zb_RiscVZbbInst64,
    cross_riscv32zb_RiscVZbbInst32_riscv32zb_RiscVZbcInst32,
    cross_riscv32zb_RiscVZbbInst32_riscv32zb_RiscVZbsInst32,
    cross_riscv32zb_RiscVZbbInst32_riscv64zb_RiscVZbsImmInst64,
    cross_riscv64zb_RiscVZbbInst64_riscv32zb_RiscVZbcInst32,
    cross_riscv64zb_RiscVZbbInst64_riscv32zb_RiscVZbsInst32,
    cross_riscv64zb_RiscVZbbInst64_riscv64zb_RiscVZbsImmInst64,
    cross_riscv32zb_RiscVZbcInst32_riscv32zb_RiscVZbsInst32,
    cross_riscv32zb_RiscVZbcInst32_riscv64zb_RiscVZbsImmInst64,
    cross_riscv32zb_RiscVZbsInst32_riscv64zb_RiscVZbsImmInst64]

theorem pairs_rv64gzb_16 :
    (Decoder.groups .rv64gzb_16).Pairwise fun g h => crossOk g h = true := by
  simp only [Decoder.groups, List.pairwise_cons, List.mem_cons, List.not_mem_nil, or_false,
    forall_eq_or_imp, forall_eq, false_implies, implies_true, and_true, List.Pairwise.nil,
    true_and,
    cross_riscv64g_RiscVCInstBase16_riscv64g_RiscVCHints16]

theorem pairs_rv64gv_32 :
    (Decoder.groups .rv64gv_32).Pairwise fun g h => crossOk g h = true := by
  simp only [Decoder.groups, List.pairwise_cons, List.mem_cons, List.not_mem_nil, or_false,
    forall_eq_or_imp, forall_eq, false_implies, implies_true, and_true, List.Pairwise.nil,
    true_and,
    cross_riscv64g_RiscVGInstBase32_riscv64g_RiscVGHints32,
    cross_riscv64g_RiscVGInstBase32_riscv_vector_RiscVVInst32,
    cross_riscv64g_RiscVGHints32_riscv_vector_RiscVVInst32]

theorem pairs_rv64gv_16 :
    (Decoder.groups .rv64gv_16).Pairwise fun g h => crossOk g h = true := by
  simp only [Decoder.groups, List.pairwise_cons, List.mem_cons, List.not_mem_nil, or_false,
    forall_eq_or_imp, forall_eq, false_implies, implies_true, and_true, List.Pairwise.nil,
    true_and,
    cross_riscv64g_RiscVCInstBase16_riscv64g_RiscVCHints16]

theorem pairs_rv64gvzb_32 :
    (Decoder.groups .rv64gvzb_32).Pairwise fun g h => crossOk g h = true := by
  simp only [Decoder.groups, List.pairwise_cons, List.mem_cons, List.not_mem_nil, or_false,
    forall_eq_or_imp, forall_eq, false_implies, implies_true, and_true, List.Pairwise.nil,
    true_and,
    cross_riscv64g_RiscVGInstBase32_riscv64g_RiscVGHints32,
    cross_riscv64g_RiscVGInstBase32_riscv_vector_RiscVVInst32,
    cross_riscv64g_RiscVGInstBase32_riscv32zb_RiscVZbaInst32,
    cross_riscv64g_RiscVGInstBase32_riscv64zb_RiscVZbaInst64,
    cross_riscv64g_RiscVGInstBase32_riscv32zb_RiscVZbbInst32,
    cross_riscv64g_RiscVGInstBase32_riscv64zb_RiscVZbbInst64,
    cross_riscv64g_RiscVGInstBase32_riscv32zb_RiscVZbcInst32,
    cross_riscv64g_RiscVGInstBase32_riscv32zb_RiscVZbsInst32,
    cross_riscv64g_RiscVGInstBase32_riscv64zb_RiscVZbsImmInst64,
    cross_riscv64g_RiscVGHints32_riscv_vector_RiscVVInst32,
    cross_riscv64g_RiscVGHints32_riscv32zb_RiscVZbaInst32,
    cross_riscv64g_RiscVGHints32_riscv64zb_RiscVZbaInst64,
    cross_riscv64g_RiscVGHints32_riscv32zb_RiscVZbbInst32,
    cross_riscv64g_RiscVGHints32_riscv64zb_RiscVZbbInst64,
    cross_riscv64g_RiscVGHints32_riscv32zb_RiscVZbcInst32,
    cross_riscv64g_RiscVGHints32_riscv32zb_RiscVZbsInst32,
    cross_riscv64g_RiscVGHints32_riscv64zb_RiscVZbsImmInst64,
    cross_riscv_vector_RiscVVInst32_riscv32zb_RiscVZbaInst32,
    cross_riscv_vector_RiscVVInst32_riscv64zb_RiscVZbaInst64,
    cross_riscv_vector_RiscVVInst32_riscv32zb_RiscVZbbInst32,
    cross_riscv_vector_RiscVVInst32_riscv64zb_RiscVZbbInst64,
    cross_riscv_vector_RiscVVInst32_riscv32zb_RiscVZbcInst32,
    cross_riscv_vector_RiscVVInst32_riscv32zb_RiscVZbsInst32,
    cross_riscv_vector_RiscVVInst32_riscv64zb_RiscVZbsImmInst64,
    cross_riscv32zb_RiscVZbaInst32_riscv64zb_RiscVZbaInst64,
    cross_riscv32zb_RiscVZbaInst32_riscv32zb_RiscVZbbInst32,
    cross_riscv32zb_RiscVZbaInst32_riscv64zb_RiscVZbbInst64,
    cross_riscv32zb_RiscVZbaInst32_riscv32zb_RiscVZbcInst32,
    cross_riscv32zb_RiscVZbaInst32_riscv32zb_RiscVZbsInst32,
    cross_riscv32zb_RiscVZbaInst32_riscv64zb_RiscVZbsImmInst64,
    cross_riscv64zb_RiscVZbaInst64_riscv32zb_RiscVZbbInst32,
    cross_riscv64zb_RiscVZbaInst64_riscv64zb_RiscVZbbInst64,
    cross_riscv64zb_RiscVZbaInst64_riscv32zb_RiscVZbcInst32,
    cross_riscv64zb_RiscVZbaInst64_riscv32zb_RiscVZbsInst32,
    cross_riscv64zb_RiscVZbaInst64_riscv64zb_RiscVZbsImmInst64,
    cross_riscv32zb_RiscVZbbInst32_riscv64zb_RiscVZbbInst64,
    cross_riscv32zb_RiscVZbbInst32_riscv32zb_RiscVZbcInst32,
    cross_riscv32zb_RiscVZbbInst32_riscv32zb_RiscVZbsInst32,
    cross_riscv32zb_RiscVZbbInst32_riscv64zb_RiscVZbsImmInst64,
    cross_riscv64zb_RiscVZbbInst64_riscv32zb_RiscVZbcInst32,
    cross_riscv64zb_RiscVZbbInst64_riscv32zb_RiscVZbsInst32,
    cross_riscv64zb_RiscVZbbInst64_riscv64zb_RiscVZbsImmInst64,
    cross_riscv32zb_RiscVZbcInst32_riscv32zb_RiscVZbsInst32,
    cross_riscv32zb_RiscVZbcInst32_riscv64zb_RiscVZbsImmInst64,
    cross_riscv32zb_RiscVZbsInst32_riscv64zb_RiscVZbsImmInst64]

theorem pairs_rv64gvzb_16 :
    (Decoder.groups .rv64gvzb_16).Pairwise fun g h => crossOk g h = true := by
  simp only [Decoder.groups, List.pairwise_cons, List.mem_cons, List.not_mem_nil, or_false,
    forall_eq_or_imp, forall_eq, false_implies, implies_true, and_true, List.Pairwise.nil,
    true_and,
    cross_riscv64g_RiscVCInstBase16_riscv64g_RiscVCHints16]

theorem pairs_zfh32_32 :
    (Decoder.groups .zfh32_32).Pairwise fun g h => crossOk g h = true := by
  simp only [Decoder.groups, List.pairwise_cons, List.mem_cons, List.not_mem_nil, or_false,
    forall_eq_or_imp, forall_eq, false_implies, implies_true, and_true, List.Pairwise.nil,
    true_and]

theorem pairs_zfh64_32 :
    (Decoder.groups .zfh64_32).Pairwise fun g h => crossOk g h = true := by
  simp only [Decoder.groups, List.pairwise_cons, List.mem_cons, List.not_mem_nil, or_false,
    forall_eq_or_imp, forall_eq, false_implies, implies_true, and_true, List.Pairwise.nil,
    true_and]

theorem pairs_zvbb_32 :
    (Decoder.groups .zvbb_32).Pairwise fun g h => crossOk g h = true := by
  simp only [Decoder.groups, List.pairwise_cons, List.mem_cons, List.not_mem_nil, or_false,
    forall_eq_or_imp, forall_eq, false_implies, implies_true, and_true, List.Pairwise.nil,
    true_and,
    cross_riscv_zvbb_RiscVZvkbInst32_riscv_zvbb_RiscVBasicBitInst32]

theorem pairs_rvm23_32 :
    (Decoder.groups .rvm23_32).Pairwise fun g h => crossOk g h = true := by
  simp only [Decoder.groups, List.pairwise_cons, List.mem_cons, List.not_mem_nil, or_false,
    forall_eq_or_imp, forall_eq, false_implies, implies_true, and_true, List.Pairwise.nil,
    true_and,
    cross_riscv32g_RiscVIInstBase32_riscv32g_RiscVIHints32,
    cross_riscv32g_RiscVIInstBase32_riscv32g_RiscVZifenceiInst32,
    cross_riscv32g_RiscVIInstBase32_riscv32g_RiscVZicsrInst32,
    cross_riscv32g_RiscVIInstBase32_riscv32g_RiscVMInst32,
    cross_riscv32g_RiscVIInstBase32_riscv32g_RiscVAInst32,
    cross_riscv32g_RiscVIInstBase32_riscv32g_RiscVFInst32,
    cross_riscv32g_RiscVIInstBase32_riscv32g_RiscVDInst32,
    cross_riscv32g_RiscVIInstBase32_riscv32g_RiscVPrivInst32,
    cross_riscv32g_RiscVIInstBase32_riscv32zb_RiscVZbaInst32,
    cross_riscv32g_RiscVIInstBase32_riscv32zb_RiscVZbbInst32,
    cross_riscv32g_RiscVIInstBase32_riscv32zb_RiscVZbcInst32,
    cross_riscv32g_RiscVIInstBase32_riscv32zb_RiscVZbsInst32,
    cross_riscv32g_RiscVIInstBase32_riscv_zicond_RiscVZicond,
    cross_riscv32g_RiscVIInstBase32_riscv_zimop_RiscVZimop,
    cross_riscv32g_RiscVIInstBase32_riscv_zhintpause_RiscVZhintpause,
    cross_riscv32g_RiscVIInstBase32_riscv_zihintntl_RiscVZihintntl,
    cross_riscv32g_RiscVIInstBase32_riscv_zicbop_RiscVZicbop,
    cross_riscv32g_RiscVIHints32_riscv32g_RiscVZifenceiInst32,
    cross_riscv32g_RiscVIHints32_riscv32g_RiscVZicsrInst32,
    cross_riscv32g_RiscVIHints32_riscv32g_RiscVMInst32,
    cross_riscv32g_RiscVIHints32_riscv32g_RiscVAInst32,
    cross_riscv32g_RiscVIHints32_riscv32g_RiscVFInst32,
    cross_riscv32g_RiscVIHints32_riscv32g_RiscVDInst32,
    cross_riscv32g_RiscVIHints32_riscv32g_RiscVPrivInst32,
    cross_riscv32g_RiscVIHints32_riscv32zb_RiscVZbaInst32,
    cross_riscv32g_RiscVIHints32_riscv32zb_RiscVZbbInst32,
    cross_riscv32g_RiscVIHints32_riscv32zb_RiscVZbcInst32,
    cross_riscv32g_RiscVIHints32_riscv32zb_RiscVZbsInst32,
    cross_riscv32g_RiscVIHints32_riscv_zicond_RiscVZicond,
    cross_riscv32g_RiscVIHints32_riscv_zimop_RiscVZimop,
    cross_riscv32g_RiscVIHints32_riscv_zhintpause_RiscVZhintpause,
    cross_riscv32g_RiscVIHints32_riscv_zihintntl_RiscVZihintntl,
    cross_riscv32g_RiscVIHints32_riscv_zicbop_RiscVZicbop,
    cross_riscv32g_RiscVZifenceiInst32_riscv32g_RiscVZicsrInst32,
    cross_riscv32g_RiscVZifenceiInst32_riscv32g_RiscVMInst32,
    cross_riscv32g_RiscVZifenceiInst32_riscv32g_RiscVAInst32,
    cross_riscv32g_RiscVZifenceiInst32_riscv32g_RiscVFInst32,
    cross_riscv32g_RiscVZifenceiInst32_riscv32g_RiscVDInst32,
    cross_riscv32g_RiscVZifenceiInst32_riscv32g_RiscVPrivInst32,
    cross_riscv32g_RiscVZifenceiInst32_riscv32zb_RiscVZbaInst32,
    cross_riscv32g_RiscVZifenceiInst32_riscv32zb_RiscVZbbInst32,
    cross_riscv32g_RiscVZifenceiInst32_riscv32zb_RiscVZbcInst32,
    cross_riscv32g_RiscVZifenceiInst32_riscv32zb_RiscVZbsInst32,
    cross_riscv32g_RiscVZifenceiInst32_riscv_zicond_RiscVZicond,
    cross_riscv32g_RiscVZifenceiInst32_riscv_zimop_RiscVZimop,
    cross_riscv32g_RiscVZifenceiInst32_riscv_zhintpause_RiscVZhintpause,
    cross_riscv32g_RiscVZifenceiInst32_riscv_zihintntl_RiscVZihintntl,
    cross_riscv32g_RiscVZifenceiInst32_riscv_zicbop_RiscVZicbop,
    cross_riscv32g_RiscVZicsrInst32_riscv32g_RiscVMInst32,
    cross_riscv32g_RiscVZicsrInst32_riscv32g_RiscVAInst32,
    cross_riscv32g_RiscVZicsrInst32_riscv32g_RiscVFInst32,
    cross_riscv32g_RiscVZicsrInst32_riscv32g_RiscVDInst32,
    cross_riscv32g_RiscVZicsrInst32_riscv32g_RiscVPrivInst32,
    cross_riscv32g_RiscVZicsrInst32_riscv32zb_RiscVZbaInst32,
    cross_riscv32g_RiscVZicsrInst32_riscv32zb_RiscVZbbInst32,
    cross_riscv32g_RiscVZicsrInst32_riscv32zb_RiscVZbcInst32,
    cross_riscv32g_RiscVZicsrInst32_riscv32zb_RiscVZbsInst32,
    cross_riscv32g_RiscVZicsrInst32_riscv_zicond_RiscVZicond,
    cross_riscv32g_RiscVZicsrInst32_riscv_zimop_RiscVZimop,
    cross_riscv32g_RiscVZicsrInst32_riscv_zhintpause_RiscVZhintpause,
    cross_riscv32g_RiscVZicsrInst32_riscv_zihintntl_RiscVZihintntl,
    cross_riscv32g_RiscVZicsrInst32_riscv_zicbop_RiscVZicbop,
    cross_riscv32g_RiscVMInst32_riscv32g_RiscVAInst32,
    cross_riscv32g_RiscVMInst32_riscv32g_RiscVFInst32,
    cross_riscv32g_RiscVMInst32_riscv32g_RiscVDInst32,
    cross_riscv32g_RiscVMInst32_riscv32g_RiscVPrivInst32,
    cross_riscv32g_RiscVMInst32_riscv32zb_RiscVZbaInst32,
    cross_riscv32g_RiscVMInst32_riscv32zb_RiscVZbbInst32,
    cross_riscv32g_RiscVMInst32_riscv32zb_RiscVZbcInst32,
    cross_riscv32g_RiscVMInst32_riscv32zb_RiscVZbsInst32,
    cross_riscv32g_RiscVMInst32_riscv_zicond_RiscVZicond,
    cross_riscv32g_RiscVMInst32_riscv_zimop_RiscVZimop,
    cross_riscv32g_RiscVMInst32_riscv_zhintpause_RiscVZhintpause,
    cross_riscv32g_RiscVMInst32_riscv_zihintntl_RiscVZihintntl,
    cross_riscv32g_RiscVMInst32_riscv_zicbop_RiscVZicbop,
    cross_riscv32g_RiscVAInst32_riscv32g_RiscVFInst32,
    cross_riscv32g_RiscVAInst32_riscv32g_RiscVDInst32,
    cross_riscv32g_RiscVAInst32_riscv32g_RiscVPrivInst32,
    cross_riscv32g_RiscVAInst32_riscv32zb_RiscVZbaInst32,
    cross_riscv32g_RiscVAInst32_riscv32zb_RiscVZbbInst32,
    cross_riscv32g_RiscVAInst32_riscv32zb_RiscVZbcInst32,
    cross_riscv32g_RiscVAInst32_riscv32zb_RiscVZbsInst32,
    cross_riscv32g_RiscVAInst32_riscv_zicond_RiscVZicond,
    cross_riscv32g_RiscVAInst32_riscv_zimop_RiscVZimop,
    cross_riscv32g_RiscVAInst32_riscv_zhintpause_RiscVZhintpause,
    cross_riscv32g_RiscVAInst32_riscv_zihintntl_RiscVZihintntl,
    cross_riscv32g_RiscVAInst32_riscv_zicbop_RiscVZicbop,
    cross_riscv32g_RiscVFInst32_riscv32g_RiscVDInst32,
    cross_riscv32g_RiscVFInst32_riscv32g_RiscVPrivInst32,
    cross_riscv32g_RiscVFInst32_riscv32zb_RiscVZbaInst32,
    cross_riscv32g_RiscVFInst32_riscv32zb_RiscVZbbInst32,
    cross_riscv32g_RiscVFInst32_riscv32zb_RiscVZbcInst32,
    cross_riscv32g_RiscVFInst32_riscv32zb_RiscVZbsInst32,
    cross_riscv32g_RiscVFInst32_riscv_zicond_RiscVZicond,
    cross_riscv32g_RiscVFInst32_riscv_zimop_RiscVZimop,
    cross_riscv32g_RiscVFInst32_riscv_zhintpause_RiscVZhintpause,
    cross_riscv32g_RiscVFInst32_riscv_zihintntl_RiscVZihintntl,
    cross_riscv32g_RiscVFInst32_riscv_zicbop_RiscVZicbop,
    cross_riscv32g_RiscVDInst32_riscv32g_RiscVPrivInst32,
    cross_riscv32g_RiscVDInst32_riscv32zb_RiscVZbaInst32,
    cross_riscv32g_RiscVDInst32_riscv32zb_RiscVZbbInst32,
    cross_riscv32g_RiscVDInst32_riscv32zb_RiscVZbcInst32,
    cross_riscv32g_RiscVDInst32_riscv32zb_RiscVZbsInst32,
    cross_riscv32g_RiscVDInst32_riscv_zicond_RiscVZicond,
    cross_riscv32g_RiscVDInst32_riscv_zimop_RiscVZimop,
    cross_riscv32g_RiscVDInst32_riscv_zhintpause_RiscVZhintpause,
    cross_riscv32g_RiscVDInst32_riscv_zihintntl_RiscVZihintntl,
    cross_riscv32g_RiscVDInst32_riscv_zicbop_RiscVZicbop,
    cross_riscv32g_RiscVPrivInst32_riscv32zb_RiscVZbaInst32,
    cross_riscv32g_RiscVPrivInst32_riscv32zb_RiscVZbbInst32,
    cross_riscv32g_RiscVPrivInst32_riscv32zb_RiscVZbcInst32,
    cross_riscv32g_RiscVPrivInst32_riscv32zb_RiscVZbsInst32,
    cross_riscv32g_RiscVPrivInst32_riscv_zicond_RiscVZicond,
    cross_riscv32g_RiscVPrivInst32_riscv_zimop_RiscVZimop,
    cross_riscv32g_RiscVPrivInst32_riscv_zhintpause_RiscVZhintpause,
    cross_riscv32g_RiscVPrivInst32_riscv_zihintntl_RiscVZihintntl,
    cross_riscv32g_RiscVPrivInst32_riscv_zicbop_RiscVZicbop,
    cross_riscv32zb_RiscVZbaInst32_riscv32zb_RiscVZbbInst32,
    cross_riscv32zb_RiscVZbaInst32_riscv32zb_RiscVZbcInst32,
    cross_riscv32zb_RiscVZbaInst32_riscv32zb_RiscVZbsInst32,
    cross_riscv32zb_RiscVZbaInst32_riscv_zicond_RiscVZicond,
    cross_riscv32zb_RiscVZbaInst32_riscv_zimop_RiscVZimop,
    cross_riscv32zb_RiscVZbaInst32_riscv_zhintpause_RiscVZhintpause,
    cross_riscv32zb_RiscVZbaInst32_riscv_zihintntl_RiscVZihintntl,
    cross_riscv32zb_RiscVZbaInst32_riscv_zicbop_RiscVZicbop,
    cross_riscv32zb_RiscVZbbInst32_riscv32zb_RiscVZbcInst32,
    cross_riscv32zb_RiscVZbbInst32_riscv32zb_RiscVZbsInst32,
    cross_riscv32zb_RiscVZbbInst32_riscv_zicond_RiscVZicond,
    cross_riscv32zb_RiscVZbbInst32_riscv_zimop_RiscVZimop,
    cross_riscv32zb_RiscVZbbInst32_riscv_zhintpause_RiscVZhintpause,
    cross_riscv32zb_RiscVZbbInst32_riscv_zihintntl_RiscVZihintntl,
    cross_riscv32zb_RiscVZbbInst32_riscv_zicbop_RiscVZicbop,
    cross_riscv32zb_RiscVZbcInst32_riscv32zb_RiscVZbsInst32,
    cross_riscv32zb_RiscVZbcInst32_riscv_zicond_RiscVZicond,
    cross_riscv32zb_RiscVZbcInst32_riscv_zimop_RiscVZimop,
    cross_riscv32zb_RiscVZbcInst32_riscv_zhintpause_RiscVZhintpause,
    cross_riscv32zb_RiscVZbcInst32_riscv_zihintntl_RiscVZihintntl,
    cross_riscv32zb_RiscVZbcInst32_riscv_zicbop_RiscVZicbop,
    cross_riscv32zb_RiscVZbsInst32_riscv_zicond_RiscVZicond,
    cross_riscv32zb_RiscVZbsInst32_riscv_zimop_RiscVZimop,
    cross_riscv32zb_RiscVZbsInst32_riscv_zhintpause_RiscVZhintpause,
    cross_riscv32zb_RiscVZbsInst32_riscv_zihintntl_RiscVZihintntl,
    cross_riscv32zb_RiscVZbsInst32_riscv_zicbop_RiscVZicbop,
    cross_riscv_zicond_RiscVZicond_riscv_zimop_RiscVZimop,
    cross_riscv_zicond_RiscVZicond_riscv_zhintpause_RiscVZhintpause,
    cross_riscv_zicond_RiscVZicond_riscv_zihintntl_RiscVZihintntl,
    cross_riscv_zicond_RiscVZicond_riscv_zicbop_RiscVZicbop,
    cross_riscv_zimop_RiscVZimop_riscv_zhintpause_RiscVZhintpause,
    cross_riscv_zimop_RiscVZimop_riscv_zihintntl_RiscVZihintntl,
    cross_riscv_zimop_RiscVZimop_riscv_zicbop_RiscVZicbop,
    cross_riscv_zhintpause_RiscVZhintpause_riscv_zihintntl_RiscVZihintntl,
    cross_riscv_zhintpause_RiscVZhintpause_riscv_zicbop_RiscVZicbop,
    cross_riscv_zihintntl_RiscVZihintntl_riscv_zicbop_RiscVZicbop]

theorem pairs_rvm23_16 :
    (Decoder.groups .rvm23_16).Pairwise fun g h => crossOk g h = true := by
  simp only [Decoder.groups, List.pairwise_cons, List.mem_cons, List.not_mem_nil, or_false,
    forall_eq_or_imp, forall_eq, false_implies, implies_true, and_true, List.Pairwise.nil,
    true_and,
    cross_riscv_zimop_RiscVZcmop_riscv_zihintntl_RiscVCZihintntl,
    cross_riscv_zimop_RiscVZcmop_riscv_zc_RiscVCZca,
    cross_riscv_zimop_RiscVZcmop_riscv_zc_RiscVCZcf,
    cross_riscv_zimop_RiscVZcmop_riscv_zc_RiscVCZcb32,
    cross_riscv_zimop_RiscVZcmop_riscv_zc_RiscVCZcmp,
    cross_riscv_zimop_RiscVZcmop_riscv_zc_RiscVCZcmt,
    cross_riscv_zihintntl_RiscVCZihintntl_riscv_zc_RiscVCZca,
    cross_riscv_zihintntl_RiscVCZihintntl_riscv_zc_RiscVCZcf,
    cross_riscv_zihintntl_RiscVCZihintntl_riscv_zc_RiscVCZcb32,
    cross_riscv_zihintntl_RiscVCZihintntl_riscv_zc_RiscVCZcmp,
    cross_riscv_zihintntl_RiscVCZihintntl_riscv_zc_RiscVCZcmt,
    cross_riscv_zc_RiscVCZca_riscv_zc_RiscVCZcf,
    cross_riscv_zc_RiscVCZca_riscv_zc_RiscVCZcb32,
    cross_riscv_zc_RiscVCZca_riscv_zc_RiscVCZcmp,
    cross_riscv_zc_RiscVCZca_riscv_zc_RiscVCZcmt,
    cross_riscv_zc_RiscVCZcf_riscv_zc_RiscVCZcb32,
    cross_riscv_zc_RiscVCZcf_riscv_zc_RiscVCZcmp,
    cross_riscv_zc_RiscVCZcf_riscv_zc_RiscVCZcmt,
    cross_riscv_zc_RiscVCZcb32_riscv_zc_RiscVCZcmp,
    cross_riscv_zc_RiscVCZcb32_riscv_zc_RiscVCZcmt,
    cross_riscv_zc_RiscVCZcmp_riscv_zc_RiscVCZcmt]

theorem pairs_all (d : Decoder) :
    d.groups.Pairwise fun g h => crossOk g h = true := by
  cases d
  · exact pairs_rv32g_32
  · exact pairs_rv32g_16
  · exact pairs_rv32gzb_32
  · exact pairs_rv32gzb_16
  · exact pairs_rv32gv_32
  · exact pairs_rv32gv_16
  · exact pairs_rv32gvzb_32
  · exact pairs_rv32gvzb_16
  · exact pairs_rv64g_32
  · exact pairs_rv64g_16
  · exact pairs_rv64gzb_32
  · exact pairs_rv64gzb_16
  · exact pairs_rv64gv_32
  · exact pairs_rv64gv_16
  · exact pairs_rv64gvzb_32
  · exact pairs_rv64gvzb_16
  · exact pairs_zfh32_32
  · exact pairs_zfh64_32
  · exact pairs_zvbb_32
  · exact pairs_rvm23_32
  · exact pairs_rvm23_16

end Verif.Decode
