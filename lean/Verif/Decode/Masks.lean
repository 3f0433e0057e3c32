import Verif.Decode.Check
import Verif.Decode.Groups

/-!
# Masks of the instruction groups

The fixed bits of every instruction as numbers, computed by
`tools/gen_decode.py` and checked against `Inst.maskVal` by the kernel.
-/

namespace Verif.Decode

/-- Mask and value of each instruction of `RiscVIInstBase32` (riscv32g.bin_fmt:45-88). -/
def m_riscv32g_RiscVIInstBase32 : List (Nat × Nat) :=
  [(0x7f, 0x37), (0x7f, 0x17), (0x7f, 0x6f), (0xfff, 0x6f),
   (0x707f, 0x67), (0x7fff, 0x67), (0x707f, 0x63), (0x707f, 0x1063),
   (0x707f, 0x4063), (0x707f, 0x5063), (0x707f, 0x6063), (0x707f, 0x7063),
   (0x707f, 0x3), (0x707f, 0x1003), (0x707f, 0x2003), (0x707f, 0x4003),
   (0x707f, 0x5003), (0x707f, 0x23), (0x707f, 0x1023), (0x707f, 0x2023),
   (0x707f, 0x13), (0xffffffff, 0x13), (0x707f, 0x2013), (0x707f, 0x3013),
   (0x707f, 0x4013), (0x707f, 0x6013), (0x707f, 0x7013), (0xfe00707f, 0x1013),
   (0xfe00707f, 0x5013), (0xfe00707f, 0x40005013), (0xfe00707f, 0x33), (0xfe00707f, 0x40000033),
   (0xfe00707f, 0x1033), (0xfe00707f, 0x2033), (0xfe00707f, 0x3033), (0xfe00707f, 0x4033),
   (0xfe00707f, 0x5033), (0xfe00707f, 0x40005033), (0xfe00707f, 0x6033), (0xfe00707f, 0x7033),
   (0xf000707f, 0xf), (0xfff0707f, 0x8330000f), (0xffffffff, 0x73), (0xffffffff, 0x100073)]

theorem m_riscv32g_RiscVIInstBase32_eq : g_riscv32g_RiscVIInstBase32.map Inst.maskVal = m_riscv32g_RiscVIInstBase32 := by decide +kernel

/-- Mask and value of each instruction of `RiscVZifenceiInst32` (riscv32g.bin_fmt:93-93). -/
def m_riscv32g_RiscVZifenceiInst32 : List (Nat × Nat) :=
  [(0x707f, 0x100f)]

theorem m_riscv32g_RiscVZifenceiInst32_eq : g_riscv32g_RiscVZifenceiInst32.map Inst.maskVal = m_riscv32g_RiscVZifenceiInst32 := by decide +kernel

/-- Mask and value of each instruction of `RiscVZicsrInst32` (riscv32g.bin_fmt:98-114). -/
def m_riscv32g_RiscVZicsrInst32 : List (Nat × Nat) :=
  [(0x707f, 0x1073), (0x707f, 0x2073), (0x707f, 0x3073), (0x7fff, 0x2073),
   (0x7fff, 0x3073), (0x7fff, 0x1073), (0xff07f, 0x2073), (0xff07f, 0x3073),
   (0x707f, 0x5073), (0x707f, 0x6073), (0x707f, 0x7073), (0x7fff, 0x6073),
   (0x7fff, 0x7073), (0x7fff, 0x5073), (0xff07f, 0x6073), (0xff07f, 0x7073),
   (0xffffffff, 0xc0001073)]

theorem m_riscv32g_RiscVZicsrInst32_eq : g_riscv32g_RiscVZicsrInst32.map Inst.maskVal = m_riscv32g_RiscVZicsrInst32 := by decide +kernel

/-- Mask and value of each instruction of `RiscVMInst32` (riscv32g.bin_fmt:119-126). -/
def m_riscv32g_RiscVMInst32 : List (Nat × Nat) :=
  [(0xfe00707f, 0x2000033), (0xfe00707f, 0x2001033), (0xfe00707f, 0x2002033), (0xfe00707f, 0x2003033),
   (0xfe00707f, 0x2004033), (0xfe00707f, 0x2005033), (0xfe00707f, 0x2006033), (0xfe00707f, 0x2007033)]

theorem m_riscv32g_RiscVMInst32_eq : g_riscv32g_RiscVMInst32.map Inst.maskVal = m_riscv32g_RiscVMInst32 := by decide +kernel

/-- Mask and value of each instruction of `RiscVAInst32` (riscv32g.bin_fmt:131-141). -/
def m_riscv32g_RiscVAInst32 : List (Nat × Nat) :=
  [(0xf9f0707f, 0x1000202f), (0xf800707f, 0x1800202f), (0xf800707f, 0x800202f), (0xf800707f, 0x202f),
   (0xf800707f, 0x2000202f), (0xf800707f, 0x6000202f), (0xf800707f, 0x4000202f), (0xf800707f, 0x8000202f),
   (0xf800707f, 0xa000202f), (0xf800707f, 0xc000202f), (0xf800707f, 0xe000202f)]

theorem m_riscv32g_RiscVAInst32_eq : g_riscv32g_RiscVAInst32.map Inst.maskVal = m_riscv32g_RiscVAInst32 := by decide +kernel

/-- Mask and value of each instruction of `RiscVFInst32` (riscv32g.bin_fmt:146-171). -/
def m_riscv32g_RiscVFInst32 : List (Nat × Nat) :=
  [(0x707f, 0x2007), (0x707f, 0x2027), (0x600007f, 0x43), (0x600007f, 0x47),
   (0x600007f, 0x4b), (0x600007f, 0x4f), (0xfe00007f, 0x53), (0xfe00007f, 0x8000053),
   (0xfe00007f, 0x10000053), (0xfe00007f, 0x18000053), (0xfff0007f, 0x58000053), (0xfe00707f, 0x20000053),
   (0xfe00707f, 0x20001053), (0xfe00707f, 0x20002053), (0xfe00707f, 0x28000053), (0xfe00707f, 0x28001053),
   (0xfff0007f, 0xc0000053), (0xfff0007f, 0xc0100053), (0xfff0707f, 0xe0000053), (0xfe00707f, 0xa0002053),
   (0xfe00707f, 0xa0001053), (0xfe00707f, 0xa0000053), (0xfff0707f, 0xe0001053), (0xfff0007f, 0xd0000053),
   (0xfff0007f, 0xd0100053), (0xfff0707f, 0xf0000053)]

theorem m_riscv32g_RiscVFInst32_eq : g_riscv32g_RiscVFInst32.map Inst.maskVal = m_riscv32g_RiscVFInst32 := by decide +kernel

/-- Mask and value of each instruction of `RiscVDInst32` (riscv32g.bin_fmt:176-201). -/
def m_riscv32g_RiscVDInst32 : List (Nat × Nat) :=
  [(0x707f, 0x3007), (0x707f, 0x3027), (0x600007f, 0x2000043), (0x600007f, 0x2000047),
   (0x600007f, 0x200004b), (0x600007f, 0x200004f), (0xfe00007f, 0x2000053), (0xfe00007f, 0xa000053),
   (0xfe00007f, 0x12000053), (0xfe00007f, 0x1a000053), (0xfff0007f, 0x5a000053), (0xfe00707f, 0x22000053),
   (0xfe00707f, 0x22001053), (0xfe00707f, 0x22002053), (0xfe00707f, 0x2a000053), (0xfe00707f, 0x2a001053),
   (0xfff0007f, 0x40100053), (0xfff0007f, 0x42000053), (0xfe00707f, 0xa2002053), (0xfe00707f, 0xa2001053),
   (0xfe00707f, 0xa2000053), (0xfff0707f, 0xe2001053), (0xfff0007f, 0xc2000053), (0xfff0007f, 0xc2100053),
   (0xfff0007f, 0xd2000053), (0xfff0007f, 0xd2100053)]

theorem m_riscv32g_RiscVDInst32_eq : g_riscv32g_RiscVDInst32.map Inst.maskVal = m_riscv32g_RiscVDInst32 := by decide +kernel

/-- Mask and value of each instruction of `RiscVPrivInst32` (riscv32g.bin_fmt:206-213). -/
def m_riscv32g_RiscVPrivInst32 : List (Nat × Nat) :=
  [(0xffffffff, 0x200073), (0xffffffff, 0x10200073), (0xffffffff, 0x30200073), (0xffffffff, 0x10500073),
   (0xffffffff, 0x12000073), (0xfe0fffff, 0x12000073), (0xfff07fff, 0x12000073), (0xfe007fff, 0x12000073)]

theorem m_riscv32g_RiscVPrivInst32_eq : g_riscv32g_RiscVPrivInst32.map Inst.maskVal = m_riscv32g_RiscVPrivInst32 := by decide +kernel

/-- Mask and value of each instruction of `RiscVIHints32` (riscv32g.bin_fmt:218-252). -/
def m_riscv32g_RiscVIHints32 : List (Nat × Nat) :=
  [(0xfff, 0x37), (0xfff, 0x17), (0x7fff, 0x13), (0x7fff, 0x13),
   (0x7fff, 0x2013), (0x7fff, 0x3013), (0x7fff, 0x4013), (0x7fff, 0x6013),
   (0x7fff, 0x7013), (0xfe007fff, 0x5013), (0xfe007fff, 0x2033), (0xffffffff, 0x1f01013),
   (0xfe007fff, 0x1013), (0xfe007fff, 0x1013), (0xffffffff, 0x40705013), (0xfe007fff, 0x40005013),
   (0xfe007fff, 0x40005013), (0xfe007fff, 0x33), (0xfe0fffff, 0x33), (0xfe0fffff, 0x33),
   (0xfe007fff, 0x40000033), (0xfe007fff, 0x1033), (0xfe007fff, 0x3033), (0xfe007fff, 0x4033),
   (0xfe007fff, 0x5033), (0xfe007fff, 0x40005033), (0xfe007fff, 0x6033), (0xfe007fff, 0x7033),
   (0xff007fff, 0xf), (0xf0f07fff, 0xf), (0xff0ff07f, 0xf), (0xf0fff07f, 0xf),
   (0xff0fffff, 0xf), (0xf0ffffff, 0xf), (0xf0fff07f, 0xf)]

theorem m_riscv32g_RiscVIHints32_eq : g_riscv32g_RiscVIHints32.map Inst.maskVal = m_riscv32g_RiscVIHints32 := by decide +kernel

/-- Mask and value of each instruction of `RiscVCInstBase16` (riscv32g.bin_fmt:259-294). -/
def m_riscv32g_RiscVCInstBase16 : List (Nat × Nat) :=
  [(0xe003, 0x0), (0xe003, 0x2000), (0xe003, 0x4000), (0xe003, 0x6000),
   (0xe003, 0xa000), (0xe003, 0xc000), (0xe003, 0xe000), (0xffff, 0x1),
   (0xe003, 0x1), (0xe003, 0x2001), (0xe003, 0x4001), (0xef83, 0x6101),
   (0xe003, 0x6001), (0xfc03, 0x8001), (0xfc03, 0x8401), (0xec03, 0x8801),
   (0xfc63, 0x8c01), (0xfc63, 0x8c21), (0xfc63, 0x8c41), (0xfc63, 0x8c61),
   (0xe003, 0xa001), (0xe003, 0xc001), (0xe003, 0xe001), (0xf003, 0x2),
   (0xe003, 0x2002), (0xe003, 0x4002), (0xe003, 0x6002), (0xf07f, 0x8002),
   (0xf003, 0x8002), (0xffff, 0x9002), (0xf07f, 0x9002), (0xf003, 0x9002),
   (0xe003, 0xa002), (0xe003, 0xc002), (0xe003, 0xe002), (0xffff, 0x0)]

theorem m_riscv32g_RiscVCInstBase16_eq : g_riscv32g_RiscVCInstBase16.map Inst.maskVal = m_riscv32g_RiscVCInstBase16 := by decide +kernel

/-- Mask and value of each instruction of `RiscVCHints16` (riscv32g.bin_fmt:298-304). -/
def m_riscv32g_RiscVCHints16 : List (Nat × Nat) :=
  [(0xef83, 0x1), (0xf07f, 0x1), (0xef83, 0x4001), (0xef83, 0x6001),
   (0xff83, 0x8002), (0xef83, 0x2), (0xff83, 0x9002)]

theorem m_riscv32g_RiscVCHints16_eq : g_riscv32g_RiscVCHints16.map Inst.maskVal = m_riscv32g_RiscVCHints16 := by decide +kernel

/-- Mask and value of each instruction of `RiscVZbaInst32` (riscv32zb.bin_fmt:16-18). -/
def m_riscv32zb_RiscVZbaInst32 : List (Nat × Nat) :=
  [(0xfe00707f, 0x20002033), (0xfe00707f, 0x20004033), (0xfe00707f, 0x20006033)]

theorem m_riscv32zb_RiscVZbaInst32_eq : g_riscv32zb_RiscVZbaInst32.map Inst.maskVal = m_riscv32zb_RiscVZbaInst32 := by decide +kernel

/-- Mask and value of each instruction of `RiscVZbbInst32` (riscv32zb.bin_fmt:22-37). -/
def m_riscv32zb_RiscVZbbInst32 : List (Nat × Nat) :=
  [(0xfe00707f, 0x40007033), (0xfe00707f, 0x40006033), (0xfe00707f, 0x40004033), (0xfff0707f, 0x60001013),
   (0xfff0707f, 0x60101013), (0xfff0707f, 0x60201013), (0xfe00707f, 0xa006033), (0xfe00707f, 0xa007033),
   (0xfe00707f, 0xa004033), (0xfe00707f, 0xa005033), (0xfff0707f, 0x60401013), (0xfff0707f, 0x60501013),
   (0xfe00707f, 0x60001033), (0xfe00707f, 0x60005033), (0xfff0707f, 0x28705013), (0xfff0707f, 0x69805013)]

theorem m_riscv32zb_RiscVZbbInst32_eq : g_riscv32zb_RiscVZbbInst32.map Inst.maskVal = m_riscv32zb_RiscVZbbInst32 := by decide +kernel

/-- Mask and value of each instruction of `RiscVZbbInst32Only` (riscv32zb.bin_fmt:41-41). -/
def m_riscv32zb_RiscVZbbInst32Only : List (Nat × Nat) :=
  [(0xfff0707f, 0x8004033)]

theorem m_riscv32zb_RiscVZbbInst32Only_eq : g_riscv32zb_RiscVZbbInst32Only.map Inst.maskVal = m_riscv32zb_RiscVZbbInst32Only := by decide +kernel

/-- Mask and value of each instruction of `RiscVZbbImmInst32` (riscv32zb.bin_fmt:45-45). -/
def m_riscv32zb_RiscVZbbImmInst32 : List (Nat × Nat) :=
  [(0xfe00707f, 0x60005013)]

theorem m_riscv32zb_RiscVZbbImmInst32_eq : g_riscv32zb_RiscVZbbImmInst32.map Inst.maskVal = m_riscv32zb_RiscVZbbImmInst32 := by decide +kernel

/-- Mask and value of each instruction of `RiscVZbcInst32` (riscv32zb.bin_fmt:49-51). -/
def m_riscv32zb_RiscVZbcInst32 : List (Nat × Nat) :=
  [(0xfe00707f, 0xa001033), (0xfe00707f, 0xa003033), (0xfe00707f, 0xa002033)]

theorem m_riscv32zb_RiscVZbcInst32_eq : g_riscv32zb_RiscVZbcInst32.map Inst.maskVal = m_riscv32zb_RiscVZbcInst32 := by decide +kernel

/-- Mask and value of each instruction of `RiscVZbsInst32` (riscv32zb.bin_fmt:55-58). -/
def m_riscv32zb_RiscVZbsInst32 : List (Nat × Nat) :=
  [(0xfe00707f, 0x48001033), (0xfe00707f, 0x48005033), (0xfe00707f, 0x68001033), (0xfe00707f, 0x28001033)]

theorem m_riscv32zb_RiscVZbsInst32_eq : g_riscv32zb_RiscVZbsInst32.map Inst.maskVal = m_riscv32zb_RiscVZbsInst32 := by decide +kernel

/-- Mask and value of each instruction of `RiscVZbsImmInst32` (riscv32zb.bin_fmt:62-65). -/
def m_riscv32zb_RiscVZbsImmInst32 : List (Nat × Nat) :=
  [(0xfe00707f, 0x48001013), (0xfe00707f, 0x48005013), (0xfe00707f, 0x68001013), (0xfe00707f, 0x28001013)]

theorem m_riscv32zb_RiscVZbsImmInst32_eq : g_riscv32zb_RiscVZbsImmInst32.map Inst.maskVal = m_riscv32zb_RiscVZbsImmInst32 := by decide +kernel

/-- Mask and value of each instruction of `RiscVGInstBase32` (riscv64g.bin_fmt:32-221). -/
def m_riscv64g_RiscVGInstBase32 : List (Nat × Nat) :=
  [(0x7f, 0x37), (0x7f, 0x17), (0x7f, 0x6f), (0xfff, 0x6f),
   (0x707f, 0x67), (0x7fff, 0x67), (0x707f, 0x63), (0x707f, 0x1063),
   (0x707f, 0x4063), (0x707f, 0x5063), (0x707f, 0x6063), (0x707f, 0x7063),
   (0x707f, 0x3), (0x707f, 0x3003), (0x707f, 0x1003), (0x707f, 0x2003),
   (0x707f, 0x6003), (0x707f, 0x4003), (0x707f, 0x5003), (0x707f, 0x23),
   (0x707f, 0x1023), (0x707f, 0x2023), (0x707f, 0x3023), (0x707f, 0x13),
   (0xffffffff, 0x13), (0x707f, 0x1b), (0x707f, 0x2013), (0x707f, 0x3013),
   (0x707f, 0x4013), (0x707f, 0x6013), (0x707f, 0x7013), (0xfc00707f, 0x1013),
   (0xfc00707f, 0x5013), (0xfc00707f, 0x40005013), (0xfe00707f, 0x101b), (0xfe00707f, 0x501b),
   (0xfe00707f, 0x4000501b), (0xfe00707f, 0x33), (0xfe00707f, 0x3b), (0xfe00707f, 0x40000033),
   (0xfe00707f, 0x4000003b), (0xfe00707f, 0x1033), (0xfe00707f, 0x103b), (0xfe00707f, 0x2033),
   (0xfe00707f, 0x3033), (0xfe00707f, 0x4033), (0xfe00707f, 0x5033), (0xfe00707f, 0x503b),
   (0xfe00707f, 0x40005033), (0xfe00707f, 0x4000503b), (0xfe00707f, 0x6033), (0xfe00707f, 0x7033),
   (0xf000707f, 0xf), (0xfff0707f, 0x8330000f), (0xffffffff, 0x73), (0xffffffff, 0x100073),
   (0x707f, 0x100f), (0xfe00707f, 0x2000033), (0xfe00707f, 0x2001033), (0xfe00707f, 0x2002033),
   (0xfe00707f, 0x2003033), (0xfe00707f, 0x2004033), (0xfe00707f, 0x2005033), (0xfe00707f, 0x2006033),
   (0xfe00707f, 0x2007033), (0xfe00707f, 0x200003b), (0xfe00707f, 0x200403b), (0xfe00707f, 0x200503b),
   (0xfe00707f, 0x200603b), (0xfe00707f, 0x200703b), (0xf9f0707f, 0x1000202f), (0xf800707f, 0x1800202f),
   (0xf800707f, 0x800202f), (0xf800707f, 0x202f), (0xf800707f, 0x2000202f), (0xf800707f, 0x6000202f),
   (0xf800707f, 0x4000202f), (0xf800707f, 0x8000202f), (0xf800707f, 0xa000202f), (0xf800707f, 0xc000202f),
   (0xf800707f, 0xe000202f), (0xf9f0707f, 0x1000302f), (0xf800707f, 0x1800302f), (0xf800707f, 0x800302f),
   (0xf800707f, 0x302f), (0xf800707f, 0x2000302f), (0xf800707f, 0x6000302f), (0xf800707f, 0x4000302f),
   (0xf800707f, 0x8000302f), (0xf800707f, 0xa000302f), (0xf800707f, 0xc000302f), (0xf800707f, 0xe000302f),
   (0x707f, 0x2007), (0x707f, 0x2027), (0x600007f, 0x43), (0x600007f, 0x47),
   (0x600007f, 0x4b), (0x600007f, 0x4f), (0xfe00007f, 0x53), (0xfe00007f, 0x8000053),
   (0xfe00007f, 0x10000053), (0xfe00007f, 0x18000053), (0xfff0007f, 0x58000053), (0xfe00707f, 0x20000053),
   (0xfe00707f, 0x20001053), (0xfe00707f, 0x20002053), (0xfe00707f, 0x28000053), (0xfe00707f, 0x28001053),
   (0xfff0007f, 0xc0000053), (0xfff0007f, 0xc0100053), (0xfff0707f, 0xe0000053), (0xfe00707f, 0xa0002053),
   (0xfe00707f, 0xa0001053), (0xfe00707f, 0xa0000053), (0xfff0707f, 0xe0001053), (0xfff0007f, 0xd0000053),
   (0xfff0007f, 0xd0100053), (0xfff0707f, 0xf0000053), (0xfff0007f, 0xc0200053), (0xfff0007f, 0xc0300053),
   (0xfff0007f, 0xd0200053), (0xfff0007f, 0xd0300053), (0x707f, 0x3007), (0x707f, 0x3027),
   (0x600007f, 0x2000043), (0x600007f, 0x2000047), (0x600007f, 0x200004b), (0x600007f, 0x200004f),
   (0xfe00007f, 0x2000053), (0xfe00007f, 0xa000053), (0xfe00007f, 0x12000053), (0xfe00007f, 0x1a000053),
   (0xfff0007f, 0x5a000053), (0xfe00707f, 0x22000053), (0xfe00707f, 0x22001053), (0xfe00707f, 0x22002053),
   (0xfe00707f, 0x2a000053), (0xfe00707f, 0x2a001053), (0xfff0007f, 0x40100053), (0xfff0007f, 0x42000053),
   (0xfe00707f, 0xa2002053), (0xfe00707f, 0xa2001053), (0xfe00707f, 0xa2000053), (0xfff0707f, 0xe2001053),
   (0xfff0007f, 0xc2000053), (0xfff0007f, 0xc2100053), (0xfff0007f, 0xd2000053), (0xfff0007f, 0xd2100053),
   (0xfff0007f, 0xc2200053), (0xfff0007f, 0xc2300053), (0xfff0007f, 0xd2200053), (0xfff0007f, 0xd2300053),
   (0xfff0707f, 0xe2000053), (0xfff0707f, 0xf2000053), (0x707f, 0x1073), (0x707f, 0x2073),
   (0x707f, 0x3073), (0x7fff, 0x2073), (0x7fff, 0x3073), (0x7fff, 0x1073),
   (0xff07f, 0x2073), (0xff07f, 0x3073), (0x707f, 0x5073), (0x707f, 0x6073),
   (0x707f, 0x7073), (0x7fff, 0x6073), (0x7fff, 0x7073), (0x7fff, 0x5073),
   (0xff07f, 0x6073), (0xff07f, 0x7073), (0xffffffff, 0xc0001073), (0xffffffff, 0x200073),
   (0xffffffff, 0x10200073), (0xffffffff, 0x30200073), (0xffffffff, 0x10500073), (0xffffffff, 0x12000073),
   (0xfe0fffff, 0x12000073), (0xfff07fff, 0x12000073), (0xfe007fff, 0x12000073)]

theorem m_riscv64g_RiscVGInstBase32_eq : g_riscv64g_RiscVGInstBase32.map Inst.maskVal = m_riscv64g_RiscVGInstBase32 := by decide +kernel

/-- Mask and value of each instruction of `RiscVGHints32` (riscv64g.bin_fmt:227-261). -/
def m_riscv64g_RiscVGHints32 : List (Nat × Nat) :=
  [(0xfff, 0x37), (0xfff, 0x17), (0x7fff, 0x13), (0x7fff, 0x13),
   (0x7fff, 0x2013), (0x7fff, 0x3013), (0x7fff, 0x4013), (0x7fff, 0x6013),
   (0x7fff, 0x7013), (0xfe007fff, 0x5013), (0xfe007fff, 0x2033), (0xffffffff, 0x1f01013),
   (0xfe007fff, 0x1013), (0xfe007fff, 0x1013), (0xffffffff, 0x40705013), (0xfe007fff, 0x40005013),
   (0xfe007fff, 0x40005013), (0xfe007fff, 0x33), (0xfe0fffff, 0x33), (0xfe0fffff, 0x33),
   (0xfe007fff, 0x40000033), (0xfe007fff, 0x1033), (0xfe007fff, 0x3033), (0xfe007fff, 0x4033),
   (0xfe007fff, 0x5033), (0xfe007fff, 0x40005033), (0xfe007fff, 0x6033), (0xfe007fff, 0x7033),
   (0xff007fff, 0xf), (0xf0f07fff, 0xf), (0xff0ff07f, 0xf), (0xf0fff07f, 0xf),
   (0xff0fffff, 0xf), (0xf0ffffff, 0xf), (0xf0fff07f, 0xf)]

theorem m_riscv64g_RiscVGHints32_eq : g_riscv64g_RiscVGHints32.map Inst.maskVal = m_riscv64g_RiscVGHints32 := by decide +kernel

/-- Mask and value of each instruction of `RiscVCInstBase16` (riscv64g.bin_fmt:268-305). -/
def m_riscv64g_RiscVCInstBase16 : List (Nat × Nat) :=
  [(0xe003, 0x0), (0xe003, 0x2000), (0xe003, 0x4000), (0xe003, 0x6000),
   (0xe003, 0xa000), (0xe003, 0xc000), (0xe003, 0xe000), (0xffff, 0x1),
   (0xe003, 0x1), (0xe003, 0x2001), (0xe003, 0x4001), (0xef83, 0x6101),
   (0xe003, 0x6001), (0xec03, 0x8001), (0xec03, 0x8401), (0xec03, 0x8801),
   (0xfc63, 0x8c01), (0xfc63, 0x8c21), (0xfc63, 0x8c41), (0xfc63, 0x8c61),
   (0xfc63, 0x9c01), (0xfc63, 0x9c21), (0xe003, 0xa001), (0xe003, 0xc001),
   (0xe003, 0xe001), (0xe003, 0x2), (0xe003, 0x2002), (0xe003, 0x4002),
   (0xe003, 0x6002), (0xf07f, 0x8002), (0xf003, 0x8002), (0xffff, 0x9002),
   (0xf07f, 0x9002), (0xf003, 0x9002), (0xe003, 0xa002), (0xe003, 0xc002),
   (0xe003, 0xe002), (0xffff, 0x0)]

theorem m_riscv64g_RiscVCInstBase16_eq : g_riscv64g_RiscVCInstBase16.map Inst.maskVal = m_riscv64g_RiscVCInstBase16 := by decide +kernel

/-- Mask and value of each instruction of `RiscVCHints16` (riscv64g.bin_fmt:309-315). -/
def m_riscv64g_RiscVCHints16 : List (Nat × Nat) :=
  [(0xef83, 0x1), (0xf07f, 0x1), (0xef83, 0x4001), (0xef83, 0x6001),
   (0xff83, 0x8002), (0xef83, 0x2), (0xff83, 0x9002)]

theorem m_riscv64g_RiscVCHints16_eq : g_riscv64g_RiscVCHints16.map Inst.maskVal = m_riscv64g_RiscVCHints16 := by decide +kernel

/-- Mask and value of each instruction of `RiscVZbaInst64` (riscv64zb.bin_fmt:16-20). -/
def m_riscv64zb_RiscVZbaInst64 : List (Nat × Nat) :=
  [(0xfe00707f, 0x800003b), (0xfe00707f, 0x2000203b), (0xfe00707f, 0x2000403b), (0xfe00707f, 0x2000603b),
   (0xfc00707f, 0x800101b)]

theorem m_riscv64zb_RiscVZbaInst64_eq : g_riscv64zb_RiscVZbaInst64.map Inst.maskVal = m_riscv64zb_RiscVZbaInst64 := by decide +kernel

/-- Mask and value of each instruction of `RiscVZbbInst64` (riscv64zb.bin_fmt:24-31). -/
def m_riscv64zb_RiscVZbbInst64 : List (Nat × Nat) :=
  [(0xfff0707f, 0x6000101b), (0xfff0707f, 0x6020101b), (0xfff0707f, 0x6010101b), (0xfe00707f, 0x6000103b),
   (0xfc00707f, 0x60005013), (0xfe00707f, 0x6000501b), (0xfe00707f, 0x6000503b), (0xfff0707f, 0x800403b)]

theorem m_riscv64zb_RiscVZbbInst64_eq : g_riscv64zb_RiscVZbbInst64.map Inst.maskVal = m_riscv64zb_RiscVZbbInst64 := by decide +kernel

/-- Mask and value of each instruction of `RiscVZbsImmInst64` (riscv64zb.bin_fmt:35-38). -/
def m_riscv64zb_RiscVZbsImmInst64 : List (Nat × Nat) :=
  [(0xfc00707f, 0x4800101b), (0xfc00707f, 0x4800501b), (0xfc00707f, 0x6800101b), (0xfc00707f, 0x2800101b)]

theorem m_riscv64zb_RiscVZbsImmInst64_eq : g_riscv64zb_RiscVZbsImmInst64.map Inst.maskVal = m_riscv64zb_RiscVZbsImmInst64 := by decide +kernel

/-- Mask and value of each instruction of `RiscVVInst32` (riscv_vector.bin_fmt:20-509). -/
def m_riscv_vector_RiscVVInst32 : List (Nat × Nat) :=
  [(0x8000707f, 0x7057), (0x800ff07f, 0x7057), (0x800fffff, 0x7057), (0xc000707f, 0xc0007057),
   (0xfe00707f, 0x80007057), (0xfe0ff07f, 0x80007057), (0xfe0fffff, 0x80007057), (0xfff0707f, 0x7),
   (0xfff0707f, 0x5007), (0xfff0707f, 0x6007), (0xfff0707f, 0x7007), (0xfff0707f, 0x2000007),
   (0xfff0707f, 0x2005007), (0xfff0707f, 0x2006007), (0xfff0707f, 0x2007007), (0xfdf0707f, 0xb00007),
   (0xfdf0707f, 0x1000007), (0xfdf0707f, 0x1005007), (0xfdf0707f, 0x1006007), (0xfdf0707f, 0x1007007),
   (0xeff0707f, 0x2800007), (0xeff0707f, 0x2805007), (0xeff0707f, 0x2806007), (0xeff0707f, 0x2807007),
   (0xeff0707f, 0x22800007), (0xeff0707f, 0x22805007), (0xeff0707f, 0x22806007), (0xeff0707f, 0x22807007),
   (0xeff0707f, 0x62800007), (0xeff0707f, 0x62805007), (0xeff0707f, 0x62806007), (0xeff0707f, 0x62807007),
   (0xeff0707f, 0xe2800007), (0xeff0707f, 0xe2805007), (0xeff0707f, 0xe2806007), (0xeff0707f, 0xe2807007),
   (0xfc00707f, 0x8000007), (0xfc00707f, 0x8005007), (0xfc00707f, 0x8006007), (0xfc00707f, 0x8007007),
   (0xfc00707f, 0x4000007), (0xfc00707f, 0x4005007), (0xfc00707f, 0x4006007), (0xfc00707f, 0x4007007),
   (0xfc00707f, 0xc000007), (0xfc00707f, 0xc005007), (0xfc00707f, 0xc006007), (0xfc00707f, 0xc007007),
   (0x1df0707f, 0x7), (0x1df0707f, 0x5007), (0x1df0707f, 0x6007), (0x1df0707f, 0x7007),
   (0x1c00707f, 0x8000007), (0x1c00707f, 0x8005007), (0x1c00707f, 0x8006007), (0x1c00707f, 0x8007007),
   (0x1c00707f, 0x4000007), (0x1c00707f, 0x4005007), (0x1c00707f, 0x4006007), (0x1c00707f, 0x4007007),
   (0x1c00707f, 0xc000007), (0x1c00707f, 0xc005007), (0x1c00707f, 0xc006007), (0x1c00707f, 0xc007007),
   (0xfdf0707f, 0x27), (0xfdf0707f, 0x5027), (0xfdf0707f, 0x6027), (0xfdf0707f, 0x7027),
   (0xfdf0707f, 0xb00027), (0xfdf0707f, 0x1000027), (0xfdf0707f, 0x1005027), (0xfdf0707f, 0x1006027),
   (0xfdf0707f, 0x1007027), (0xeff0707f, 0x2800027), (0xeff0707f, 0x2805027), (0xeff0707f, 0x2806027),
   (0xeff0707f, 0x2807027), (0xeff0707f, 0x22800027), (0xeff0707f, 0x22805027), (0xeff0707f, 0x22806027),
   (0xeff0707f, 0x22807027), (0xeff0707f, 0x62800027), (0xeff0707f, 0x62805027), (0xeff0707f, 0x62806027),
   (0xeff0707f, 0x62807027), (0xeff0707f, 0xe2800027), (0xeff0707f, 0xe2805027), (0xeff0707f, 0xe2806027),
   (0xeff0707f, 0xe2807027), (0xfc00707f, 0x8000027), (0xfc00707f, 0x8005027), (0xfc00707f, 0x8006027),
   (0xfc00707f, 0x8007027), (0xfc00707f, 0x4000027), (0xfc00707f, 0x4005027), (0xfc00707f, 0x4006027),
   (0xfc00707f, 0x4007027), (0xfc00707f, 0xc000027), (0xfc00707f, 0xc005027), (0xfc00707f, 0xc006027),
   (0xfc00707f, 0xc007027), (0x1df0707f, 0x27), (0x1df0707f, 0x5027), (0x1df0707f, 0x6027),
   (0x1df0707f, 0x7027), (0x1c00707f, 0x8000027), (0x1c00707f, 0x8005027), (0x1c00707f, 0x8006027),
   (0x1c00707f, 0x8007027), (0x1c00707f, 0x4000027), (0x1c00707f, 0x4005027), (0x1c00707f, 0x4006027),
   (0x1c00707f, 0x4007027), (0x1c00707f, 0xc000027), (0x1c00707f, 0xc005027), (0x1c00707f, 0xc006027),
   (0x1c00707f, 0xc007027), (0xfc00707f, 0x57), (0xfc00707f, 0x4057), (0xfc00707f, 0x3057),
   (0xfc00707f, 0x8000057), (0xfc00707f, 0x8004057), (0xfc00707f, 0xc004057), (0xfc00707f, 0xc003057),
   (0xfc00707f, 0x10000057), (0xfc00707f, 0x10004057), (0xfc00707f, 0x14000057), (0xfc00707f, 0x14004057),
   (0xfc00707f, 0x18000057), (0xfc00707f, 0x18004057), (0xfc00707f, 0x1c000057), (0xfc00707f, 0x1c004057),
   (0xfc00707f, 0x24000057), (0xfc00707f, 0x24004057), (0xfc00707f, 0x24003057), (0xfc00707f, 0x28000057),
   (0xfc00707f, 0x28004057), (0xfc00707f, 0x28003057), (0xfc00707f, 0x2c000057), (0xfc00707f, 0x2c004057),
   (0xfc00707f, 0x2c003057), (0xfc00707f, 0x30000057), (0xfc00707f, 0x30004057), (0xfc00707f, 0x30003057),
   (0xfc00707f, 0x38004057), (0xfc00707f, 0x38003057), (0xfc00707f, 0x38000057), (0xfc00707f, 0x3c004057),
   (0xfc00707f, 0x3c003057), (0xfe00707f, 0x40000057), (0xfe00707f, 0x40004057), (0xfe00707f, 0x40003057),
   (0xfc00707f, 0x44000057), (0xfc00707f, 0x44004057), (0xfc00707f, 0x44003057), (0xfe00707f, 0x48000057),
   (0xfe00707f, 0x48004057), (0xfc00707f, 0x4c000057), (0xfc00707f, 0x4c004057), (0xfe00707f, 0x5c000057),
   (0xfe00707f, 0x5c004057), (0xfe00707f, 0x5c003057), (0xfff0707f, 0x5e000057), (0xfff0707f, 0x5e004057),
   (0xfff0707f, 0x5e003057), (0xfc00707f, 0x60000057), (0xfc00707f, 0x60004057), (0xfc00707f, 0x60003057),
   (0xfc00707f, 0x64000057), (0xfc00707f, 0x64004057), (0xfc00707f, 0x64003057), (0xfc00707f, 0x68000057),
   (0xfc00707f, 0x68004057), (0xfc00707f, 0x6c000057), (0xfc00707f, 0x6c004057), (0xfc00707f, 0x70000057),
   (0xfc00707f, 0x70004057), (0xfc00707f, 0x70003057), (0xfc00707f, 0x74000057), (0xfc00707f, 0x74004057),
   (0xfc00707f, 0x74003057), (0xfc00707f, 0x78004057), (0xfc00707f, 0x78003057), (0xfc00707f, 0x7c004057),
   (0xfc00707f, 0x7c003057), (0xfc00707f, 0x80000057), (0xfc00707f, 0x80004057), (0xfc00707f, 0x80003057),
   (0xfc00707f, 0x84000057), (0xfc00707f, 0x84004057), (0xfc00707f, 0x84003057), (0xfc00707f, 0x88000057),
   (0xfc00707f, 0x88004057), (0xfc00707f, 0x8c000057), (0xfc00707f, 0x8c004057), (0xfc00707f, 0x94000057),
   (0xfc00707f, 0x94004057), (0xfc00707f, 0x94003057), (0xfc00707f, 0x9c000057), (0xfc00707f, 0x9c004057),
   (0xfc0ff07f, 0x9c003057), (0xfc0ff07f, 0x9c00b057), (0xfc0ff07f, 0x9c01b057), (0xfc0ff07f, 0x9c03b057),
   (0xfc00707f, 0xa0000057), (0xfc00707f, 0xa0004057), (0xfc00707f, 0xa0003057), (0xfc00707f, 0xa4000057),
   (0xfc00707f, 0xa4004057), (0xfc00707f, 0xa4003057), (0xfc00707f, 0xa8000057), (0xfc00707f, 0xa8004057),
   (0xfc00707f, 0xa8003057), (0xfc00707f, 0xac000057), (0xfc00707f, 0xac004057), (0xfc00707f, 0xac003057),
   (0xfc00707f, 0xb0000057), (0xfc00707f, 0xb0004057), (0xfc00707f, 0xb0003057), (0xfc00707f, 0xb4000057),
   (0xfc00707f, 0xb4004057), (0xfc00707f, 0xb4003057), (0xfc00707f, 0xb8000057), (0xfc00707f, 0xb8004057),
   (0xfc00707f, 0xb8003057), (0xfc00707f, 0xbc000057), (0xfc00707f, 0xbc004057), (0xfc00707f, 0xbc003057),
   (0xfc00707f, 0xc0000057), (0xfc00707f, 0xc4000057), (0xfc00707f, 0x2057), (0xfc00707f, 0x4002057),
   (0xfc00707f, 0x8002057), (0xfc00707f, 0xc002057), (0xfc00707f, 0x10002057), (0xfc00707f, 0x14002057),
   (0xfc00707f, 0x18002057), (0xfc00707f, 0x1c002057), (0xfc00707f, 0x20002057), (0xfc00707f, 0x20006057),
   (0xfc00707f, 0x24002057), (0xfc00707f, 0x24006057), (0xfc00707f, 0x28002057), (0xfc00707f, 0x28006057),
   (0xfc00707f, 0x2c002057), (0xfc00707f, 0x2c006057), (0xfc00707f, 0x38006057), (0xfc00707f, 0x3c006057),
   (0xfc00707f, 0x5c002057), (0xfc00707f, 0x60002057), (0xfc00707f, 0x64002057), (0xfc00707f, 0x68002057),
   (0xfc00707f, 0x6c002057), (0xfc00707f, 0x70002057), (0xfc00707f, 0x74002057), (0xfc00707f, 0x78002057),
   (0xfc00707f, 0x7c002057), (0xfc00707f, 0x80002057), (0xfc00707f, 0x80006057), (0xfc00707f, 0x84002057),
   (0xfc00707f, 0x84006057), (0xfc00707f, 0x88002057), (0xfc00707f, 0x88006057), (0xfc00707f, 0x8c002057),
   (0xfc00707f, 0x8c006057), (0xfc00707f, 0x90002057), (0xfc00707f, 0x90006057), (0xfc00707f, 0x94002057),
   (0xfc00707f, 0x94006057), (0xfc00707f, 0x98002057), (0xfc00707f, 0x98006057), (0xfc00707f, 0x9c002057),
   (0xfc00707f, 0x9c006057), (0xfc00707f, 0xa4002057), (0xfc00707f, 0xa4006057), (0xfc00707f, 0xac002057),
   (0xfc00707f, 0xac006057), (0xfc00707f, 0xb4002057), (0xfc00707f, 0xb4006057), (0xfc00707f, 0xbc002057),
   (0xfc00707f, 0xbc006057), (0xfc00707f, 0xc0002057), (0xfc00707f, 0xc0006057), (0xfc00707f, 0xc4002057),
   (0xfc00707f, 0xc4006057), (0xfc00707f, 0xc8002057), (0xfc00707f, 0xc8006057), (0xfc00707f, 0xcc002057),
   (0xfc00707f, 0xcc006057), (0xfc00707f, 0xd0002057), (0xfc00707f, 0xd0006057), (0xfc00707f, 0xd4002057),
   (0xfc00707f, 0xd4006057), (0xfc00707f, 0xd8002057), (0xfc00707f, 0xd8006057), (0xfc00707f, 0xdc002057),
   (0xfc00707f, 0xdc006057), (0xfc00707f, 0xe0002057), (0xfc00707f, 0xe0006057), (0xfc00707f, 0xe8002057),
   (0xfc00707f, 0xe8006057), (0xfc00707f, 0xec002057), (0xfc00707f, 0xec006057), (0xfc00707f, 0xf0002057),
   (0xfc00707f, 0xf0006057), (0xfc00707f, 0xf4002057), (0xfc00707f, 0xf4006057), (0xfc00707f, 0xf8002057),
   (0xfc00707f, 0xf8006057), (0xfc00707f, 0xfc002057), (0xfc00707f, 0xfc006057), (0xfc00707f, 0x1057),
   (0xfc00707f, 0x5057), (0xfc00707f, 0x4001057), (0xfc00707f, 0x8001057), (0xfc00707f, 0x8005057),
   (0xfc00707f, 0xc001057), (0xfc00707f, 0x10001057), (0xfc00707f, 0x10005057), (0xfc00707f, 0x14001057),
   (0xfc00707f, 0x18001057), (0xfc00707f, 0x18005057), (0xfc00707f, 0x1c001057), (0xfc00707f, 0x20001057),
   (0xfc00707f, 0x20005057), (0xfc00707f, 0x24001057), (0xfc00707f, 0x24005057), (0xfc00707f, 0x28001057),
   (0xfc00707f, 0x28005057), (0xfc00707f, 0x38005057), (0xfc00707f, 0x3c005057), (0xfff0707f, 0x5e005057),
   (0xfe00707f, 0x5c005057), (0xfc00707f, 0x60001057), (0xfc00707f, 0x60005057), (0xfc00707f, 0x64001057),
   (0xfc00707f, 0x64005057), (0xfc00707f, 0x6c001057), (0xfc00707f, 0x6c005057), (0xfc00707f, 0x70001057),
   (0xfc00707f, 0x70005057), (0xfc00707f, 0x74005057), (0xfc00707f, 0x7c005057), (0xfc00707f, 0x80001057),
   (0xfc00707f, 0x80005057), (0xfc00707f, 0x84005057), (0xfc00707f, 0x90001057), (0xfc00707f, 0x90005057),
   (0xfc00707f, 0x9c005057), (0xfc00707f, 0xa0001057), (0xfc00707f, 0xa0005057), (0xfc00707f, 0xa4001057),
   (0xfc00707f, 0xa4005057), (0xfc00707f, 0xa8001057), (0xfc00707f, 0xa8005057), (0xfc00707f, 0xac001057),
   (0xfc00707f, 0xac005057), (0xfc00707f, 0xb0001057), (0xfc00707f, 0xb0005057), (0xfc00707f, 0xb4001057),
   (0xfc00707f, 0xb4005057), (0xfc00707f, 0xb8001057), (0xfc00707f, 0xb8005057), (0xfc00707f, 0xbc001057),
   (0xfc00707f, 0xbc005057), (0xfc00707f, 0xc0001057), (0xfc00707f, 0xc0005057), (0xfc00707f, 0xc4001057),
   (0xfc00707f, 0xc8001057), (0xfc00707f, 0xc8005057), (0xfc00707f, 0xcc001057), (0xfc00707f, 0xd0001057),
   (0xfc00707f, 0xd0005057), (0xfc00707f, 0xd8001057), (0xfc00707f, 0xd8005057), (0xfc00707f, 0xe0001057),
   (0xfc00707f, 0xe0005057), (0xfc00707f, 0xf0001057), (0xfc00707f, 0xf0005057), (0xfc00707f, 0xf4001057),
   (0xfc00707f, 0xf4005057), (0xfc00707f, 0xf8001057), (0xfc00707f, 0xf8005057), (0xfc00707f, 0xfc001057),
   (0xfc00707f, 0xfc005057), (0xfc0ff07f, 0x40002057), (0xfc0ff07f, 0x40082057), (0xfc0ff07f, 0x4008a057),
   (0xfdf0707f, 0x40006057), (0xfc0ff07f, 0x48012057), (0xfc0ff07f, 0x4801a057), (0xfc0ff07f, 0x48022057),
   (0xfc0ff07f, 0x4802a057), (0xfc0ff07f, 0x48032057), (0xfc0ff07f, 0x4803a057), (0xfc0ff07f, 0x5000a057),
   (0xfc0ff07f, 0x50012057), (0xfc0ff07f, 0x5001a057), (0xfc0ff07f, 0x50082057), (0xfc0ff07f, 0x5008a057),
   (0xfc0ff07f, 0x40001057), (0xfdf0707f, 0x40005057), (0xfc0ff07f, 0x48001057), (0xfc0ff07f, 0x48009057),
   (0xfc0ff07f, 0x48011057), (0xfc0ff07f, 0x48019057), (0xfc0ff07f, 0x48031057), (0xfc0ff07f, 0x48039057),
   (0xfc0ff07f, 0x48041057), (0xfc0ff07f, 0x48049057), (0xfc0ff07f, 0x48051057), (0xfc0ff07f, 0x48059057),
   (0xfc0ff07f, 0x48061057), (0xfc0ff07f, 0x48071057), (0xfc0ff07f, 0x48079057), (0xfc0ff07f, 0x48081057),
   (0xfc0ff07f, 0x48089057), (0xfc0ff07f, 0x48091057), (0xfc0ff07f, 0x48099057), (0xfc0ff07f, 0x480a1057),
   (0xfc0ff07f, 0x480a9057), (0xfc0ff07f, 0x480b1057), (0xfc0ff07f, 0x480b9057), (0xfc0ff07f, 0x4c001057),
   (0xfc0ff07f, 0x4c021057), (0xfc0ff07f, 0x4c029057), (0xfc0ff07f, 0x4c081057)]

theorem m_riscv_vector_RiscVVInst32_eq : g_riscv_vector_RiscVVInst32.map Inst.maskVal = m_riscv_vector_RiscVVInst32 := by decide +kernel

/-- Mask and value of each instruction of `RiscVZve32xInst32` (riscv_vector.bin_fmt:515-861). -/
def m_riscv_vector_RiscVZve32xInst32 : List (Nat × Nat) :=
  [(0x8000707f, 0x7057), (0x800ff07f, 0x7057), (0x800fffff, 0x7057), (0xc000707f, 0xc0007057),
   (0xfe00707f, 0x80007057), (0xfe0ff07f, 0x80007057), (0xfe0fffff, 0x80007057), (0xfff0707f, 0x7),
   (0xfff0707f, 0x5007), (0xfff0707f, 0x6007), (0xfff0707f, 0x2000007), (0xfff0707f, 0x2005007),
   (0xfff0707f, 0x2006007), (0xfdf0707f, 0xb00007), (0xfdf0707f, 0x1000007), (0xfdf0707f, 0x1005007),
   (0xfdf0707f, 0x1006007), (0xeff0707f, 0x2800007), (0xeff0707f, 0x2805007), (0xeff0707f, 0x2806007),
   (0xeff0707f, 0x22800007), (0xeff0707f, 0x22805007), (0xeff0707f, 0x22806007), (0xeff0707f, 0x62800007),
   (0xeff0707f, 0x62805007), (0xeff0707f, 0x62806007), (0xeff0707f, 0xe2800007), (0xeff0707f, 0xe2805007),
   (0xeff0707f, 0xe2806007), (0xfc00707f, 0x8000007), (0xfc00707f, 0x8005007), (0xfc00707f, 0x8006007),
   (0xfc00707f, 0x4000007), (0xfc00707f, 0x4005007), (0xfc00707f, 0x4006007), (0xfc00707f, 0xc000007),
   (0xfc00707f, 0xc005007), (0xfc00707f, 0xc006007), (0x1df0707f, 0x7), (0x1df0707f, 0x5007),
   (0x1df0707f, 0x6007), (0x1c00707f, 0x8000007), (0x1c00707f, 0x8005007), (0x1c00707f, 0x8006007),
   (0x1c00707f, 0x4000007), (0x1c00707f, 0x4005007), (0x1c00707f, 0x4006007), (0x1c00707f, 0xc000007),
   (0x1c00707f, 0xc005007), (0x1c00707f, 0xc006007), (0xfdf0707f, 0x27), (0xfdf0707f, 0x5027),
   (0xfdf0707f, 0x6027), (0xfdf0707f, 0xb00027), (0xfdf0707f, 0x1000027), (0xfdf0707f, 0x1005027),
   (0xfdf0707f, 0x1006027), (0xeff0707f, 0x2800027), (0xeff0707f, 0x2805027), (0xeff0707f, 0x2806027),
   (0xeff0707f, 0x22800027), (0xeff0707f, 0x22805027), (0xeff0707f, 0x22806027), (0xeff0707f, 0x62800027),
   (0xeff0707f, 0x62805027), (0xeff0707f, 0x62806027), (0xeff0707f, 0xe2800027), (0xeff0707f, 0xe2805027),
   (0xeff0707f, 0xe2806027), (0xfc00707f, 0x8000027), (0xfc00707f, 0x8005027), (0xfc00707f, 0x8006027),
   (0xfc00707f, 0x4000027), (0xfc00707f, 0x4005027), (0xfc00707f, 0x4006027), (0xfc00707f, 0xc000027),
   (0xfc00707f, 0xc005027), (0xfc00707f, 0xc006027), (0x1df0707f, 0x27), (0x1df0707f, 0x5027),
   (0x1df0707f, 0x6027), (0x1c00707f, 0x8000027), (0x1c00707f, 0x8005027), (0x1c00707f, 0x8006027),
   (0x1c00707f, 0x4000027), (0x1c00707f, 0x4005027), (0x1c00707f, 0x4006027), (0x1c00707f, 0xc000027),
   (0x1c00707f, 0xc005027), (0x1c00707f, 0xc006027), (0xfc00707f, 0x57), (0xfc00707f, 0x4057),
   (0xfc00707f, 0x3057), (0xfc00707f, 0x8000057), (0xfc00707f, 0x8004057), (0xfc00707f, 0xc004057),
   (0xfc00707f, 0xc003057), (0xfc00707f, 0x10000057), (0xfc00707f, 0x10004057), (0xfc00707f, 0x14000057),
   (0xfc00707f, 0x14004057), (0xfc00707f, 0x18000057), (0xfc00707f, 0x18004057), (0xfc00707f, 0x1c000057),
   (0xfc00707f, 0x1c004057), (0xfc00707f, 0x24000057), (0xfc00707f, 0x24004057), (0xfc00707f, 0x24003057),
   (0xfc00707f, 0x28000057), (0xfc00707f, 0x28004057), (0xfc00707f, 0x28003057), (0xfc00707f, 0x2c000057),
   (0xfc00707f, 0x2c004057), (0xfc00707f, 0x2c003057), (0xfc00707f, 0x30000057), (0xfc00707f, 0x30004057),
   (0xfc00707f, 0x30003057), (0xfc00707f, 0x38004057), (0xfc00707f, 0x38003057), (0xfc00707f, 0x38000057),
   (0xfc00707f, 0x3c004057), (0xfc00707f, 0x3c003057), (0xfe00707f, 0x40000057), (0xfe00707f, 0x40004057),
   (0xfe00707f, 0x40003057), (0xfc00707f, 0x44000057), (0xfc00707f, 0x44004057), (0xfc00707f, 0x44003057),
   (0xfe00707f, 0x48000057), (0xfe00707f, 0x48004057), (0xfc00707f, 0x4c000057), (0xfc00707f, 0x4c004057),
   (0xfe00707f, 0x5c000057), (0xfe00707f, 0x5c004057), (0xfe00707f, 0x5c003057), (0xfff0707f, 0x5e000057),
   (0xfff0707f, 0x5e004057), (0xfff0707f, 0x5e003057), (0xfc00707f, 0x60000057), (0xfc00707f, 0x60004057),
   (0xfc00707f, 0x60003057), (0xfc00707f, 0x64000057), (0xfc00707f, 0x64004057), (0xfc00707f, 0x64003057),
   (0xfc00707f, 0x68000057), (0xfc00707f, 0x68004057), (0xfc00707f, 0x6c000057), (0xfc00707f, 0x6c004057),
   (0xfc00707f, 0x70000057), (0xfc00707f, 0x70004057), (0xfc00707f, 0x70003057), (0xfc00707f, 0x74000057),
   (0xfc00707f, 0x74004057), (0xfc00707f, 0x74003057), (0xfc00707f, 0x78004057), (0xfc00707f, 0x78003057),
   (0xfc00707f, 0x7c004057), (0xfc00707f, 0x7c003057), (0xfc00707f, 0x80000057), (0xfc00707f, 0x80004057),
   (0xfc00707f, 0x80003057), (0xfc00707f, 0x84000057), (0xfc00707f, 0x84004057), (0xfc00707f, 0x84003057),
   (0xfc00707f, 0x88000057), (0xfc00707f, 0x88004057), (0xfc00707f, 0x8c000057), (0xfc00707f, 0x8c004057),
   (0xfc00707f, 0x94000057), (0xfc00707f, 0x94004057), (0xfc00707f, 0x94003057), (0xfc00707f, 0x9c000057),
   (0xfc00707f, 0x9c004057), (0xfc0ff07f, 0x9c003057), (0xfc0ff07f, 0x9c00b057), (0xfc0ff07f, 0x9c01b057),
   (0xfc0ff07f, 0x9c03b057), (0xfc00707f, 0xa0000057), (0xfc00707f, 0xa0004057), (0xfc00707f, 0xa0003057),
   (0xfc00707f, 0xa4000057), (0xfc00707f, 0xa4004057), (0xfc00707f, 0xa4003057), (0xfc00707f, 0xa8000057),
   (0xfc00707f, 0xa8004057), (0xfc00707f, 0xa8003057), (0xfc00707f, 0xac000057), (0xfc00707f, 0xac004057),
   (0xfc00707f, 0xac003057), (0xfc00707f, 0xb0000057), (0xfc00707f, 0xb0004057), (0xfc00707f, 0xb0003057),
   (0xfc00707f, 0xb4000057), (0xfc00707f, 0xb4004057), (0xfc00707f, 0xb4003057), (0xfc00707f, 0xb8000057),
   (0xfc00707f, 0xb8004057), (0xfc00707f, 0xb8003057), (0xfc00707f, 0xbc000057), (0xfc00707f, 0xbc004057),
   (0xfc00707f, 0xbc003057), (0xfc00707f, 0xc0000057), (0xfc00707f, 0xc4000057), (0xfc00707f, 0x2057),
   (0xfc00707f, 0x4002057), (0xfc00707f, 0x8002057), (0xfc00707f, 0xc002057), (0xfc00707f, 0x10002057),
   (0xfc00707f, 0x14002057), (0xfc00707f, 0x18002057), (0xfc00707f, 0x1c002057), (0xfc00707f, 0x20002057),
   (0xfc00707f, 0x20006057), (0xfc00707f, 0x24002057), (0xfc00707f, 0x24006057), (0xfc00707f, 0x28002057),
   (0xfc00707f, 0x28006057), (0xfc00707f, 0x2c002057), (0xfc00707f, 0x2c006057), (0xfc00707f, 0x38006057),
   (0xfc00707f, 0x3c006057), (0xfc00707f, 0x5c002057), (0xfc00707f, 0x60002057), (0xfc00707f, 0x64002057),
   (0xfc00707f, 0x68002057), (0xfc00707f, 0x6c002057), (0xfc00707f, 0x70002057), (0xfc00707f, 0x74002057),
   (0xfc00707f, 0x78002057), (0xfc00707f, 0x7c002057), (0xfc00707f, 0x80002057), (0xfc00707f, 0x80006057),
   (0xfc00707f, 0x84002057), (0xfc00707f, 0x84006057), (0xfc00707f, 0x88002057), (0xfc00707f, 0x88006057),
   (0xfc00707f, 0x8c002057), (0xfc00707f, 0x8c006057), (0xfc00707f, 0x90002057), (0xfc00707f, 0x90006057),
   (0xfc00707f, 0x94002057), (0xfc00707f, 0x94006057), (0xfc00707f, 0x98002057), (0xfc00707f, 0x98006057),
   (0xfc00707f, 0x9c002057), (0xfc00707f, 0x9c006057), (0xfc00707f, 0xa4002057), (0xfc00707f, 0xa4006057),
   (0xfc00707f, 0xac002057), (0xfc00707f, 0xac006057), (0xfc00707f, 0xb4002057), (0xfc00707f, 0xb4006057),
   (0xfc00707f, 0xbc002057), (0xfc00707f, 0xbc006057), (0xfc00707f, 0xc0002057), (0xfc00707f, 0xc0006057),
   (0xfc00707f, 0xc4002057), (0xfc00707f, 0xc4006057), (0xfc00707f, 0xc8002057), (0xfc00707f, 0xc8006057),
   (0xfc00707f, 0xcc002057), (0xfc00707f, 0xcc006057), (0xfc00707f, 0xd0002057), (0xfc00707f, 0xd0006057),
   (0xfc00707f, 0xd4002057), (0xfc00707f, 0xd4006057), (0xfc00707f, 0xd8002057), (0xfc00707f, 0xd8006057),
   (0xfc00707f, 0xdc002057), (0xfc00707f, 0xdc006057), (0xfc00707f, 0xe0002057), (0xfc00707f, 0xe0006057),
   (0xfc00707f, 0xe8002057), (0xfc00707f, 0xe8006057), (0xfc00707f, 0xec002057), (0xfc00707f, 0xec006057),
   (0xfc00707f, 0xf0002057), (0xfc00707f, 0xf0006057), (0xfc00707f, 0xf4002057), (0xfc00707f, 0xf4006057),
   (0xfc00707f, 0xf8002057), (0xfc00707f, 0xf8006057), (0xfc00707f, 0xfc002057), (0xfc00707f, 0xfc006057),
   (0xfc0ff07f, 0x40002057), (0xfc0ff07f, 0x40082057), (0xfc0ff07f, 0x4008a057), (0xfdf0707f, 0x40006057),
   (0xfc0ff07f, 0x48012057), (0xfc0ff07f, 0x4801a057), (0xfc0ff07f, 0x48022057), (0xfc0ff07f, 0x4802a057),
   (0xfc0ff07f, 0x48032057), (0xfc0ff07f, 0x4803a057), (0xfc0ff07f, 0x5000a057), (0xfc0ff07f, 0x50012057),
   (0xfc0ff07f, 0x5001a057), (0xfc0ff07f, 0x50082057), (0xfc0ff07f, 0x5008a057)]

theorem m_riscv_vector_RiscVZve32xInst32_eq : g_riscv_vector_RiscVZve32xInst32.map Inst.maskVal = m_riscv_vector_RiscVZve32xInst32 := by decide +kernel

/-- Mask and value of each instruction of `RiscVZfh32Inst32` (riscv_zfh32.bin_fmt:27-56). -/
def m_riscv_zfh32_RiscVZfh32Inst32 : List (Nat × Nat) :=
  [(0x707f, 0x1007), (0x707f, 0x1027), (0xfff0707f, 0xe4000053), (0xfff0707f, 0xf4000053),
   (0xfff0007f, 0x40200053), (0xfff0007f, 0x44000053), (0xfff0007f, 0x42200053), (0xfff0007f, 0x44100053),
   (0xfe00007f, 0x4000053), (0xfe00007f, 0xc000053), (0xfe00007f, 0x14000053), (0xfe00007f, 0x1c000053),
   (0xfe00707f, 0x2c000053), (0xfe00707f, 0x2c001053), (0xfe00707f, 0x24000053), (0xfe00707f, 0x24001053),
   (0xfe00707f, 0x24002053), (0xfff0007f, 0x5c000053), (0xfff0007f, 0xd4000053), (0xfff0007f, 0xc4000053),
   (0xfff0007f, 0xd4100053), (0xfff0007f, 0xc4100053), (0xfe00707f, 0xa4002053), (0xfe00707f, 0xa4001053),
   (0xfe00707f, 0xa4000053), (0xfff0707f, 0xe4001053), (0x600007f, 0x4000043), (0x600007f, 0x4000047),
   (0x600007f, 0x400004b), (0x600007f, 0x400004f)]

theorem m_riscv_zfh32_RiscVZfh32Inst32_eq : g_riscv_zfh32_RiscVZfh32Inst32.map Inst.maskVal = m_riscv_zfh32_RiscVZfh32Inst32 := by decide +kernel

/-- Mask and value of each instruction of `RiscVZfh64Inst32` (riscv_zfh64.bin_fmt:27-60). -/
def m_riscv_zfh64_RiscVZfh64Inst32 : List (Nat × Nat) :=
  [(0x707f, 0x1007), (0x707f, 0x1027), (0xfff0707f, 0xe4000053), (0xfff0707f, 0xf4000053),
   (0xfff0007f, 0x40200053), (0xfff0007f, 0x44000053), (0xfff0007f, 0x42200053), (0xfff0007f, 0x44100053),
   (0xfe00007f, 0x4000053), (0xfe00007f, 0xc000053), (0xfe00007f, 0x14000053), (0xfe00007f, 0x1c000053),
   (0xfe00707f, 0x2c000053), (0xfe00707f, 0x2c001053), (0xfe00707f, 0x24000053), (0xfe00707f, 0x24001053),
   (0xfe00707f, 0x24002053), (0xfff0007f, 0x5c000053), (0xfff0007f, 0xd4000053), (0xfff0007f, 0xc4000053),
   (0xfff0007f, 0xd4100053), (0xfff0007f, 0xc4100053), (0xfe00707f, 0xa4002053), (0xfe00707f, 0xa4001053),
   (0xfe00707f, 0xa4000053), (0xfff0707f, 0xe4001053), (0x600007f, 0x4000043), (0x600007f, 0x4000047),
   (0x600007f, 0x400004b), (0x600007f, 0x400004f), (0xfff0007f, 0xc4200053), (0xfff0007f, 0xc4300053),
   (0xfff0007f, 0xd4200053), (0xfff0007f, 0xd4300053)]

theorem m_riscv_zfh64_RiscVZfh64Inst32_eq : g_riscv_zfh64_RiscVZfh64Inst32.map Inst.maskVal = m_riscv_zfh64_RiscVZfh64Inst32 := by decide +kernel

/-- Mask and value of each instruction of `RiscVZvkbInst32` (riscv_zvbb.bin_fmt:28-36). -/
def m_riscv_zvbb_RiscVZvkbInst32 : List (Nat × Nat) :=
  [(0xfc00707f, 0x4000057), (0xfc00707f, 0x4004057), (0xfc0ff07f, 0x48042057), (0xfc0ff07f, 0x4804a057),
   (0xfc00707f, 0x54000057), (0xfc00707f, 0x54004057), (0xfc00707f, 0x50000057), (0xfc00707f, 0x50004057),
   (0xf800707f, 0x50003057)]

theorem m_riscv_zvbb_RiscVZvkbInst32_eq : g_riscv_zvbb_RiscVZvkbInst32.map Inst.maskVal = m_riscv_zvbb_RiscVZvkbInst32 := by decide +kernel

/-- Mask and value of each instruction of `RiscVBasicBitInst32` (riscv_zvbb.bin_fmt:40-46). -/
def m_riscv_zvbb_RiscVBasicBitInst32 : List (Nat × Nat) :=
  [(0xfc0ff07f, 0x48052057), (0xfc0ff07f, 0x48062057), (0xfc0ff07f, 0x4806a057), (0xfc0ff07f, 0x48072057),
   (0xfc00707f, 0xd4000057), (0xfc00707f, 0xd4004057), (0xfc00707f, 0xd4003057)]

theorem m_riscv_zvbb_RiscVBasicBitInst32_eq : g_riscv_zvbb_RiscVBasicBitInst32.map Inst.maskVal = m_riscv_zvbb_RiscVBasicBitInst32 := by decide +kernel

/-- Mask and value of each instruction of `RiscVZicond` (riscv_zicond.bin_fmt:18-19). -/
def m_riscv_zicond_RiscVZicond : List (Nat × Nat) :=
  [(0xfe00707f, 0xe005033), (0xfe00707f, 0xe007033)]

theorem m_riscv_zicond_RiscVZicond_eq : g_riscv_zicond_RiscVZicond.map Inst.maskVal = m_riscv_zicond_RiscVZicond := by decide +kernel

/-- Mask and value of each instruction of `RiscVZimop` (riscv_zimop.bin_fmt:21-60). -/
def m_riscv_zimop_RiscVZimop : List (Nat × Nat) :=
  [(0xfff0707f, 0x81c04073), (0xfff0707f, 0x81d04073), (0xfff0707f, 0x81e04073), (0xfff0707f, 0x81f04073),
   (0xfff0707f, 0x85c04073), (0xfff0707f, 0x85d04073), (0xfff0707f, 0x85e04073), (0xfff0707f, 0x85f04073),
   (0xfff0707f, 0x89c04073), (0xfff0707f, 0x89d04073), (0xfff0707f, 0x89e04073), (0xfff0707f, 0x89f04073),
   (0xfff0707f, 0x8dc04073), (0xfff0707f, 0x8dd04073), (0xfff0707f, 0x8de04073), (0xfff0707f, 0x8df04073),
   (0xfff0707f, 0xc1c04073), (0xfff0707f, 0xc1d04073), (0xfff0707f, 0xc1e04073), (0xfff0707f, 0xc1f04073),
   (0xfff0707f, 0xc5c04073), (0xfff0707f, 0xc5d04073), (0xfff0707f, 0xc5e04073), (0xfff0707f, 0xc5f04073),
   (0xfff0707f, 0xc9c04073), (0xfff0707f, 0xc9d04073), (0xfff0707f, 0xc9e04073), (0xfff0707f, 0xc9f04073),
   (0xfff0707f, 0xcdc04073), (0xfff0707f, 0xcdd04073), (0xfff0707f, 0xcde04073), (0xfff0707f, 0xcdf04073),
   (0xfe00007f, 0x82000073), (0xfe00007f, 0x86000073), (0xfe00007f, 0x8a000073), (0xfe00007f, 0x8e000073),
   (0xfe00007f, 0xc2000073), (0xfe00007f, 0xc6000073), (0xfe00007f, 0xca000073), (0xfe00007f, 0xce000073)]

theorem m_riscv_zimop_RiscVZimop_eq : g_riscv_zimop_RiscVZimop.map Inst.maskVal = m_riscv_zimop_RiscVZimop := by decide +kernel

/-- Mask and value of each instruction of `RiscVZcmop` (riscv_zimop.bin_fmt:65-72). -/
def m_riscv_zimop_RiscVZcmop : List (Nat × Nat) :=
  [(0xffff, 0x6081), (0xffff, 0x6181), (0xffff, 0x6281), (0xffff, 0x6381),
   (0xffff, 0x6481), (0xffff, 0x6581), (0xffff, 0x6681), (0xffff, 0x6781)]

theorem m_riscv_zimop_RiscVZcmop_eq : g_riscv_zimop_RiscVZcmop.map Inst.maskVal = m_riscv_zimop_RiscVZcmop := by decide +kernel

/-- Mask and value of each instruction of `RiscVZhintpause` (riscv_zhintpause.bin_fmt:18-18). -/
def m_riscv_zhintpause_RiscVZhintpause : List (Nat × Nat) :=
  [(0xffff8fff, 0x100000f)]

theorem m_riscv_zhintpause_RiscVZhintpause_eq : g_riscv_zhintpause_RiscVZhintpause.map Inst.maskVal = m_riscv_zhintpause_RiscVZhintpause := by decide +kernel

/-- Mask and value of each instruction of `RiscVZihintntl` (riscv_zihintntl.bin_fmt:18-21). -/
def m_riscv_zihintntl_RiscVZihintntl : List (Nat × Nat) :=
  [(0xffffffff, 0x200033), (0xffffffff, 0x300033), (0xffffffff, 0x400033), (0xffffffff, 0x500033)]

theorem m_riscv_zihintntl_RiscVZihintntl_eq : g_riscv_zihintntl_RiscVZihintntl.map Inst.maskVal = m_riscv_zihintntl_RiscVZihintntl := by decide +kernel

/-- Mask and value of each instruction of `RiscVCZihintntl` (riscv_zihintntl.bin_fmt:25-28). -/
def m_riscv_zihintntl_RiscVCZihintntl : List (Nat × Nat) :=
  [(0xffff, 0x900a), (0xffff, 0x900e), (0xffff, 0x9012), (0xffff, 0x9016)]

theorem m_riscv_zihintntl_RiscVCZihintntl_eq : g_riscv_zihintntl_RiscVCZihintntl.map Inst.maskVal = m_riscv_zihintntl_RiscVCZihintntl := by decide +kernel

/-- Mask and value of each instruction of `RiscVZicbop` (riscv_zicbop.bin_fmt:21-23). -/
def m_riscv_zicbop_RiscVZicbop : List (Nat × Nat) :=
  [(0x1f07fff, 0x6013), (0x1f07fff, 0x106012), (0x1f07fff, 0x306011)]

theorem m_riscv_zicbop_RiscVZicbop_eq : g_riscv_zicbop_RiscVZicbop.map Inst.maskVal = m_riscv_zicbop_RiscVZicbop := by decide +kernel

/-- Mask and value of each instruction of `RiscVCZca` (riscv_zc.bin_fmt:24-50). -/
def m_riscv_zc_RiscVCZca : List (Nat × Nat) :=
  [(0xe003, 0x0), (0xe003, 0x4000), (0xe003, 0xc000), (0xffff, 0x1),
   (0xe003, 0x1), (0xe003, 0x2001), (0xe003, 0x4001), (0xef83, 0x6101),
   (0xe003, 0x6001), (0xfc03, 0x8001), (0xfc03, 0x8401), (0xec03, 0x8801),
   (0xfc63, 0x8c01), (0xfc63, 0x8c21), (0xfc63, 0x8c41), (0xfc63, 0x8c61),
   (0xe003, 0xa001), (0xe003, 0xc001), (0xe003, 0xe001), (0xf003, 0x2),
   (0xe003, 0x4002), (0xf07f, 0x8002), (0xf003, 0x8002), (0xffff, 0x9002),
   (0xf07f, 0x9002), (0xf003, 0x9002), (0xe003, 0xc002)]

theorem m_riscv_zc_RiscVCZca_eq : g_riscv_zc_RiscVCZca.map Inst.maskVal = m_riscv_zc_RiscVCZca := by decide +kernel

/-- Mask and value of each instruction of `RiscVCZcf` (riscv_zc.bin_fmt:55-58). -/
def m_riscv_zc_RiscVCZcf : List (Nat × Nat) :=
  [(0xe003, 0x6000), (0xe003, 0xe000), (0xe003, 0x6002), (0xe003, 0xe002)]

theorem m_riscv_zc_RiscVCZcf_eq : g_riscv_zc_RiscVCZcf.map Inst.maskVal = m_riscv_zc_RiscVCZcf := by decide +kernel

/-- Mask and value of each instruction of `RiscVCZcd` (riscv_zc.bin_fmt:63-66). -/
def m_riscv_zc_RiscVCZcd : List (Nat × Nat) :=
  [(0xe003, 0x2000), (0xe003, 0x2002), (0xe003, 0xa000), (0xe003, 0xa002)]

theorem m_riscv_zc_RiscVCZcd_eq : g_riscv_zc_RiscVCZcd.map Inst.maskVal = m_riscv_zc_RiscVCZcd := by decide +kernel

/-- Mask and value of each instruction of `RiscVCZcb32` (riscv_zc.bin_fmt:71-81). -/
def m_riscv_zc_RiscVCZcb32 : List (Nat × Nat) :=
  [(0xfc03, 0x8000), (0xfc43, 0x8400), (0xfc43, 0x8440), (0xfc03, 0x8800),
   (0xfc43, 0x8c00), (0xfc7f, 0x9c61), (0xfc7f, 0x9c65), (0xfc7f, 0x9c69),
   (0xfc7f, 0x9c6d), (0xfc7f, 0x9c75), (0xfc63, 0x9c41)]

theorem m_riscv_zc_RiscVCZcb32_eq : g_riscv_zc_RiscVCZcb32.map Inst.maskVal = m_riscv_zc_RiscVCZcb32 := by decide +kernel

/-- Mask and value of each instruction of `RiscV64Zcb64` (riscv_zc.bin_fmt:86-86). -/
def m_riscv_zc_RiscV64Zcb64 : List (Nat × Nat) :=
  [(0xfc7f, 0x9c71)]

theorem m_riscv_zc_RiscV64Zcb64_eq : g_riscv_zc_RiscV64Zcb64.map Inst.maskVal = m_riscv_zc_RiscV64Zcb64 := by decide +kernel

/-- Mask and value of each instruction of `RiscVCZcmp` (riscv_zc.bin_fmt:91-96). -/
def m_riscv_zc_RiscVCZcmp : List (Nat × Nat) :=
  [(0xff03, 0xb802), (0xff03, 0xba02), (0xff03, 0xbe02), (0xff03, 0xbc02),
   (0xfc63, 0xac22), (0xfc63, 0xac62)]

theorem m_riscv_zc_RiscVCZcmp_eq : g_riscv_zc_RiscVCZcmp.map Inst.maskVal = m_riscv_zc_RiscVCZcmp := by decide +kernel

/-- Mask and value of each instruction of `RiscVCZcmt` (riscv_zc.bin_fmt:101-102). -/
def m_riscv_zc_RiscVCZcmt : List (Nat × Nat) :=
  [(0xfc03, 0xa002), (0xfc03, 0xa002)]

theorem m_riscv_zc_RiscVCZcmt_eq : g_riscv_zc_RiscVCZcmt.map Inst.maskVal = m_riscv_zc_RiscVCZcmt := by decide +kernel

end Verif.Decode
