/-
Translation between the RISC-V fcsr and the host's floating-point status
(riscv/riscv_fp_host_x86.cc and riscv/riscv_fp_host_arm.cc), and the scope objects that run host
arithmetic under the simulated status.

What the host computation does to its status register is an assumption: it ORs the exceptions it
raises into the sticky flags and changes nothing else.
-/
namespace Verif.FpHost

/-! ### RISC-V flags (riscv_fp_info.h:35-41; riscv_fp_host_x86.cc:39-43) -/
def kNX : BitVec 8 := 1#8
def kUF : BitVec 8 := 2#8
def kOF : BitVec 8 := 4#8
def kDZ : BitVec 8 := 8#8
def kNV : BitVec 8 := 16#8

/-! ### x86 -/
namespace X86

/-! x86 flags (riscv_fp_host_x86.cc:32-36). -/
def kPE : BitVec 8 := 32#8
def kUE : BitVec 8 := 16#8
def kOE : BitVec 8 := 8#8
def kZE : BitVec 8 := 4#8
def kIE : BitVec 8 := 1#8

/-- `kX86FlagsToRiscvMap[64]` (riscv_fp_host_x86.cc:49-112). -/
def toRiscV : List (BitVec 8) := [
  0#8, kNV, 0#8, kNV,
  kDZ, kDZ ||| kNV, kDZ, kNV ||| kDZ,
  kOF, kOF ||| kNV, kOF, kOF ||| kNV,
  kOF ||| kDZ, kOF ||| kDZ ||| kNV, kOF ||| kDZ, kOF ||| kDZ ||| kNV,
  kUF, kUF ||| kNV, kUF, kUF ||| kNV,
  kUF ||| kDZ, kUF ||| kDZ ||| kNV, kUF ||| kDZ, kUF ||| kDZ ||| kNV,
  kUF ||| kOF, kUF ||| kOF ||| kNV, kUF ||| kOF, kUF ||| kOF ||| kNV,
  kUF ||| kOF ||| kDZ, kUF ||| kOF ||| kDZ ||| kNV, kUF ||| kOF ||| kDZ, kUF ||| kOF ||| kDZ ||| kNV,
  kNX, kNX ||| kNV, kNX, kNX ||| kNV,
  kNX ||| kDZ, kNX ||| kDZ ||| kNV, kNX ||| kDZ, kNX ||| kNV ||| kDZ,
  kNX ||| kOF, kNX ||| kOF ||| kNV, kNX ||| kOF, kNX ||| kOF ||| kNV,
  kNX ||| kOF ||| kDZ, kNX ||| kOF ||| kDZ ||| kNV, kNX ||| kOF ||| kDZ, kNX ||| kOF ||| kDZ ||| kNV,
  kNX ||| kUF, kNX ||| kUF ||| kNV, kNX ||| kUF, kNX ||| kUF ||| kNV,
  kNX ||| kUF ||| kDZ, kNX ||| kUF ||| kDZ ||| kNV, kNX ||| kUF ||| kDZ, kNX ||| kUF ||| kDZ ||| kNV,
  kNX ||| kUF ||| kOF, kNX ||| kUF ||| kOF ||| kNV, kNX ||| kUF ||| kOF, kNX ||| kUF ||| kOF ||| kNV,
  kNX ||| kUF ||| kOF ||| kDZ, kNX ||| kUF ||| kOF ||| kDZ ||| kNV, kNX ||| kUF ||| kOF ||| kDZ, kNX ||| kUF ||| kOF ||| kDZ ||| kNV]

/-- `kRiscVFlagsToX86[32]` (riscv_fp_host_x86.cc:116-149). -/
def fromRiscV : List (BitVec 8) := [
  0#8, kPE, kUE, kUE ||| kPE,
  kOE, kOE ||| kPE, kOE ||| kUE, kOE ||| kUE ||| kPE,
  kZE, kZE ||| kPE, kZE ||| kUE, kZE ||| kUE ||| kPE,
  kZE ||| kOE, kZE ||| kOE ||| kPE, kZE ||| kOE ||| kUE, kZE ||| kOE ||| kUE ||| kPE,
  kIE, kIE ||| kPE, kIE ||| kUE, kIE ||| kUE ||| kPE,
  kIE ||| kOE, kIE ||| kOE ||| kPE, kIE ||| kOE ||| kUE, kIE ||| kOE ||| kUE ||| kPE,
  kIE ||| kZE, kIE ||| kZE ||| kPE, kIE ||| kZE ||| kUE, kIE ||| kZE ||| kUE ||| kPE,
  kIE ||| kZE ||| kOE, kIE ||| kZE ||| kOE ||| kPE, kIE ||| kZE ||| kOE ||| kUE, kIE ||| kZE ||| kOE ||| kUE ||| kPE]

/-- `kX86ToNearest`, … (riscv_fp_host_x86.cc:151-154). -/
def kToNearest : BitVec 32 := 0x0000#32
def kToNegInf : BitVec 32 := 0x2000#32
def kToPosInf : BitVec 32 := 0x4000#32
def kToZero : BitVec 32 := 0x6000#32

/-- `kRiscVToX86RoundingModeMap[8]` (riscv_fp_host_x86.cc:156-159). -/
def rmFromRiscV : List (BitVec 32) :=
  [kToNearest, kToZero, kToNegInf, kToPosInf, kToNearest, kToNearest, kToNearest, kToNearest]

/-- `kX86ToRiscVRoundingModeMap` (riscv_fp_host_x86.cc:162-164): RNE, RDN, RUP, RTZ. -/
def rmToRiscV : List (BitVec 32) := [0#32, 2#32, 3#32, 1#32]

/-- `kX86ExceptionFlags` (riscv_fp_host_x86.cc:166): all exceptions masked. -/
def kExceptionFlags : BitVec 32 := 0x1f80#32

/-- `x86_status_` (riscv_fp_host_x86.cc:197). -/
abbrev Status := BitVec 32

def init : Status := kExceptionFlags

/-- `GetRiscVFcsr` (riscv_fp_host_x86.cc:176-182). The indices are masked, so always in range. -/
def get (s : Status) : BitVec 32 :=
  let rm := rmToRiscV[((s >>> 13) &&& 3#32).toNat]?.getD 0#32
  let flags := (toRiscV[(s &&& 0b111111#32).toNat]?.getD 0#8).setWidth 32
  (rm <<< 5) ||| (flags &&& 0x1f#32)

/-- `SetRiscVFcsr` (riscv_fp_host_x86.cc:184-189). -/
def set (v : BitVec 32) : Status :=
  let rm := (v >>> 5) &&& 7#32
  let x86rm := rmFromRiscV[rm.toNat]?.getD 0#32
  let flags := (fromRiscV[(v &&& 0b11111#32).toNat]?.getD 0#8).setWidth 32
  kExceptionFlags ||| x86rm ||| flags

/-- The status `ScopedFPStatus` loads into the host (riscv_fp_host_x86.cc:207-270): the stored one,
with the instruction's own rounding mode `rm` if it has one and it is not 7. -/
def load (s : Status) (rm : Option (BitVec 3)) : Status :=
  match rm with
  | none => s
  | some r => if r ≠ 7#3 then (rmFromRiscV[r.toNat]?.getD 0#32) ||| (s &&& 0x1fff#32) else s

/-- `~ScopedFPStatus` (riscv_fp_host_x86.cc:272-288) after a host computation that raised the host
flags `f`: stores the host's status, including its rounding mode; the value computed from `host_rm_`
(line 281) is not used. -/
def leave (loaded : Status) (f : BitVec 6) : Status := kExceptionFlags ||| (loaded ||| f.setWidth 32)

/-- A whole scope. -/
def runIn (s : Status) (rm : Option (BitVec 3)) (f : BitVec 6) : Status := leave (load s rm) f

end X86

/-! ### ARM -/
namespace Arm

/-! ARM flags (riscv_fp_host_arm.cc:32-36). -/
def kArmIX : BitVec 8 := 16#8
def kArmUF : BitVec 8 := 8#8
def kArmOF : BitVec 8 := 4#8
def kArmDZ : BitVec 8 := 2#8
def kArmIO : BitVec 8 := 1#8

/-- `kArmFlagsToRiscvMap[32]` (riscv_fp_host_arm.cc:52-85). -/
def toRiscV : List (BitVec 8) := [
  0#8, kNV, kDZ, kDZ ||| kNV,
  kOF, kOF ||| kNV, kOF ||| kDZ, kOF ||| kDZ ||| kNV,
  kUF, kUF ||| kNV, kUF ||| kDZ, kUF ||| kDZ ||| kNV,
  kUF ||| kOF, kUF ||| kOF ||| kNV, kUF ||| kOF ||| kDZ, kUF ||| kOF ||| kDZ ||| kNV,
  kNX, kNX ||| kNV, kNX ||| kDZ, kNX ||| kDZ ||| kNV,
  kNX ||| kOF, kNX ||| kOF ||| kNV, kNX ||| kOF ||| kDZ, kNX ||| kOF ||| kDZ ||| kNV,
  kNX ||| kUF, kNX ||| kUF ||| kNV, kNX ||| kUF ||| kDZ, kNX ||| kUF ||| kDZ ||| kNV,
  kNX ||| kUF ||| kOF, kNX ||| kUF ||| kOF ||| kNV, kNX ||| kUF ||| kOF ||| kDZ, kNX ||| kUF ||| kOF ||| kDZ ||| kNV]

/-- `kRiscVFlagsToArm[32]` (riscv_fp_host_arm.cc:89-121). -/
def fromRiscV : List (BitVec 8) := [
  0#8, kArmIX, kArmUF, kArmUF ||| kArmIX,
  kArmOF, kArmOF ||| kArmIX, kArmOF ||| kArmUF, kArmOF ||| kArmUF ||| kArmIX,
  kArmDZ, kArmDZ ||| kArmIX, kArmDZ ||| kArmUF, kArmDZ ||| kArmUF ||| kArmIX,
  kArmDZ ||| kArmOF, kArmDZ ||| kArmOF ||| kArmIX, kArmDZ ||| kArmOF ||| kArmUF, kArmDZ ||| kArmOF ||| kArmUF ||| kArmIX,
  kArmIO, kArmIO ||| kArmIX, kArmIO ||| kArmUF, kArmIO ||| kArmUF ||| kArmIX,
  kArmIO ||| kArmOF, kArmIO ||| kArmOF ||| kArmIX, kArmIO ||| kArmOF ||| kArmUF, kArmIO ||| kArmOF ||| kArmUF ||| kArmIX,
  kArmIO ||| kArmDZ, kArmIO ||| kArmDZ ||| kArmIX, kArmIO ||| kArmDZ ||| kArmUF, kArmIO ||| kArmDZ ||| kArmUF ||| kArmIX,
  kArmIO ||| kArmDZ ||| kArmOF, kArmIO ||| kArmDZ ||| kArmOF ||| kArmIX, kArmIO ||| kArmDZ ||| kArmOF ||| kArmUF, kArmIO ||| kArmDZ ||| kArmOF ||| kArmUF ||| kArmIX]

/-- `kArmToNearest`, … (riscv_fp_host_arm.cc:123-126). -/
def kToNearest : BitVec 32 := 0#32
def kToNegInf : BitVec 32 := 0x00800000#32
def kToPosInf : BitVec 32 := 0x00400000#32
def kToZero : BitVec 32 := 0x00c00000#32

/-- `kRiscVToArmRoundingModeMap[8]` (riscv_fp_host_arm.cc:128-131). -/
def rmFromRiscV : List (BitVec 32) :=
  [kToNearest, kToZero, kToNegInf, kToPosInf, kToNearest, kToNearest, kToNearest, kToNearest]

/-- `kArmToRiscVRoundingModeMap` (riscv_fp_host_arm.cc:134-136): RNE, RUP, RDN, RTZ. -/
def rmToRiscV : List (BitVec 32) := [0#32, 3#32, 2#32, 1#32]

/-- `ArmFPRegs` (riscv_fp_host_arm.cc:138-141). -/
structure Status where
  fpcr : BitVec 64
  fpsr : BitVec 64
  deriving DecidableEq, Repr

/-- riscv_fp_host_arm.cc:170. -/
def init : Status := ⟨0#64, 0#64⟩

/-- `GetRiscVFcsr` (riscv_fp_host_arm.cc:150-156). -/
def get (s : Status) : BitVec 32 :=
  let rm := rmToRiscV[((s.fpcr >>> 22) &&& 3#64).toNat]?.getD 0#32
  let flags := (toRiscV[(s.fpsr &&& 0b11111#64).toNat]?.getD 0#8).setWidth 32
  (rm <<< 5) ||| (flags &&& 0x1f#32)

/-- `SetRiscVFcsr` (riscv_fp_host_arm.cc:158-164). The table entry, which already is in position,
is shifted left by another 22 as a `uint32_t` before the conversion to 64 bits. -/
def set (v : BitVec 32) : Status :=
  let rm := (v >>> 5) &&& 7#32
  let armrm := ((rmFromRiscV[rm.toNat]?.getD 0#32) <<< 22).setWidth 64
  let flags := (fromRiscV[(v &&& 0b11111#32).toNat]?.getD 0#8).setWidth 64
  ⟨armrm, flags⟩

/-- The registers `ScopedFPStatus` loads into the host (riscv_fp_host_arm.cc:180-266). -/
def load (s : Status) (rm : Option (BitVec 3)) : Status :=
  match rm with
  | none => s
  | some r => if r ≠ 7#3 then { s with fpcr := (rmFromRiscV[r.toNat]?.getD 0#32).setWidth 64 } else s

/-- `~ScopedFPStatus` (riscv_fp_host_arm.cc:268-285): keeps the flags and restores the rounding mode
saved by the constructor (lines 195, 221, 252). -/
def leave (before loaded : Status) (f : BitVec 5) : Status :=
  ⟨before.fpcr &&& kToZero.setWidth 64, loaded.fpsr ||| f.setWidth 64⟩

/-- A whole scope. -/
def runIn (s : Status) (rm : Option (BitVec 3)) (f : BitVec 5) : Status := leave s (load s rm) f

end Arm

end Verif.FpHost
