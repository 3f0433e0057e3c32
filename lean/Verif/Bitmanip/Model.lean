import Verif.Util.Loop
import Verif.Regs.Model
/-
Bit-manipulation instructions.

riscv/riscv_bitmanip_instructions.cc has one namespace per register width (RV32 lines 34-249, RV64
lines 251-529) with the same text except for the constants; the definitions below take the width `w`
and, where the text differs, the differing constant as a parameter. `un32`, `bin32`, `un64`,
`bin64` at the end instantiate them as each namespace does.
riscv/riscv_b_instructions.cc is a second RV64 implementation (namespace `B64`).
-/
namespace Verif.Bitmanip

variable {w : Nat}

/-! ### Library functions (absl/numeric/bits.h) -/

/-- Scan down from bit `n-1`. -/
def clzFrom (a : BitVec w) : Nat → Nat
  | 0 => 0
  | n + 1 => if a.getLsbD n then 0 else 1 + clzFrom a n

/-- `absl::countl_zero` -/
def countlZero (a : BitVec w) : Nat := clzFrom a w

/-- Scan up from bit `i`, at most `n` bits. -/
def ctzFrom (a : BitVec w) (i : Nat) : Nat → Nat
  | 0 => 0
  | n + 1 => if a.getLsbD i then 0 else 1 + ctzFrom a (i + 1) n

/-- `absl::countr_zero` -/
def countrZero (a : BitVec w) : Nat := ctzFrom a 0 w

/-- `absl::popcount` -/
def popcount (a : BitVec w) : Nat := loop (fun i s => if a.getLsbD i then s + 1 else s) 0 w 0

/-- `absl::rotl` and `absl::rotr` (defined by the library; `s` is in range at each call). -/
def rotl (a : BitVec w) (s : Nat) : BitVec w := a.rotateLeft s
def rotr (a : BitVec w) (s : Nat) : BitVec w := a.rotateRight s

/-! ### Loops -/

/-- `RiscVRol` (RV32 140-147, RV64 394-401), `mask` = 0x1f or 0x3f. -/
def rol (mask a b : BitVec w) : BitVec w :=
  let shamt := (b &&& mask).toNat
  if shamt = 0 then a else (a <<< shamt) ||| (a >>> (w - shamt))

/-- `RiscVRor` (RV32 150-157, RV64 416-423). -/
def ror (mask a b : BitVec w) : BitVec w :=
  let shamt := (b &&& mask).toNat
  if shamt = 0 then a else (a >>> shamt) ||| (a <<< (w - shamt))

/-- `RiscVOrcb` (RV32 160-172, RV64 438-450); the state is (mask, result), `n` = sizeof(UIntReg). -/
def orcbLoop (a : BitVec w) (n : Nat) : BitVec w × BitVec w :=
  loop (fun _ s => (s.1 <<< 8, if a &&& s.1 = 0#w then s.2 else s.2 ||| s.1)) 0 n (0xff#w, 0#w)
def orcb (n : Nat) (a : BitVec w) : BitVec w := (orcbLoop a n).2

/-- `RiscVRev8` (RV32 175-185, RV64 453-463); the state is (a, result). -/
def rev8Loop (a : BitVec w) (n : Nat) : BitVec w × BitVec w :=
  loop (fun _ s => (s.1 >>> 8, (s.2 <<< 8) ||| (s.1 &&& 0xff#w))) 0 n (a, 0#w)
def rev8 (n : Nat) (a : BitVec w) : BitVec w := (rev8Loop a n).2

/-- `RiscVClmul` (RV32 188-197, RV64 466-475). -/
def clmul (a b : BitVec w) : BitVec w :=
  loop (fun i r => if (b >>> i) &&& 1#w = 0#w then r else r ^^^ (a <<< i)) 0 w 0#w

/-- `RiscVClmulh` (RV32 200-209, RV64 478-487): i from 1 to kXlen - 1. -/
def clmulh (a b : BitVec w) : BitVec w :=
  loop (fun i r => if (b >>> i) &&& 1#w = 0#w then r else r ^^^ (a >>> (w - i))) 1 (w - 1) 0#w

/-- `RiscVClmulr` (RV32 212-221 with `n` = kXlen - 1, RV64 490-499 with `n` = kXlen). -/
def clmulr (n : Nat) (a b : BitVec w) : BitVec w :=
  loop (fun i r => if (b >>> i) &&& 1#w = 0#w then r else r ^^^ (a >>> (w - i - 1))) 0 n 0#w

/-! ### Instructions -/

inductive Un where
  | not | clz | ctz | cpop | sextB | sextH | zextB | zextH | orcb | rev8
  deriving DecidableEq, Repr

inductive Bin where
  | shAdd (s : Fin 3) | andn | orn | xnor | max | maxu | min | minu | rol | ror
  | clmul | clmulh | clmulr | bclr | bext | binv | bset
  deriving DecidableEq, Repr

/-- The const1..const3 source operand of sh1add..sh3add (riscv32zb.isa:38-49). -/
def shConst (s : Fin 3) : Nat := s.val + 1

/-- One-operand instructions (RV32 66-88, 114-138, 160-185; RV64 305-341, 368-392, 438-463);
`n` = sizeof(UIntReg). -/
def un (n : Nat) (o : Un) (a : BitVec w) : BitVec w :=
  match o with
  | .not => ~~~a
  | .clz => BitVec.ofNat w (countlZero a)
  | .ctz => BitVec.ofNat w (countrZero a)
  | .cpop => BitVec.ofNat w (popcount a)
  | .sextB => (a.setWidth 8).signExtend w
  | .sextH => (a.setWidth 16).signExtend w
  | .zextB => (a.setWidth 8).setWidth w
  | .zextH => (a.setWidth 16).setWidth w
  | .orcb => orcb n a
  | .rev8 => rev8 n a

/-- Two-operand instructions (RV32 42-64, 90-112, 140-157, 188-247; RV64 266-303, 344-366, 394-423,
466-527). `mask` = 0x1f or 0x3f, `nr` = trip count of the clmulr loop. `std::max(a, b)` is
`a < b ? b : a`, `std::min(a, b)` is `b < a ? b : a`. -/
def bin (mask : BitVec w) (nr : Nat) (o : Bin) (a b : BitVec w) : BitVec w :=
  match o with
  | .shAdd s => b + (a <<< shConst s)
  | .andn => a &&& ~~~b
  | .orn => a ||| ~~~b
  | .xnor => ~~~(a ^^^ b)
  | .max => if a.slt b then b else a
  | .maxu => if a.ult b then b else a
  | .min => if b.slt a then b else a
  | .minu => if b.ult a then b else a
  | .rol => rol mask a b
  | .ror => ror mask a b
  | .clmul => clmul a b
  | .clmulh => clmulh a b
  | .clmulr => clmulr nr a b
  | .bclr => a &&& ~~~(1#w <<< (b &&& mask).toNat)
  | .bext => (a >>> (b &&& mask).toNat) &&& 1#w
  | .binv => a ^^^ (1#w <<< (b &&& mask).toNat)
  | .bset => a ||| (1#w <<< (b &&& mask).toNat)

def un32 (o : Un) (a : BitVec 32) : BitVec 32 := un 4 o a
def bin32 (o : Bin) (a b : BitVec 32) : BitVec 32 := bin 0x1f#32 31 o a b
def un64 (o : Un) (a : BitVec 64) : BitVec 64 := un 8 o a
def bin64 (o : Bin) (a b : BitVec 64) : BitVec 64 := bin 0x3f#64 64 o a b

/-! ### RV64 word forms -/

inductive UnW where
  | clzw | ctzw | cpopw
  deriving DecidableEq, Repr

inductive BinW where
  | addUw | shAddUw (s : Fin 3) | slliUw | rolw | rorw
  deriving DecidableEq, Repr

/-- What `Set<uint32_t>(0, v)` leaves in a 64-bit register that held `old`
(riscv_instruction_helpers.h:337). -/
def setLow32 (old : BitVec 64) (v : BitVec 32) : BitVec 64 :=
  (old &&& 0xffffffff00000000#64) ||| v.setWidth 64

/-- RV64 316-320, 327-331, 338-341. `old` is the previous content of the destination register:
`RiscVCpopw` instantiates the helper with a 32-bit result type, so it stores only 32 bits. -/
def unW (o : UnW) (old a : BitVec 64) : BitVec 64 :=
  match o with
  | .clzw => BitVec.ofNat 64 (countlZero (a.setWidth 32))
  | .ctzw => BitVec.ofNat 64 (countrZero (a.setWidth 32))
  | .cpopw => setLow32 old (BitVec.ofNat 32 (popcount (a.setWidth 32)))

/-- RV64 259-263, 272-286, 403-413, 425-435. In `slliUw` the second operand is `r_uimm6`, at most 63. -/
def binW (o : BinW) (a b : BitVec 64) : BitVec 64 :=
  match o with
  | .addUw => b + (a &&& 0xffffffff#64)
  | .shAddUw s => b + ((a &&& 0xffffffff#64) <<< shConst s)
  | .slliUw => (a &&& 0xffffffff#64) <<< (b.setWidth 32).toNat
  | .rolw => (rol 0x1f#32 (a.setWidth 32) (b.setWidth 32)).signExtend 64
  | .rorw => (ror 0x1f#32 (a.setWidth 32) (b.setWidth 32)).signExtend 64

/-! ### The second RV64 implementation -/
namespace B64

/-- `RiscVOrcb` (242-253). -/
def orcb (a : BitVec 64) : BitVec 64 :=
  loop (fun i r => if a &&& (0xff#64 <<< (8 * i)) = 0#64 then r else r ||| (0xff#64 <<< (8 * i))) 0 8 0#64

/-- Byte `i` of a little-endian word, and a word with byte `i` replaced. -/
def byte (a : BitVec 64) (i : Nat) : BitVec 8 := a.extractLsb' (8 * i) 8
def setByte (a : BitVec 64) (i : Nat) (v : BitVec 8) : BitVec 64 :=
  (a &&& ~~~(0xff#64 <<< (8 * i))) ||| (v.setWidth 64 <<< (8 * i))

/-- `RiscVRev8` (255-270), on a little-endian host. -/
def rev8 (a : BitVec 64) : BitVec 64 :=
  loop (fun i out => setByte out (7 - i) (byte a i)) 0 8 0#64

/-- Sign extension as done in `RiscVRolw` (205-209) and `RiscVRorw` (224-228). -/
def signWord (v : BitVec 32) : BitVec 64 :=
  if v &&& 0x80000000#32 = 0#32 then v.setWidth 64 else v.setWidth 64 ||| 0xffffffff00000000#64

/-- Lines 108-111, 120-123, 132-135, 163-182, 189-192, 242-270 (`not` and `zext.b` have no second
implementation). -/
def un (o : Un) (a : BitVec 64) : Option (BitVec 64) :=
  match o with
  | .not => none
  | .clz => some (BitVec.ofNat 64 (countlZero a))
  | .ctz => some (BitVec.ofNat 64 (countrZero a))
  | .cpop => some (BitVec.ofNat 64 (popcount a))
  | .sextB => some (if 0x80#64 &&& a = 0#64 then a &&& 0xff#64 else a ||| 0xffffffffffffff00#64)
  | .sextH => some (if 0x8000#64 &&& a = 0#64 then a &&& 0xffff#64 else a ||| 0xffffffffffff0000#64)
  | .zextB => none
  | .zextH => some (a &&& 0xffff#64)
  | .orcb => some (orcb a)
  | .rev8 => some (rev8 a)

/-- Lines 40-45, 64-74, 93-106, 143-161, 194-198, 213-217 (Zbc and Zbs have no second
implementation). -/
def bin (o : Bin) (a b : BitVec 64) : Option (BitVec 64) :=
  match o with
  | .shAdd s => some ((a <<< shConst s) + b)
  | .andn => some (a &&& ~~~b)
  | .orn => some (a ||| ~~~b)
  | .xnor => some (a ^^^ ~~~b)
  | .max => some (if a.slt b then b else a)
  | .maxu => some (if a.ult b then b else a)
  | .min => some (if b.slt a then b else a)
  | .minu => some (if b.ult a then b else a)
  | .rol => some (rotl a (b &&& 0x3f#64).toNat)
  | .ror => some (rotr a (b &&& 0x3f#64).toNat)
  | _ => none

/-- Lines 113-118, 125-130, 137-141. -/
def unW (o : UnW) (a : BitVec 64) : BitVec 64 :=
  match o with
  | .clzw => BitVec.ofNat 64 (countlZero (a.setWidth 32))
  | .ctzw => BitVec.ofNat 64 (countrZero (a.setWidth 32))
  | .cpopw => BitVec.ofNat 64 (popcount (a &&& 0xffffffff#64))

/-- Lines 50-62, 76-91, 200-211, 219-230, 237-240. The count of `slli.uw` is a 6-bit immediate. -/
def binW (o : BinW) (a b : BitVec 64) : BitVec 64 :=
  match o with
  | .addUw => (a &&& 0xffffffff#64) + b
  | .shAddUw s => ((a &&& 0xffffffff#64) <<< shConst s) + b
  | .slliUw => (a &&& 0xffffffff#64) <<< (b.setWidth 32).toNat
  | .rolw => signWord (rotl (a.setWidth 32) (b &&& 0x1f#64).toNat)
  | .rorw => signWord (rotr (a.setWidth 32) (b &&& 0x1f#64).toNat)

end B64

/-! ### Execution on the register file -/

/-- One-operand word form on the register file. -/
def execUnW (f : Regs.File 64) (o : UnW) (rd rs1 : BitVec 5) : Regs.File 64 :=
  Regs.write f rd (unW o (f rd) (Regs.read f rs1))

def execUn (g : BitVec w → BitVec w) (f : Regs.File w) (rd rs1 : BitVec 5) : Regs.File w :=
  Regs.write f rd (g (Regs.read f rs1))

def execBin (g : BitVec w → BitVec w → BitVec w) (f : Regs.File w) (rd rs1 : BitVec 5) (src : Regs.Src w) :
    Regs.File w :=
  Regs.write f rd (g (Regs.read f rs1) (src.value f))

end Verif.Bitmanip
