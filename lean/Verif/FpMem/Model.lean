import Verif.Mem.Props

/-!
# Floating-point loads and stores

`flh`, `flw`, `fld`, `fsh`, `fsw`, `fsd` and the compressed forms, with the
functions the descriptions give them (C86).  Floating-point registers are 64
bits wide on both bases (riscv_register.h, `RVFpRegister`).
-/

namespace Verif.FpMem

open Core Mem

variable {w : Nat}

/-- A hart with floating-point registers. -/
structure State (w : Nat) where
  core : Core w
  fregs : BitVec 5 → BitVec 64

/-- `mstatus()->fs()` (riscv_xstatus.h:77). -/
def fs (s : State w) : BitVec 64 := s.core.hart.mstatus.getter .fs

/-- A floating-point register replaced. -/
def setF (s : State w) (r : BitVec 5) (v : BitVec 64) : State w :=
  { s with fregs := fun q => if q = r then v else s.fregs q }

/-- The address formed by an instance of `RVLoad` or `RVStore` for registers of
`k` bits (riscv_instruction_helpers.h:379-381, 417-419); the operands are read as
`k`-bit numbers, and the base is a `w`-bit register.  When `k` differs from `w`
the instruction is a compressed one, whose offset is not negative, so that
zero-extension is exact for it. -/
def address (k : Nat) (s : State w) (rs1 : BitVec 5) (off : BitVec w) : BitVec 64 :=
  ((Regs.read s.core.regs rs1).setWidth k + off.setWidth k).setWidth 64

/-- What the write-back part of a load does with the loaded number. -/
inductive Back where
  /-- `RiscVZfhFlhChild`, `RiscVIFlwChild` (riscv_zfh_instructions.cc:733-751,
  riscv_f_instructions.cc:141-157): ones above the `n` loaded bytes -/
  | box (n : Nat)
  /-- `RV64::RiscVILdChild` (riscv_i_instructions.cc:487-489): the register is set -/
  | whole
  /-- `RV32::RiscVILwChild` (riscv_i_instructions.cc:441-443): `Set<int32_t>(0, ..)`
  on the register's buffer of 8 bytes, which changes the lower four -/
  | low
  deriving DecidableEq

def back (b : Back) (old : BitVec 64) (v : Nat) : BitVec 64 :=
  match b with
  | .box n => (BitVec.allOnes 64 <<< (8 * n)) ||| BitVec.ofNat 64 v
  | .whole => BitVec.ofNat 64 v
  | .low => (old &&& 0xffffffff00000000#64) ||| BitVec.ofNat 64 (v % 2 ^ 32)

/-- `RVLoad` (riscv_instruction_helpers.h:374-390) of `n` bytes and its write-back. -/
def load (k n : Nat) (b : Back) (s : State w) (fr rs1 : BitVec 5) (off : BitVec w)
    (epc : BitVec 64) (handled : Bool) : State w :=
  match Mem.load s.core (address k s rs1 off) n epc handled with
  | .trapped c => { s with core := c }
  | .value v => setF s fr (back b (s.fregs fr) v)

/-- `RVStore` (riscv_instruction_helpers.h:411-426) of the low `n` bytes. -/
def store (k n : Nat) (s : State w) (fr rs1 : BitVec 5) (off : BitVec w)
    (epc : BitVec 64) (handled : Bool) : State w :=
  ⟨Mem.store s.core (address k s rs1 off) n ((s.fregs fr).toNat % 2 ^ (8 * n)) epc handled,
    s.fregs⟩

/-- `RiscVFSw`, `RiscVDSd` (riscv_f_instructions.cc:390-404,453-467,
riscv_d_instructions.cc:363-375,441-453): nothing is done when FS is 0. -/
def storeFs (k n : Nat) (s : State w) (fr rs1 : BitVec 5) (off : BitVec w)
    (epc : BitVec 64) (handled : Bool) : State w :=
  if fs s = 0#64 then s else store k n s fr rs1 off epc handled

/-- The instructions.  The forms relative to the stack pointer have x2 as the
base; of these only `c.fsdsp` differs from the other form. -/
inductive Ins where
  | flh | flw | fld | fsh | fsw | fsd
  | cflw | cfld | cfsw | cfsd | cfsdsp
  deriving DecidableEq

/-- Carries out an instruction (riscv32g.isa:639-647,755-762,872-918;
riscv64g.isa:775-782,906-913,1050-1089; riscv_zfh.isa:75-82,105-112).  `c.flw` and
`c.fsw` exist on RV32 only. -/
def exec (i : Ins) (s : State w) (fr rs1 : BitVec 5) (off : BitVec w) (epc : BitVec 64)
    (handled : Bool) : State w :=
  match i with
  | .flh => load w 2 (.box 2) s fr rs1 off epc handled
  | .flw => load w 4 (.box 4) s fr rs1 off epc handled
  | .fld => load w 8 .whole s fr rs1 off epc handled
  | .fsh => store w 2 s fr rs1 off epc handled
  | .fsw => storeFs w 4 s fr rs1 off epc handled
  | .fsd => storeFs w 8 s fr rs1 off epc handled
  | .cflw => load w 4 .low s fr rs1 off epc handled
  | .cfld => load 64 8 .whole s fr rs1 off epc handled
  | .cfsw => store w 4 s fr rs1 off epc handled
  | .cfsd => if w = 32 then storeFs w 8 s fr rs1 off epc handled
      else store 64 8 s fr rs1 off epc handled
  | .cfsdsp => store 64 8 s fr rs1 off epc handled

end Verif.FpMem
