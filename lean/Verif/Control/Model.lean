import Verif.Core.Model
/-
Jumps and branches (riscv/riscv_i_instructions.cc, riscv/riscv_instruction_helpers.h).

`addr` is `instruction->address()` and `size` is `instruction->size()`. misa always exists
(`RiscVState::CreateCsrs`, riscv_state.cc:171-174); the cases of a missing misa are not modelled.
-/
namespace Verif.Control
open Verif.Core

variable {w : Nat}

/-- `ExceptionCode::kInstructionAddressMisaligned` (riscv_state.h). -/
def kMisaligned : BitVec 64 := 0#64

/-- `IsTargetMisaligned` (riscv_i_instructions.cc:46-62), the test only. -/
def misaligned (c : Core w) (target : BitVec w) : Bool := !c.hasC && (target &&& 3#w ≠ 0#w)

/-- Successful jump: target submitted to the pc, branch flag set, link register written
(riscv_i_instructions.cc:154-162 and its three copies). `address() + size()` is computed in 64 bits
and stored in xlen bits. -/
def jump (c : Core w) (target : BitVec w) (rd : BitVec 5) (addr : BitVec 64) (size : Nat) : Core w :=
  { c with
    hart := { c.hart with pc := target, branch := true }
    regs := Regs.write c.regs rd ((addr + BitVec.ofNat 64 size).setWidth w) }

/-- `RiscVIJal` (RV32 148-163, RV64 306-322): the sum is computed in 64 bits, bit 0 cleared, and the
result stored in xlen bits. -/
def jal (c : Core w) (offset : BitVec w) (rd : BitVec 5) (addr : BitVec 64) (size : Nat)
    (handled : Bool := false) : Core w :=
  let target := ((offset.setWidth 64 + addr) &&& ~~~1#64).setWidth w
  if misaligned c target then raise c (target.setWidth 64) kMisaligned addr handled
  else jump c target rd addr size

/-- `RiscVIJalr` (RV32 165-181, RV64 324-341). -/
def jalr (c : Core w) (rs1 : BitVec 5) (offset : BitVec w) (rd : BitVec 5) (addr : BitVec 64) (size : Nat)
    (handled : Bool := false) : Core w :=
  let target := (offset + Regs.read c.regs rs1) &&& ~~~1#w
  if misaligned c target then raise c (target.setWidth 64) kMisaligned addr handled
  else jump c target rd addr size

inductive Cond where
  | eq | ne | lt | ltu | ge | geu
  deriving DecidableEq, Repr

/-- The conditions of `RiscVIBeq` … `RiscVIBgeu` (riscv_i_instructions.cc:356-425). -/
def cond (k : Cond) (a b : BitVec w) : Bool :=
  match k with
  | .eq => a == b
  | .ne => a != b
  | .lt => a.slt b
  | .ltu => a.ult b
  | .ge => !a.slt b
  | .geu => !a.ult b

/-- `BranchConditional` (riscv_instruction_helpers.h:341-372). -/
def branch (c : Core w) (k : Cond) (rs1 rs2 : BitVec 5) (offset : BitVec w) (addr : BitVec 64)
    (handled : Bool := false) : Core w :=
  if cond k (Regs.read c.regs rs1) (Regs.read c.regs rs2) then
    let target := (offset.setWidth 64 + addr).setWidth w
    if misaligned c target then raise c addr kMisaligned addr handled
    else { c with hart := { c.hart with pc := target, branch := true } }
  else c

end Verif.Control
