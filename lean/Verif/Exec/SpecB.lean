import Verif.Exec.Spec
import Verif.Bitmanip.Spec

/-!
# Zba, Zbb, Zbc and Zbs, by the manual
-/

namespace Verif.Exec.Spec

open Decode Decode.Isa Core

inductive BKind where
  /-- two registers -/
  | bin (o : Bitmanip.Bin)
  /-- a register and a bit number or shift amount -/
  | bini (o : Bitmanip.Bin)
  | un (o : Bitmanip.Un)
  /-- the instructions of RV64 only -/
  | binw (o : Bitmanip.BinW)
  | biniw (o : Bitmanip.BinW)
  | unw (o : Bitmanip.UnW)
  deriving DecidableEq, Repr

/-- What the instructions are. -/
def bkind : Xlen → Op → Option BKind
  | _, .sh1add => some (.bin (.shAdd 0))
  | _, .sh2add => some (.bin (.shAdd 1))
  | _, .sh3add => some (.bin (.shAdd 2))
  | _, .andn => some (.bin .andn)
  | _, .orn => some (.bin .orn)
  | _, .xnor => some (.bin .xnor)
  | _, .clz => some (.un .clz)
  | _, .ctz => some (.un .ctz)
  | _, .cpop => some (.un .cpop)
  | _, .max => some (.bin .max)
  | _, .maxu => some (.bin .maxu)
  | _, .min => some (.bin .min)
  | _, .minu => some (.bin .minu)
  | _, .sext_b => some (.un .sextB)
  | _, .sext_h => some (.un .sextH)
  | _, .zext_h => some (.un .zextH)
  | _, .rol => some (.bin .rol)
  | _, .ror => some (.bin .ror)
  | _, .rori => some (.bini .ror)
  | _, .orcb => some (.un .orcb)
  | _, .rev8 => some (.un .rev8)
  | _, .clmul => some (.bin .clmul)
  | _, .clmulh => some (.bin .clmulh)
  | _, .clmulr => some (.bin .clmulr)
  | _, .bclr => some (.bin .bclr)
  | _, .bext => some (.bin .bext)
  | _, .binv => some (.bin .binv)
  | _, .bset => some (.bin .bset)
  | _, .bclri => some (.bini .bclr)
  | _, .bexti => some (.bini .bext)
  | _, .binvi => some (.bini .binv)
  | _, .bseti => some (.bini .bset)
  | .rv64, .add_uw => some (.binw .addUw)
  | .rv64, .sh1add_uw => some (.binw (.shAddUw 0))
  | .rv64, .sh2add_uw => some (.binw (.shAddUw 1))
  | .rv64, .sh3add_uw => some (.binw (.shAddUw 2))
  | .rv64, .slli_uw => some (.biniw .slliUw)
  | .rv64, .clzw => some (.unw .clzw)
  | .rv64, .ctzw => some (.unw .ctzw)
  | .rv64, .cpopw => some (.unw .cpopw)
  | .rv64, .rolw => some (.binw .rolw)
  | .rv64, .rorw => some (.binw .rorw)
  | .rv64, .roriw => some (.biniw .rorw)
  | _, _ => none

/-- The shift amount or bit number: five bits on RV32 and for `roriw`, otherwise six. -/
def bImm (x : Xlen) (k : BKind) (w : Nat) : Int :=
  match k with
  | .bini _ => shamt x w
  | .biniw .slliUw => shamt6 w
  | .biniw _ => shamt5 w
  | _ => 0

/-- The operands. -/
def bargs (x : Xlen) (k : BKind) (w : Nat) : Args :=
  { rd := rd w, rs1 := rs1 w, rs2 := rs2 w, imm := bImm x k w, size := 4 }

/-- The effect of an instruction. -/
def DoesB (x : Xlen) (k : BKind) (z : Args) (c c' : Core x.bits) : Prop :=
  match k with
  | .bin o => Computes c c' z (Bitmanip.Spec.bin o (X c z.rs1) (X c z.rs2))
  | .bini o => Computes c c' z (Bitmanip.Spec.bin o (X c z.rs1) (BitVec.ofInt x.bits z.imm))
  | .un o => Computes c c' z (Bitmanip.Spec.un o (X c z.rs1))
  | .binw o => Computes c c' z (LowWord (Bitmanip.Spec.binW o) (X c z.rs1) (X c z.rs2))
  | .biniw o => Computes c c' z
      (LowWord (Bitmanip.Spec.binW o) (X c z.rs1) (BitVec.ofInt x.bits z.imm))
  | .unw o => Computes c c' z fun r =>
      x.bits = 64 → Bitmanip.Spec.unW o ((X c z.rs1).setWidth 64) (r.setWidth 64)

/-- The instructions whose words a core does not know: on RV64 five that the decoders encode wrongly
(C71), on RV32 with vectors six that its decoder leaves out. -/
def Absent (x : Xlen) (vector : Bool) (o : Op) : Prop :=
  match x, vector with
  | .rv64, _ => o = .rev8 ∨ o = .bclri ∨ o = .bexti ∨ o = .binvi ∨ o = .bseti
  | .rv32, true => o = .zext_h ∨ o = .rori ∨ o = .bclri ∨ o = .bexti ∨ o = .binvi ∨ o = .bseti
  | .rv32, false => False

/-- The operands with which `clmulr` of RV32 and `cpopw` go wrong (C29). -/
def Wrong (x : Xlen) (k : BKind) (z : Args) (c : Core x.bits) : Prop :=
  (k = .bin .clmulr ∧ x = .rv32 ∧ (X c z.rs2).getLsbD 31 = true ∧ X c z.rs1 ≠ 0#x.bits) ∨
  (k = .unw .cpopw ∧ 2 ^ 32 ≤ (X c z.rd).toNat)

/-- The word `w` is an instruction of kind `k`, one that the core knows. -/
def IsB (x : Xlen) (vector : Bool) (w : Nat) (k : BKind) : Prop :=
  ∃ o, bkind x o = some k ∧ Listed x o w ∧ ¬ Absent x vector o

end Verif.Exec.Spec
