import Verif.Decode.IsaProps
import Verif.Getters.Spec
import Verif.Alu.Spec
import Verif.MulDiv.Spec
import Verif.Control.Spec
import Verif.Mem.Spec

/-!
# One instruction of RV32IM or RV64IM, by the manual

The instruction at the program counter is given as a number `w`.  Its operands are read from the
bits of `w` as in the figures of chapter 2 of the unprivileged manual; `Does` relates the state of
the hart before and after the instruction.  Nothing here refers to the tables or the semantic
functions of the simulator.
-/

namespace Verif.Decode.Isa

/-- The register width in bits. -/
def Xlen.bits : Xlen → Nat
  | .rv32 => 32
  | .rv64 => 64

end Verif.Decode.Isa

namespace Verif.Exec.Spec

open Decode Decode.Isa Core Getters.Spec

/-! ## Operands -/

def rd (w : Nat) : BitVec 5 := BitVec.ofNat 5 (unsigned w (positions [(11, 7)]))
def rs1 (w : Nat) : BitVec 5 := BitVec.ofNat 5 (unsigned w (positions [(19, 15)]))
def rs2 (w : Nat) : BitVec 5 := BitVec.ofNat 5 (unsigned w (positions [(24, 20)]))
def immI (w : Nat) : Int := signed w (positions [(31, 20)])
def immS (w : Nat) : Int := signed w (positions [(31, 25), (11, 7)])
def immB (w : Nat) : Int := signed w (positions [(31, 31), (7, 7), (30, 25), (11, 8)]) * 2
def immU (w : Nat) : Int := signed w (positions [(31, 12)]) * 4096
def immJ (w : Nat) : Int := signed w (positions [(31, 31), (19, 12), (20, 20), (30, 21)]) * 2
def shamt5 (w : Nat) : Nat := unsigned w (positions [(24, 20)])
def shamt6 (w : Nat) : Nat := unsigned w (positions [(25, 20)])

/-! ## Kinds of instruction -/

inductive Kind where
  /-- two registers -/
  | rr (o : Alu.Op)
  /-- a register and an I-type immediate -/
  | ri (o : Alu.Op)
  /-- a register and a shift amount -/
  | sh (o : Alu.Op)
  | md (o : MulDiv.Op)
  /-- the forms on the low word of RV64 -/
  | rrw (o : Alu.OpW)
  | riw (o : Alu.OpW)
  | shw (o : Alu.OpW)
  | mdw (o : MulDiv.OpW)
  | lui
  | auipc
  | jal
  | jalr
  | br (k : Control.Cond)
  | ld (sz : Mem.Size) (sgn : Bool)
  | st (sz : Mem.Size)
  deriving DecidableEq, Repr

/-- What the instructions of the base set and of M are. -/
def kind : Xlen → Op → Option Kind
  | _, .lui => some .lui
  | _, .auipc => some .auipc
  | _, .jal => some .jal
  | _, .jalr => some .jalr
  | _, .beq => some (.br .eq)
  | _, .bne => some (.br .ne)
  | _, .blt => some (.br .lt)
  | _, .bge => some (.br .ge)
  | _, .bltu => some (.br .ltu)
  | _, .bgeu => some (.br .geu)
  | _, .lb => some (.ld .b true)
  | _, .lh => some (.ld .h true)
  | _, .lw => some (.ld .w true)
  | _, .lbu => some (.ld .b false)
  | _, .lhu => some (.ld .h false)
  | .rv64, .lwu => some (.ld .w false)
  | .rv64, .ld => some (.ld .d true)
  | _, .sb => some (.st .b)
  | _, .sh => some (.st .h)
  | _, .sw => some (.st .w)
  | .rv64, .sd => some (.st .d)
  | _, .addi => some (.ri .add)
  | _, .slti => some (.ri .slt)
  | _, .sltiu => some (.ri .sltu)
  | _, .xori => some (.ri .xor)
  | _, .ori => some (.ri .or)
  | _, .andi => some (.ri .and)
  | _, .slli => some (.sh .sll)
  | _, .srli => some (.sh .srl)
  | _, .srai => some (.sh .sra)
  | _, .add => some (.rr .add)
  | _, .sub => some (.rr .sub)
  | _, .sll => some (.rr .sll)
  | _, .slt => some (.rr .slt)
  | _, .sltu => some (.rr .sltu)
  | _, .«xor» => some (.rr .xor)
  | _, .srl => some (.rr .srl)
  | _, .sra => some (.rr .sra)
  | _, .«or» => some (.rr .or)
  | _, .«and» => some (.rr .and)
  | .rv64, .addiw => some (.riw .addw)
  | .rv64, .slliw => some (.shw .sllw)
  | .rv64, .srliw => some (.shw .srlw)
  | .rv64, .sraiw => some (.shw .sraw)
  | .rv64, .addw => some (.rrw .addw)
  | .rv64, .subw => some (.rrw .subw)
  | .rv64, .sllw => some (.rrw .sllw)
  | .rv64, .srlw => some (.rrw .srlw)
  | .rv64, .sraw => some (.rrw .sraw)
  | _, .mul => some (.md .mul)
  | _, .mulh => some (.md .mulh)
  | _, .mulhsu => some (.md .mulhsu)
  | _, .mulhu => some (.md .mulhu)
  | _, .div => some (.md .div)
  | _, .divu => some (.md .divu)
  | _, .rem => some (.md .rem)
  | _, .remu => some (.md .remu)
  | .rv64, .mulw => some (.mdw .mulw)
  | .rv64, .divw => some (.mdw .divw)
  | .rv64, .divuw => some (.mdw .divuw)
  | .rv64, .remw => some (.mdw .remw)
  | .rv64, .remuw => some (.mdw .remuw)
  | _, _ => none

/-! ## Operands of an instruction -/

/-- The operands of an instruction and its length in bytes; `imm` is the immediate or the shift
amount. -/
structure Args where
  rd : BitVec 5 := 0#5
  rs1 : BitVec 5 := 0#5
  rs2 : BitVec 5 := 0#5
  imm : Int := 0
  size : Nat

/-- The shift amount of an instruction of the register width. -/
def shamt (x : Xlen) (w : Nat) : Nat :=
  match x with
  | .rv32 => shamt5 w
  | .rv64 => shamt6 w

/-- The immediate of a 32-bit instruction. -/
def immOf (x : Xlen) (k : Kind) (w : Nat) : Int :=
  match k with
  | .ri _ | .riw _ | .jalr | .ld _ _ => immI w
  | .sh _ => shamt x w
  | .shw _ => shamt5 w
  | .lui | .auipc => immU w
  | .jal => immJ w
  | .br _ => immB w
  | .st _ => immS w
  | .rr _ | .md _ | .rrw _ | .mdw _ => 0

/-- The operands of a 32-bit instruction. -/
def args (x : Xlen) (k : Kind) (w : Nat) : Args :=
  { rd := rd w, rs1 := rs1 w, rs2 := rs2 w, imm := immOf x k w, size := 4 }

/-! ## Effects -/

variable {n : Nat}

/-- The value of an integer register. -/
def X (c : Core n) (r : BitVec 5) : BitVec n := if r = 0#5 then 0#n else c.regs r

/-- Execution goes on at `p`; only the program counter and the integer registers changed. -/
def GoesTo (c c' : Core n) (p : BitVec n) : Prop :=
  c'.hart = { c.hart with pc := p } ∧ c'.mem = c.mem ∧ c'.limit = c.limit ∧ c'.hasC = c.hasC

/-- `v` is the number of the next instruction's address, `size` being the length of this one. -/
def IsNext (c : Core n) (size : Nat) (v : BitVec n) : Prop :=
  v.toNat = (c.hart.pc.toNat + size) % 2 ^ n

/-- Register `d` has become `v` (unless it is register 0), the others are as before; what is kept for
register 0 is never changed. -/
def SetsReg (c c' : Core n) (d : BitVec 5) (v : BitVec n) : Prop :=
  (∀ r, X c' r = if r = 0#5 then 0#n else if r = d then v else X c r) ∧ c'.regs 0#5 = c.regs 0#5

/-- The instruction computes a value for register `rd`. -/
def Computes (c c' : Core n) (z : Args) (P : BitVec n → Prop) : Prop :=
  ∃ v p, P v ∧ IsNext c z.size p ∧ GoesTo c c' p ∧ SetsReg c c' z.rd v

/-- An exception is raised at the instruction: nothing changes but what the trap (C12 to C16)
changes. -/
def Raises (c c' : Core n) (tval code : BitVec 64) : Prop :=
  c'.hart = { c.hart.trap false tval code (c.hart.pc.setWidth 64) with branch := false }
    ∧ c'.regs = c.regs ∧ c'.mem = c.mem ∧ c'.limit = c.limit ∧ c'.hasC = c.hasC

/-- Address arithmetic modulo 2^xlen. -/
def IsAddr (a : BitVec 64) (n : Nat) (base : BitVec n) (off : Int) : Prop :=
  (a.toNat : Int) = (base.toNat + off) % 2 ^ n

/-- The result on the low words, for registers of 64 bits (on RV32 there are no such
instructions). -/
def LowWord (P : BitVec 64 → BitVec 64 → BitVec 64 → Prop) (a b r : BitVec n) : Prop :=
  n = 64 → P (a.setWidth 64) (b.setWidth 64) (r.setWidth 64)

/-- The second operand and the W operation. -/
def wArgs (c : Core n) (z : Args) : Kind → Option (BitVec 64 × BitVec 64)
  | .rrw _ | .mdw _ => some ((X c z.rs1).setWidth 64, (X c z.rs2).setWidth 64)
  | .riw _ | .shw _ => some ((X c z.rs1).setWidth 64, (BitVec.ofInt n z.imm).setWidth 64)
  | _ => none

/-- The numbers whose 32-bit sum, difference, product or left shift is not representable as the
C++ code needs it (see C27 and C28). -/
def Overflow (k : Kind) (a b : BitVec 64) : Prop :=
  match k with
  | .rrw .addw | .riw .addw =>
    ¬ (-2 ^ 31 ≤ Alu.Spec.word a + Alu.Spec.word b ∧ Alu.Spec.word a + Alu.Spec.word b < 2 ^ 31)
  | .rrw .subw =>
    ¬ (-2 ^ 31 ≤ Alu.Spec.word a - Alu.Spec.word b ∧ Alu.Spec.word a - Alu.Spec.word b < 2 ^ 31)
  | .rrw .sllw | .shw .sllw =>
    ¬ (0 ≤ Alu.Spec.word a ∧ Alu.Spec.word a * 2 ^ (b.toNat % 32) < 2 ^ 32)
  | .mdw .mulw =>
    ¬ (-2 ^ 31 ≤ Alu.Spec.word a * Alu.Spec.word b ∧ Alu.Spec.word a * Alu.Spec.word b < 2 ^ 31)
  | _ => False

/-- The words `add x0, x0, x2` to `add x0, x0, x5`, which the decoders do not know (C71). -/
def Ntl (o : Op) (w : Nat) : Prop :=
  o = .add ∧ rd w = 0#5 ∧ rs1 w = 0#5 ∧ (rs2 w = 2#5 ∨ rs2 w = 3#5 ∨ rs2 w = 4#5 ∨ rs2 w = 5#5)

/-- The effect of an instruction of kind `k` with operands `z`. -/
def Does (x : Xlen) (k : Kind) (z : Args) (c c' : Core x.bits) : Prop :=
  match k with
  | .rr o => Computes c c' z (Alu.Spec.result x.bits o (X c z.rs1) (X c z.rs2))
  | .ri o => Computes c c' z
      (Alu.Spec.result x.bits o (X c z.rs1) (BitVec.ofInt x.bits z.imm))
  | .sh o => Computes c c' z
      (Alu.Spec.result x.bits o (X c z.rs1) (BitVec.ofInt x.bits z.imm))
  | .md o => Computes c c' z (MulDiv.Spec.result x.bits o (X c z.rs1) (X c z.rs2))
  | .rrw o => Computes c c' z (LowWord (Alu.Spec.resultW o) (X c z.rs1) (X c z.rs2))
  | .riw o => Computes c c' z
      (LowWord (Alu.Spec.resultW o) (X c z.rs1) (BitVec.ofInt x.bits z.imm))
  | .shw o => Computes c c' z
      (LowWord (Alu.Spec.resultW o) (X c z.rs1) (BitVec.ofInt x.bits z.imm))
  | .mdw o => Computes c c' z (LowWord (MulDiv.Spec.resultW o) (X c z.rs1) (X c z.rs2))
  | .lui => Computes c c' z fun v => v.toInt = z.imm
  | .auipc => Computes c c' z fun v => (v.toNat : Int) = (c.hart.pc.toNat + z.imm) % 2 ^ x.bits
  | .jal => ∃ t : BitVec x.bits, (t.toNat : Int) = (c.hart.pc.toNat + z.imm) % 2 ^ x.bits ∧
      (¬ Control.Spec.badTarget c.hasC t →
        GoesTo c c' t ∧ ∃ v, IsNext c z.size v ∧ SetsReg c c' z.rd v) ∧
      (Control.Spec.badTarget c.hasC t → Raises c c' (t.setWidth 64) 0#64)
  | .jalr => ∃ s t : BitVec x.bits,
      (s.toNat : Int) = ((X c z.rs1).toNat + z.imm) % 2 ^ x.bits ∧
      t.toNat = s.toNat - s.toNat % 2 ∧
      (¬ Control.Spec.badTarget c.hasC t →
        GoesTo c c' t ∧ ∃ v, IsNext c z.size v ∧ SetsReg c c' z.rd v) ∧
      (Control.Spec.badTarget c.hasC t → Raises c c' (t.setWidth 64) 0#64)
  | .br k => (¬ Control.Spec.taken k (X c z.rs1) (X c z.rs2) →
        ∃ p, IsNext c z.size p ∧ GoesTo c c' p ∧ c'.regs = c.regs) ∧
      (Control.Spec.taken k (X c z.rs1) (X c z.rs2) →
        ∃ t : BitVec x.bits, (t.toNat : Int) = (c.hart.pc.toNat + z.imm) % 2 ^ x.bits ∧
          (¬ Control.Spec.badTarget c.hasC t → GoesTo c c' t ∧ c'.regs = c.regs) ∧
          (Control.Spec.badTarget c.hasC t → ∃ tval, Raises c c' tval 0#64))
  | .ld sz sgn => ∃ a : BitVec 64, IsAddr a x.bits (X c z.rs1) z.imm ∧
      (a.toNat ≤ c.limit.toNat → Computes c c' z fun r =>
        ∃ v, Mem.Spec.Holds c.mem a sz.bytes v ∧ v < 256 ^ sz.bytes ∧
          Mem.Spec.IsExt sgn sz.bytes v r) ∧
      (c.limit.toNat < a.toNat → Raises c c' a 5#64)
  | .st sz => ∃ a : BitVec 64, IsAddr a x.bits (X c z.rs1) z.imm ∧
      (a.toNat ≤ c.limit.toNat → ∃ p m, IsNext c z.size p ∧
        c' = { c with hart := { c.hart with pc := p }, mem := m } ∧
        Mem.Spec.Holds m a sz.bytes (X c z.rs2).toNat ∧
        ∀ b, ¬ Mem.Spec.InRange a sz.bytes b → m b = c.mem b) ∧
      (c.limit.toNat < a.toNat → Raises c c' a 7#64)

/-! ## Compressed instructions

Section 28.8 of the unprivileged manual (tables of quadrants 0 to 2): each 16-bit instruction is
short for one of the above. -/

/-- A register of the full set. -/
def cReg (w : Nat) (b : Nat × Nat) : BitVec 5 := BitVec.ofNat 5 (unsigned w (positions [b]))

/-- One of `x8` to `x15`. -/
def cReg' (w : Nat) (b : Nat × Nat) : BitVec 5 := BitVec.ofNat 5 (8 + unsigned w (positions [b]))

def cRd (w : Nat) : BitVec 5 := cReg w (11, 7)
def cRs2 (w : Nat) : BitVec 5 := cReg w (6, 2)
def cRs1' (w : Nat) : BitVec 5 := cReg' w (9, 7)
def cRs2' (w : Nat) : BitVec 5 := cReg' w (4, 2)

def sp : BitVec 5 := 2#5

/-- imm[5] | imm[4:0] -/
def cImm (w : Nat) : Int := signed w (positions [(12, 12), (6, 2)])
def cShamt (w : Nat) : Nat := unsigned w (positions [(12, 12), (6, 2)])
/-- uimm[5] | uimm[4:2|7:6] and the like for c.lwsp, c.ldsp, c.swsp, c.sdsp -/
def cLwsp (w : Nat) : Nat := unsigned w (positions [(3, 2), (12, 12), (6, 4)]) * 4
def cLdsp (w : Nat) : Nat := unsigned w (positions [(4, 2), (12, 12), (6, 5)]) * 8
def cSwsp (w : Nat) : Nat := unsigned w (positions [(8, 7), (12, 9)]) * 4
def cSdsp (w : Nat) : Nat := unsigned w (positions [(9, 7), (12, 10)]) * 8
/-- uimm[5:3] | uimm[2|6] -/
def cLw (w : Nat) : Nat := unsigned w (positions [(5, 5), (12, 10), (6, 6)]) * 4
/-- uimm[5:3] | uimm[7:6] -/
def cLd (w : Nat) : Nat := unsigned w (positions [(6, 5), (12, 10)]) * 8
/-- nzuimm[5:4|9:6|2|3] -/
def cSpn (w : Nat) : Nat := unsigned w (positions [(10, 7), (12, 11), (5, 5), (6, 6)]) * 4
/-- nzimm[9] | nzimm[4|6|8:7|5] -/
def cSp16 (w : Nat) : Int := signed w (positions [(12, 12), (4, 3), (5, 5), (2, 2), (6, 6)]) * 16
/-- imm[8|4:3] | imm[7:6|2:1|5] -/
def cImmB (w : Nat) : Int := signed w (positions [(12, 12), (6, 5), (2, 2), (11, 10), (4, 3)]) * 2
/-- imm[11|4|9:8|10|6|7|3:1|5] -/
def cImmJ (w : Nat) : Int :=
  signed w (positions [(12, 12), (8, 8), (10, 9), (6, 6), (7, 7), (2, 2), (11, 11), (5, 3)]) * 2

/-- What a compressed instruction is short for. -/
def expand : Xlen → Op → Nat → Option (Kind × Args)
  | _, .caddi4spn, w => some (.ri .add, { rd := cRs2' w, rs1 := sp, imm := cSpn w, size := 2 })
  | _, .clw, w => some (.ld .w true, { rd := cRs2' w, rs1 := cRs1' w, imm := cLw w, size := 2 })
  | .rv64, .cld, w => some (.ld .d true, { rd := cRs2' w, rs1 := cRs1' w, imm := cLd w, size := 2 })
  | _, .csw, w => some (.st .w, { rs1 := cRs1' w, rs2 := cRs2' w, imm := cLw w, size := 2 })
  | .rv64, .csd, w => some (.st .d, { rs1 := cRs1' w, rs2 := cRs2' w, imm := cLd w, size := 2 })
  | _, .cnop, w => some (.ri .add, { imm := cImm w, size := 2 })
  | _, .caddi, w => some (.ri .add, { rd := cRd w, rs1 := cRd w, imm := cImm w, size := 2 })
  | .rv32, .cjal, w => some (.jal, { rd := 1#5, imm := cImmJ w, size := 2 })
  | .rv64, .caddiw, w => some (.riw .addw, { rd := cRd w, rs1 := cRd w, imm := cImm w, size := 2 })
  | _, .cli, w => some (.ri .add, { rd := cRd w, imm := cImm w, size := 2 })
  | _, .caddi16sp, w => some (.ri .add, { rd := sp, rs1 := sp, imm := cSp16 w, size := 2 })
  | _, .clui, w => some (.lui, { rd := cRd w, imm := cImm w * 4096, size := 2 })
  | _, .csrli, w => some (.sh .srl, { rd := cRs1' w, rs1 := cRs1' w, imm := cShamt w, size := 2 })
  | _, .csrai, w => some (.sh .sra, { rd := cRs1' w, rs1 := cRs1' w, imm := cShamt w, size := 2 })
  | _, .candi, w => some (.ri .and, { rd := cRs1' w, rs1 := cRs1' w, imm := cImm w, size := 2 })
  | _, .csub, w => some (.rr .sub, { rd := cRs1' w, rs1 := cRs1' w, rs2 := cRs2' w, size := 2 })
  | _, .cxor, w => some (.rr .xor, { rd := cRs1' w, rs1 := cRs1' w, rs2 := cRs2' w, size := 2 })
  | _, .cor, w => some (.rr .or, { rd := cRs1' w, rs1 := cRs1' w, rs2 := cRs2' w, size := 2 })
  | _, .cand, w => some (.rr .and, { rd := cRs1' w, rs1 := cRs1' w, rs2 := cRs2' w, size := 2 })
  | .rv64, .csubw, w => some (.rrw .subw, { rd := cRs1' w, rs1 := cRs1' w, rs2 := cRs2' w, size := 2 })
  | .rv64, .caddw, w => some (.rrw .addw, { rd := cRs1' w, rs1 := cRs1' w, rs2 := cRs2' w, size := 2 })
  | _, .cj, w => some (.jal, { imm := cImmJ w, size := 2 })
  | _, .cbeqz, w => some (.br .eq, { rs1 := cRs1' w, imm := cImmB w, size := 2 })
  | _, .cbnez, w => some (.br .ne, { rs1 := cRs1' w, imm := cImmB w, size := 2 })
  | _, .cslli, w => some (.sh .sll, { rd := cRd w, rs1 := cRd w, imm := cShamt w, size := 2 })
  | _, .clwsp, w => some (.ld .w true, { rd := cRd w, rs1 := sp, imm := cLwsp w, size := 2 })
  | .rv64, .cldsp, w => some (.ld .d true, { rd := cRd w, rs1 := sp, imm := cLdsp w, size := 2 })
  | _, .cjr, w => some (.jalr, { rs1 := cRd w, size := 2 })
  | _, .cmv, w => some (.rr .add, { rd := cRd w, rs2 := cRs2 w, size := 2 })
  | _, .cjalr, w => some (.jalr, { rd := 1#5, rs1 := cRd w, size := 2 })
  | _, .cadd, w => some (.rr .add, { rd := cRd w, rs1 := cRd w, rs2 := cRs2 w, size := 2 })
  | _, .cswsp, w => some (.st .w, { rs1 := sp, rs2 := cRs2 w, imm := cSwsp w, size := 2 })
  | .rv64, .csdsp, w => some (.st .d, { rs1 := sp, rs2 := cRs2 w, imm := cSdsp w, size := 2 })
  | _, _, _ => none

/-- The 16-bit words that the decoders do not know (C71): four hints of `c.add`, and shifts by 0. -/
def Unknown (x : Xlen) (o : Op) (w : Nat) : Prop :=
  (o = .cadd ∧ cRd w = 0#5 ∧ (cRs2 w = 2#5 ∨ cRs2 w = 3#5 ∨ cRs2 w = 4#5 ∨ cRs2 w = 5#5)) ∨
  (o = .cslli ∧ x = .rv32 ∧ cRd w = 0#5 ∧ cShamt w = 0) ∨
  ((o = .cslli ∨ o = .csrli ∨ o = .csrai) ∧ x = .rv64 ∧ cShamt w = 0)

/-- The instruction at the program counter, whose first four bytes are `w`, is of kind `k` with
operands `z`, and none of the words that are left out. -/
inductive Is (x : Xlen) (w : Nat) : Kind → Args → Prop where
  | word (o : Op) (k : Kind) (h : kind x o = some k) (hl : Listed x o w) (hn : ¬ Ntl o w) :
      Is x w k (args x k w)
  | half (o : Op) (k : Kind) (z : Args) (h : expand x o (w % 2 ^ 16) = some (k, z))
      (hl : Listed x o (w % 2 ^ 16)) (hn : ¬ Unknown x o (w % 2 ^ 16)) : Is x w k z

/-- The instruction does not run into one of the overflows. -/
def NoOverflow {x : Xlen} (c : Core x.bits) (k : Kind) (z : Args) : Prop :=
  ∀ a b, wArgs c z k = some (a, b) → ¬ Overflow k a b

/-- The word belongs to an instruction of kind `k`. -/
def Means (x : Xlen) (w : Nat) (k : Kind) : Prop := ∃ o, kind x o = some k ∧ Listed x o w

/-- The word is one of the instructions, and none of the words and values that are left out. -/
def Fine (x : Xlen) (c : Core x.bits) (w : Nat) : Prop :=
  ∃ o k, kind x o = some k ∧ Listed x o w ∧ ¬ Ntl o w ∧
    ∀ a b, wArgs c (args x k w) k = some (a, b) → ¬ Overflow k a b

/-- Each state of the sequence `cs`, which starts after `c`, follows from the one before. -/
def Chain {α : Type} (R : α → α → Prop) (c : α) : List α → Prop
  | [] => True
  | d :: cs => R c d ∧ Chain R d cs

end Verif.Exec.Spec
