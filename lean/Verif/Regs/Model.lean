/-
The integer register file as instructions see it.

Operand getters: a source operand naming x0 is a literal zero and a destination operand naming x0 is
the dummy register "X0Dest" (riscv/riscv32g_encoding.cc:444-455 and the getters of
riscv/riscv_getters.h, the same for RV64), so x0 itself is never written.
-/
namespace Verif.Regs

/-- Registers x0..x31 of `w` bits. -/
abbrev File (w : Nat) := BitVec 5 → BitVec w

variable {w : Nat}

/-- Value of a register source operand. -/
def read (f : File w) (r : BitVec 5) : BitVec w := if r = 0#5 then 0#w else f r

/-- Write through a register destination operand. -/
def write (f : File w) (r : BitVec 5) (v : BitVec w) : File w :=
  if r = 0#5 then f else fun s => if s = r then v else f s

/-- Second source operand: a register or an immediate, already extended to `w` bits. -/
inductive Src (w : Nat) where
  | reg (r : BitVec 5)
  | imm (v : BitVec w)

def Src.value (f : File w) : Src w → BitVec w
  | .reg r => read f r
  | .imm v => v

theorem read_write (f : File w) (r s : BitVec 5) (v : BitVec w) :
    read (write f r v) s = if s = 0#5 then 0#w else if s = r then v else read f s := by
  unfold read write
  by_cases h0 : s = 0#5
  · simp [h0]
  · by_cases h1 : r = 0#5
    · subst h1; simp [h0]
    · simp [h0, h1]

end Verif.Regs
