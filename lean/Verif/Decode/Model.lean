import Verif.BinFmt.Lemmas
import Verif.Decode.Ops

/-!
# Instruction patterns

An instruction of a `.bin_fmt` file is a format and a list of constraints on
its fields.  A word matches when every constraint holds.  The (external)
decoder generator produces code that finds an instruction whose constraints
hold; which one it finds when several do is not known from this repository.
-/

namespace Verif.Decode

open BinFmt

/-- Comparison operators of constraints. -/
inductive Rel where
  | eq | ne | lt | le | gt | ge
  deriving DecidableEq, Repr

/-- The meaning of a comparison. -/
def Rel.eval : Rel → Nat → Nat → Bool
  | .eq, a, b => a == b
  | .ne, a, b => a != b
  | .lt, a, b => decide (a < b)
  | .le, a, b => decide (a ≤ b)
  | .gt, a, b => decide (b < a)
  | .ge, a, b => decide (b ≤ a)

/-- The right side of a constraint (numbers e.g. riscv32g.bin_fmt:45; fields
riscv_zc.bin_fmt, `cm_mvsa01`). -/
inductive Rhs where
  | num (n : Nat)
  | fld (f : Fld)
  deriving DecidableEq, Repr

/-- A constraint on a field. -/
structure Con where
  lhs : Fld
  rel : Rel
  rhs : Rhs
  deriving DecidableEq, Repr

/-- An instruction: name, format, constraints. -/
structure Inst where
  op : Op
  fmt : Fmt
  cons : List Con
  deriving DecidableEq, Repr

/-- The value of a field in a word. -/
def fieldValue (f : Format) (n : Fld) (w : Nat) : Option Nat := (f.bits n).map (value w)

/-- The right side of a constraint in a word. -/
def Rhs.value (f : Format) (w : Nat) : Rhs → Option Nat
  | .num n => some n
  | .fld n => fieldValue f n w

/-- Whether a constraint holds of a word. -/
def Con.holds (f : Format) (w : Nat) (c : Con) : Bool :=
  match fieldValue f c.lhs w, c.rhs.value f w with
  | some a, some b => c.rel.eval a b
  | _, _ => false

/-- Whether a word matches an instruction. -/
def Inst.matches (i : Inst) (w : Nat) : Bool := i.cons.all (Con.holds i.fmt.decl w)

end Verif.Decode
