import Verif.Operands.Tables

/-!
# Operands of a decoded instruction and their use

The generated decoder gives each `Instruction` (and each child instruction) one
operand object for each operand its description names, in the order of the
description; `[rlist]` gives one for each register of the list
(riscv_zc.isa:329-388).  A semantic function reaches them by position.
`Instruction::Source(i)` and `Destination(i)` of mpact-sim index a vector
without a check (assumed), so a position past the end is undefined behaviour.

Simplification: a use that the function makes only on some paths (after an
early return, under a condition on the machine state) is counted as made.  Only
the conditions on the number of operands are kept.
-/

namespace Verif.Operands

/-- Operands supplied when a register list has `r` registers. -/
def supplied (r : Nat) (l : List Arg) : List Arg :=
  l.flatMap fun a => match a with
    | .regs => List.replicate r .regs
    | a => [a]

/-- A position in the list of sources or in that of destinations. -/
inductive Use where
  | src (i : Int)
  | dst (i : Int)
  deriving DecidableEq, Repr

/-- Positions used, of `ns` sources and `nd` destinations
(riscv_instruction_helpers.h, riscv_vector_instruction_helpers.h:60-66,108-112,
176-184, riscv_zc_instructions.cc:46-126). -/
def Acc.uses (ns nd : Nat) : Acc → List Use
  | .src k => [.src k]
  | .dst k => [.dst k]
  | .srcOver n k => if n < ns then [.src k] else []
  | .srcUpTo n k => if n < ns then [] else [.src k]
  | .srcFrom k => (List.range (ns - k)).map fun i => .src (i + k : Nat)
  | .dstBelow m => (List.range (nd - m)).map fun i => .dst (i : Nat)
  | .dstFromEnd m k => [.dst ((nd : Int) - m + k)]

/-- The name of a function. -/
def Code.name : Code → String
  | .mk n _ _ => n

mutual
  /-- All uses in a function and in the functions it hands its instruction to. -/
  def Code.accs : Code → List Acc
    | .mk _ own calls => own ++ accsAll calls

  def accsAll : List Code → List Acc
    | [] => []
    | c :: cs => c.accs ++ accsAll cs
end

/-- Positions a function uses when it carries out an instruction that has `ns`
sources and `nd` destinations. -/
def Code.uses (ns nd : Nat) (c : Code) : List Use :=
  c.accs.flatMap (Acc.uses ns nd)

/-- Positions used when an instruction (or its write-back part) is carried out,
with `r` registers in the register list. -/
def Phase.uses (r : Nat) (p : Phase) : List Use :=
  match p.fn with
  | none => []
  | some c => c.uses (supplied r p.srcs).length (supplied r p.dsts).length

end Verif.Operands
