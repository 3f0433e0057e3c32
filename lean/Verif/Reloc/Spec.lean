/-!
# Relocations of the RISC-V ELF psABI

Written from the table of relocation types and the description of relocation functions in the
psABI and the assembly programmer's manual.
-/

namespace Verif.Reloc.Spec

/-- Classes of instructions by the relocations that apply to them. -/
inductive Class where
  /-- lui -/
  | upper
  /-- auipc -/
  | pcUpper
  /-- addi, jalr, loads: a 12-bit immediate of the I format -/
  | lowI
  /-- stores: a 12-bit immediate of the S format -/
  | lowS
  /-- jal -/
  | jump
  /-- conditional branches -/
  | branch
deriving DecidableEq, Repr

/-- The type of the relocation for `%function(symbol)`, or for a bare symbol (`none`), if
the instruction accepts it. -/
def type : Class → Option String → Option Nat
  | .upper, some "hi" => some 26        -- R_RISCV_HI20
  | .pcUpper, some "pcrel_hi" => some 23 -- R_RISCV_PCREL_HI20
  | .lowI, some "lo" => some 27          -- R_RISCV_LO12_I
  | .lowI, some "pcrel_lo" => some 24    -- R_RISCV_PCREL_LO12_I
  | .lowS, some "lo" => some 28          -- R_RISCV_LO12_S
  | .lowS, some "pcrel_lo" => some 25    -- R_RISCV_PCREL_LO12_S
  | .jump, none => some 17               -- R_RISCV_JAL
  | .branch, none => some 16             -- R_RISCV_BRANCH
  | _, _ => none

/-- A symbol: a letter or underscore, then letters, digits and underscores. -/
def Symbol (s : List Char) : Prop :=
  ∃ c t, s = c :: t ∧ (c.isAlpha ∨ c = '_') ∧ ∀ x ∈ t, x.isAlphanum ∨ x = '_'

end Verif.Reloc.Spec
