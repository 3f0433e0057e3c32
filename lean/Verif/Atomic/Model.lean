import Verif.Mem.Model
/-
Atomic memory operations (riscv/riscv_a_instructions.cc with the instruction tables of
riscv/riscv32g.isa:473-548 and riscv/riscv64g.isa:558-688).

The memory side (`util::AtomicMemoryOpInterface`) belongs to mpact-sim and is not part of this code
base: it is a parameter `dev`, and what is needed of it is written down as `Spec.Contract`.
-/
namespace Verif.Atomic
open Verif.Core

/-- `AtomicMemoryOpInterface::Operation`. -/
inductive AOp where
  | loadLinked | storeConditional | swap | add | and | or | xor | max | maxu | min | minu
  deriving DecidableEq, Repr

/-- `PerformMemoryOp(address, op, db, …)`: address, operation, size of `db` in bytes and, when the
instruction has a store value, its content. -/
structure Request where
  addr : BitVec 64
  op : AOp
  bytes : Nat
  operand : Option Nat
  deriving DecidableEq, Repr

/-- The memory side: reservation state and memory; `none` is the status Unimplemented, and the number
is what it leaves in `db` for the child instruction. -/
abbrev Device (ρ : Type) := ρ × Memory → Request → Option ((ρ × Memory) × Nat)

inductive Insn where
  | lr | sc | amoswap | amoadd | amoand | amoor | amoxor | amomax | amomaxu | amomin | amominu
  deriving DecidableEq, Repr

/-- Operation and `has_store_value` of each semantic function (riscv_a_instructions.cc:71-182; the W
and D versions differ in the type parameter only). -/
def semOp (i : Insn) : AOp × Bool :=
  match i with
  | .lr => (.loadLinked, false)
  | .sc => (.storeConditional, true)
  | .amoswap => (.swap, true)
  | .amoadd => (.add, true)
  | .amoand => (.and, true)
  | .amoor => (.or, true)
  | .amoxor => (.xor, true)
  | .amomax => (.max, true)
  | .amomaxu => (.maxu, true)
  | .amomin => (.min, true)
  | .amominu => (.minu, true)

variable {w : Nat} {ρ : Type}

/-- State: the core and the reservation state of the memory. -/
structure St (w : Nat) (ρ : Type) where
  core : Core w
  resv : ρ

/-- `AInstructionHelper` (riscv_a_instructions.cc:37-69) followed by the child instruction
`RiscVILwChild` or `RiscVILdChild` (the ISA tables cited above; signed, riscv_i_instructions.cc).
`sz` is the size of the W or D version. `dev = none` is a null `atomic_memory()`. -/
def exec (dev : Option (Device ρ)) (s : St w ρ) (i : Insn) (sz : Mem.Size) (rd rs1 rs2 : BitVec 5)
    (epc : BitVec 64) (handled : Bool := false) : St w ρ :=
  match dev with
  | none => { s with core := raise s.core 0#64 2#64 epc handled }
  | some d =>
    let address := (Regs.read s.core.regs rs1).setWidth 64
    let operand := if (semOp i).2 then some ((Regs.read s.core.regs rs2).toNat % 2 ^ (8 * sz.bytes)) else none
    match d (s.resv, s.core.mem) ⟨address, (semOp i).1, sz.bytes, operand⟩ with
    | none => { s with core := raise s.core 0#64 2#64 epc handled }
    | some ((r, m), v) =>
      { resv := r
        core := { s.core with mem := m, regs := Regs.write s.core.regs rd (Mem.extend w true sz.bytes v) } }

end Verif.Atomic
