import Verif.Core.Model
/-
Loads and stores: the physical address limit of `RiscVState` (riscv/riscv_state.cc:515-575) and the
integer load/store instructions (riscv/riscv_instruction_helpers.h:374-426,
riscv/riscv_i_instructions.cc:430-585).
-/
namespace Verif.Mem
open Verif.Core

variable {w : Nat}

/-- `kLoadAccessFault`, `kStoreAccessFault` (riscv_state.h). -/
def kLoadFault : BitVec 64 := 5#64
def kStoreFault : BitVec 64 := 7#64

/-- `kRiscv32MaxMemorySize`, `kRiscv64MaxMemorySize` (riscv_state.cc:436-437). -/
def maxSize (w : Nat) : BitVec 64 := if w = 32 then 0x3fffffffff#64 else 0x00ffffffffffffff#64

/-- `set_max_physical_address` (riscv_state.cc:515-528). -/
def setLimit (c : Core w) (v : BitVec 64) : Core w :=
  { c with limit := if (maxSize w).ult v then maxSize w else v }

/-- Outcome of a scalar load as seen by the instruction: the value delivered to the child
instruction, or the core after the trap. -/
inductive Loaded (w : Nat) (α : Type) where
  | value (v : α)
  | trapped (c : Core w)

/-- Scalar `LoadMemory` (riscv_state.cc:530-539); `n` bytes. -/
def load (c : Core w) (a : BitVec 64) (n : Nat) (epc : BitVec 64) (handled : Bool) : Loaded w Nat :=
  if c.limit.ult a then .trapped (raise c a kLoadFault epc handled) else .value (readLE c.mem a n)

/-- Scalar `StoreMemory` (riscv_state.cc:554-562). -/
def store (c : Core w) (a : BitVec 64) (n v : Nat) (epc : BitVec 64) (handled : Bool) : Core w :=
  if c.limit.ult a then raise c a kStoreFault epc handled else { c with mem := writeLE c.mem a n v }

/-- One element of a vector access: address, mask bit, data. -/
structure Elem where
  addr : BitVec 64
  active : Bool
  data : Nat
  deriving DecidableEq, Repr

/-- What the memory does with a vector load: the active elements are read
(mpact-sim `MemoryInterface::Load(address_db, mask_db, …)`, not part of this code base). -/
def gather (m : Memory) (es : List Elem) (n : Nat) : List (Option Nat) :=
  es.map (fun e => if e.active then some (readLE m e.addr n) else none)

/-- And with a vector store: the active elements are written in order. -/
def scatter (m : Memory) (es : List Elem) (n : Nat) : Memory :=
  es.foldl (fun m e => if e.active then writeLE m e.addr n e.data else m) m

/-- Vector `LoadMemory` (riscv_state.cc:541-552): every address is checked, whatever the mask. -/
def loadV (c : Core w) (es : List Elem) (n : Nat) (epc : BitVec 64) (handled : Bool) :
    Loaded w (List (Option Nat)) :=
  match es.find? (fun e => c.limit.ult e.addr) with
  | some e => .trapped (raise c e.addr kLoadFault epc handled)
  | none => .value (gather c.mem es n)

/-- Vector `StoreMemory` (riscv_state.cc:564-575). -/
def storeV (c : Core w) (es : List Elem) (n : Nat) (epc : BitVec 64) (handled : Bool) : Core w :=
  match es.find? (fun e => c.limit.ult e.addr) with
  | some e => raise c e.addr kStoreFault epc handled
  | none => { c with mem := scatter c.mem es n }

/-- Access sizes. -/
inductive Size where
  | b | h | w | d
  deriving DecidableEq, Repr

def Size.bytes : Size → Nat
  | .b => 1 | .h => 2 | .w => 4 | .d => 8

/-- The effective address (riscv_instruction_helpers.h:379-381, 413-415): added at xlen bits, then
passed as a 64-bit value. -/
def ea (c : Core w) (rs1 : BitVec 5) (off : BitVec w) : BitVec 64 := (Regs.read c.regs rs1 + off).setWidth 64

/-- Extension of the loaded bytes to xlen (`RVLoadChild`, riscv_instruction_helpers.h:393-409). -/
def extend (w : Nat) (sgn : Bool) (n v : Nat) : BitVec w :=
  if sgn then (BitVec.ofNat (8 * n) v).signExtend w else (BitVec.ofNat (8 * n) v).setWidth w

/-- `RVLoad` followed by `RVLoadChild`: lb, lh, lw, ld (signed) and lbu, lhu, lwu. On RV32 the
semantic functions of lw and lwu coincide. The zero latency makes the child run at once. -/
def execLoad (c : Core w) (sz : Size) (sgn : Bool) (rd rs1 : BitVec 5) (off : BitVec w)
    (epc : BitVec 64) (handled : Bool := false) : Core w :=
  match load c (ea c rs1 off) sz.bytes epc handled with
  | .trapped c' => c'
  | .value v => { c with regs := Regs.write c.regs rd (extend w sgn sz.bytes v) }

/-- `RVStore`: sb, sh, sw, sd. -/
def execStore (c : Core w) (sz : Size) (rs2 rs1 : BitVec 5) (off : BitVec w) (epc : BitVec 64)
    (handled : Bool := false) : Core w :=
  store c (ea c rs1 off) sz.bytes ((Regs.read c.regs rs2).toNat % 2 ^ (8 * sz.bytes)) epc handled

end Verif.Mem
