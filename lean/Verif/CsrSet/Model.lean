/-
Model of `RiscVCsrSet` (riscv/riscv_csr.h:598-618, riscv/riscv_csr.cc:70-116).
-/
namespace Verif.CsrSet

/-- A CSR object as seen by the registry: its identity (the pointer), and the name and
index it reports. Names and indices of a CSR object are constant (riscv_csr.h:361-362). -/
structure Csr where
  ptr : Nat
  name : String
  index : Nat
deriving DecidableEq, Repr

/-- The two hash maps of the registry (riscv_csr.h:614-616), as finite-map functions. -/
structure State where
  byIndex : Nat → Option Csr
  byName : String → Option Csr

/-- An empty registry. -/
def State.empty : State := ⟨fun _ => none, fun _ => none⟩

/-- Update of a map at one key. -/
def upd {α β : Type} [DecidableEq α] (f : α → β) (k : α) (v : β) : α → β :=
  fun x => if x = k then v else f x

/-- Result of a call. `ub` is the undefined behaviour of erasing the end iterator. -/
inductive Res where
  | ok
  | invalidArgument
  | alreadyExists
  | notFound
  | found (c : Csr)
  | ub
deriving DecidableEq, Repr

/-- Calls of the registry's interface; `add none` is `AddCsr(nullptr)`. -/
inductive Call where
  | add (c : Option Csr)
  | remove (i : Nat)
  | getIndex (i : Nat)
  | getName (n : String)

/-- `AddCsr` (riscv_csr.cc:70-88). -/
def addCsr (s : State) : Option Csr → Res × State
  | none => (.invalidArgument, s)
  | some c =>
    match s.byIndex c.index, s.byName c.name with
    | some _, _ => (.alreadyExists, s)
    | none, some _ => (.alreadyExists, s)
    | none, none => (.ok, ⟨upd s.byIndex c.index (some c), upd s.byName c.name (some c)⟩)

/-- `RemoveCsr` (riscv_csr.cc:106-116). -/
def removeCsr (s : State) (i : Nat) : Res × State :=
  match s.byIndex i with
  | none => (.notFound, s)
  | some c =>
    match s.byName c.name with
    | none => (.ub, s)   -- `csr_name_map_.erase(csr_name_map_.end())`
    | some _ => (.ok, ⟨upd s.byIndex i none, upd s.byName c.name none⟩)

/-- `GetCsr(uint64_t)` (riscv_csr.cc:98-104). -/
def getIndex (s : State) (i : Nat) : Res :=
  match s.byIndex i with
  | none => .notFound
  | some c => .found c

/-- `GetCsr(string_view)` (riscv_csr.cc:90-96). -/
def getName (s : State) (n : String) : Res :=
  match s.byName n with
  | none => .notFound
  | some c => .found c

/-- One call. -/
def step (s : State) : Call → Res × State
  | .add c => addCsr s c
  | .remove i => removeCsr s i
  | .getIndex i => (getIndex s i, s)
  | .getName n => (getName s n, s)

/-- Results of a sequence of calls. -/
def run (s : State) : List Call → List Res
  | [] => []
  | c :: cs => (step s c).1 :: run (step s c).2 cs

end Verif.CsrSet
