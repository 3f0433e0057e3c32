/-
Model of the counter CSRs (riscv/riscv_counter_csr.h). A counter CSR holds no count of its own: it
adds an offset to a 64-bit event counter owned by the simulator (`SimpleCounter<uint64_t>`), which
is incremented once per event and never otherwise changed.

A counter CSR that is not tied to an event counter (`counter_ == nullptr`) behaves as if tied to one
that stays zero.
-/
namespace Verif.Counter

/-- `RiscVCounterCsr<T>` with `T` of `w` bits: member `offset_` (riscv_counter_csr.h:63). -/
structure Low (w : Nat) where
  offset : BitVec w
deriving DecidableEq, Repr

variable {w : Nat}

/-- `GetCounterValue` (riscv_counter_csr.h:66-69). -/
def cv (w : Nat) (counter : BitVec 64) : BitVec w := counter.setWidth w

/-- `GetUint32/GetUint64` at the width of the CSR (riscv_counter_csr.h:45-51); the default read mask
is all ones, so `AsUint*` is the same. -/
def Low.get (x : Low w) (counter : BitVec 64) : BitVec w := cv w counter + x.offset

/-- `RiscVCounterCsr::Set` (riscv_counter_csr.h:55-58). `Write` reaches it with an all-ones write mask
(riscv_csr.h:450-457). -/
def Low.set (_ : Low w) (counter : BitVec 64) (v : BitVec w) : Low w := ⟨v - cv w counter⟩

/-- `RiscVPerformanceCounterCsr::Set` (riscv_counter_csr.h:86-93). -/
def Low.perfSet (x : Low w) (counter : BitVec 64) (v : BitVec w) : Low w :=
  ⟨(x.set counter v).offset - 1⟩

/-- The correction made for every exception (riscv_state.cc:668-680):
`minstret->Set(minstret->AsUint64())`. -/
def Low.onException (x : Low w) (counter : BitVec 64) : Low w := x.perfSet counter (x.get counter)

/-- The two CSRs of an RV32 counter: the low one and `RiscVCounterCsrHigh::offset_`
(riscv_counter_csr.h:140). -/
structure Pair where
  low : Low 32
  offset : BitVec 64
deriving DecidableEq, Repr

/-- `RiscVCounterCsrHigh::GetUint32` (riscv_counter_csr.h:108-113). -/
def Pair.getHigh (p : Pair) (counter : BitVec 64) : BitVec 32 :=
  let offset := (p.offset <<< 32) ||| p.low.offset.setWidth 64
  let value64 := counter + offset
  (value64 >>> 32).setWidth 32

/-- The carry test of `RiscVCounterCsrHigh::Set` (riscv_counter_csr.h:120-124). -/
def Pair.carry (p : Pair) (counter : BitVec 64) : Bool :=
  0x100000000#64 ≤ (counter.setWidth 32).setWidth 64 + p.low.offset.setWidth 64

/-- `RiscVCounterCsrHigh::Set` (riscv_counter_csr.h:118-127). -/
def Pair.setHigh (p : Pair) (counter : BitVec 64) (v : BitVec 32) : Pair :=
  { p with offset := v.setWidth 64 - (counter >>> 32) - (if p.carry counter then 1 else 0) }

/-- `RiscVPerformanceCounterCsrHigh::Set` (riscv_counter_csr.h:163-175). -/
def Pair.perfSetHigh (p : Pair) (counter : BitVec 64) (v : BitVec 32) : Pair :=
  let o := v.setWidth 64 - (counter >>> 32) - (if p.carry counter then 1 else 0)
  let o := if p.low.offset = 0 then o - 1 else o
  { low := ⟨p.low.offset - 1⟩, offset := o }

/-- Low half accesses go to the low CSR only. -/
def Pair.getLow (p : Pair) (counter : BitVec 64) : BitVec 32 := p.low.get counter
def Pair.setLow (p : Pair) (counter : BitVec 64) (v : BitVec 32) : Pair :=
  { p with low := p.low.set counter v }
def Pair.perfSetLow (p : Pair) (counter : BitVec 64) (v : BitVec 32) : Pair :=
  { p with low := p.low.perfSet counter v }

/-! ### Histories -/

/-- What an instruction does to a counter. A write or an exception takes place while the
instruction executes; the event counter is incremented afterwards (riscv_top.cc ExecuteInstruction
and 336-337). -/
inductive Op (w : Nat) where
  | plain
  | write (v : BitVec w)
  | exception
deriving DecidableEq, Repr

/-- Event counter and CSR. -/
structure State (α : Type) where
  counter : BitVec 64
  csr : α
deriving DecidableEq, Repr

/-- One instruction, seen by a performance counter CSR (minstret, mcycle, cycle, instret). -/
def perfStep (s : State (Low w)) : Op w → State (Low w)
  | .plain => { s with counter := s.counter + 1 }
  | .write v => { counter := s.counter + 1, csr := s.csr.perfSet s.counter v }
  | .exception => { counter := s.counter + 1, csr := s.csr.onException s.counter }

def perfRun (s : State (Low w)) (l : List (Op w)) : State (Low w) := l.foldl perfStep s

/-- What happens to a plain counter CSR (time, hpmcounterN): events and writes in any order. -/
def eventStep (s : State (Low w)) : Option (BitVec w) → State (Low w)
  | none => { s with counter := s.counter + 1 }
  | some v => { s with csr := s.csr.set s.counter v }

def eventRun (s : State (Low w)) (l : List (Option (BitVec w))) : State (Low w) :=
  l.foldl eventStep s

/-- RV32 instructions, seen by a performance counter CSR pair. -/
inductive Op32 where
  | plain
  | writeLow (v : BitVec 32)
  | writeHigh (v : BitVec 32)
  | exception
deriving DecidableEq, Repr

def perfStep32 (s : State Pair) : Op32 → State Pair
  | .plain => { s with counter := s.counter + 1 }
  | .writeLow v => { counter := s.counter + 1, csr := s.csr.perfSetLow s.counter v }
  | .writeHigh v => { counter := s.counter + 1, csr := s.csr.perfSetHigh s.counter v }
  | .exception =>
    { counter := s.counter + 1, csr := { s.csr with low := s.csr.low.onException s.counter } }

def perfRun32 (s : State Pair) (l : List Op32) : State Pair := l.foldl perfStep32 s

/-- The two views of retired instructions: CSR minstret and CSR instret, tied to the same event
counter (riscv_top.cc:156,160) but with offsets of their own (riscv_state.cc:234, 281). A write
instruction names minstret; the exception correction names minstret only (riscv_state.cc:668-680). -/
def viewStep (s : State (Low 64 × Low 64)) (o : Op 64) : State (Low 64 × Low 64) :=
  { counter := s.counter + 1
    csr := ((perfStep ⟨s.counter, s.csr.1⟩ o).csr, s.csr.2) }

def viewRun (s : State (Low 64 × Low 64)) (l : List (Op 64)) : State (Low 64 × Low 64) :=
  l.foldl viewStep s

end Verif.Counter
