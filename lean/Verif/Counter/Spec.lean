import Verif.Counter.Model
/-
Specification: a counter is a number that counts.
-/
namespace Verif.Counter.Spec

variable {w : Nat}

/-- Effect of one instruction on a retirement counter: the written value is what the next
instruction reads, an instruction that traps does not count, every other one counts. -/
def retire (n : BitVec w) : Op w → BitVec w
  | .plain => n + 1
  | .write v => v
  | .exception => n

/-- Effect of one event or one write on an event counter. -/
def event (n : BitVec w) : Option (BitVec w) → BitVec w
  | none => n + 1
  | some v => v

/-- 64-bit number from two halves. -/
def join (hi lo : BitVec 32) : BitVec 64 := hi ++ lo

/-- A 64-bit retirement counter accessed as two halves. -/
def retire32 (n : BitVec 64) : Op32 → BitVec 64
  | .plain => n + 1
  | .writeLow v => join (n.extractLsb' 32 32) v
  | .writeHigh v => join v (n.extractLsb' 0 32)
  | .exception => n

/-- What software reads from the two halves. -/
def value (s : State Pair) : BitVec 64 := join (s.csr.getHigh s.counter) (s.csr.getLow s.counter)

end Verif.Counter.Spec
