import Verif.Xip.Model
/-
Specification of mip.SEIP: a software-writable bit, plus an external line (RISC-V privileged
manual, "Machine Interrupt Registers": the value read is the OR, but only the software-writable
bit takes part in the read-modify-write of a CSR instruction).
-/
namespace Verif.Xip.Spec
open Verif.Csr (Op)

/-- The software bit and the line. -/
structure Seip where
  soft : Bool
  line : Bool

/-- What each event does to the software bit and the line. -/
def step (s : Seip) : MipEvent → Seip
  | .csr (.write32 v) => { s with soft := v.getLsbD 9 }
  | .csr (.write64 v) => { s with soft := v.getLsbD 9 }
  | .csr (.setBits32 v) => { s with soft := s.soft || v.getLsbD 9 }
  | .csr (.setBits64 v) => { s with soft := s.soft || v.getLsbD 9 }
  | .csr (.clearBits32 v) => { s with soft := s.soft && !v.getLsbD 9 }
  | .csr (.clearBits64 v) => { s with soft := s.soft && !v.getLsbD 9 }
  | .setBit k v => if k = 9 then { s with soft := v.getLsbD 0 } else s
  | .ext v => { s with line := v ≠ 0 }

/-- A history. -/
def run (s : Seip) (es : List MipEvent) : Seip := es.foldl step s

/-- The event is a plain write of the whole register, or an update of the SEIP bit itself, or a
change of the line: it does not write SEIP back from a value that was read. -/
def noReadBack : MipEvent → Bool
  | .csr (.write32 _) => true
  | .csr (.write64 _) => true
  | .setBit k _ => k = 9
  | .ext _ => true
  | _ => false

/-- While the line is high, only such events occur. -/
def quietWhileHigh (line : Bool) : List MipEvent → Bool
  | [] => true
  | e :: es => (!line || noReadBack e) && quietWhileHigh (step ⟨false, line⟩ e).line es

end Verif.Xip.Spec
