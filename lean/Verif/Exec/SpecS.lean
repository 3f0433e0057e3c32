import Verif.Exec.Spec
import Verif.Atomic.Spec
import Verif.XStatus.Spec
import Verif.Hart.Spec

/-!
# System and atomic instructions, by the manual
-/

namespace Verif.Exec.Spec

open Decode Decode.Isa Core
open XStatus.Spec (field)

inductive SKind where
  | ecall | ebreak | mret | sret
  /-- `sfence.vma` -/
  | sfence
  /-- `fence`, `fence.tso`, `fence.i`, `wfi`: nothing to wait for in a single hart that does one
  instruction after the other -/
  | quiet
  /-- the A extension, with the size of the access -/
  | atomic (i : Atomic.Insn) (sz : Mem.Size)
  deriving DecidableEq, Repr

/-- What the instructions are. -/
def skind : Xlen → Op → Option SKind
  | _, .ecall => some .ecall
  | _, .ebreak => some .ebreak
  | _, .mret => some .mret
  | _, .sret => some .sret
  | _, .sfence_vma_nn => some .sfence
  | _, .fence => some .quiet
  | _, .fence_tso => some .quiet
  | _, .fencei => some .quiet
  | _, .wfi => some .quiet
  | _, .lrw => some (.atomic .lr .w)
  | _, .scw => some (.atomic .sc .w)
  | _, .amoswapw => some (.atomic .amoswap .w)
  | _, .amoaddw => some (.atomic .amoadd .w)
  | _, .amoxorw => some (.atomic .amoxor .w)
  | _, .amoandw => some (.atomic .amoand .w)
  | _, .amoorw => some (.atomic .amoor .w)
  | _, .amominw => some (.atomic .amomin .w)
  | _, .amomaxw => some (.atomic .amomax .w)
  | _, .amominuw => some (.atomic .amominu .w)
  | _, .amomaxuw => some (.atomic .amomaxu .w)
  | .rv64, .lrd => some (.atomic .lr .d)
  | .rv64, .scd => some (.atomic .sc .d)
  | .rv64, .amoswapd => some (.atomic .amoswap .d)
  | .rv64, .amoaddd => some (.atomic .amoadd .d)
  | .rv64, .amoxord => some (.atomic .amoxor .d)
  | .rv64, .amoandd => some (.atomic .amoand .d)
  | .rv64, .amoord => some (.atomic .amoor .d)
  | .rv64, .amomind => some (.atomic .amomin .d)
  | .rv64, .amomaxd => some (.atomic .amomax .d)
  | .rv64, .amominud => some (.atomic .amominu .d)
  | .rv64, .amomaxud => some (.atomic .amomaxu .d)
  | _, _ => none

/-- A `fence` with a field that is reserved for the future not zero: the fence mode (bits 31 to 28)
and the register numbers (bits 19 to 15 and 11 to 7). -/
def Reserved (o : Op) (w : Nat) : Prop := o = .fence ∧ w &&& 0xf00f8f80 ≠ 0

/-- The word `w` is an instruction of kind `k` that takes `size` bytes. -/
inductive IsS (x : Xlen) (w : Nat) : SKind → Nat → Prop where
  | word (o : Op) (k : SKind) (h : skind x o = some k) (hl : Listed x o w) (hn : ¬ Reserved o w) :
      IsS x w k 4
  | half (hl : Listed x .cebreak (w % 2 ^ 16)) : IsS x w .ebreak 2

variable {n : Nat} {ρ : Type}

def U : BitVec 2 := 0
def S : BitVec 2 := 1
def M : BitVec 2 := 3

/-- On to the next instruction, with nothing changed. -/
def Passes (c c' : Core n) (size : Nat) : Prop :=
  ∃ p, IsNext c size p ∧ GoesTo c c' p ∧ c'.regs = c.regs

/-- The simulator's report of an interrupt after a change from `h` to `h'`: if `b`, the interrupt that is to be
taken is reported; otherwise the report stays, as it does when there is none. -/
def Looks (b : Prop) (h h' : Hart.Hart n) : Prop :=
  Hart.Spec.legalMode h' →
    (b → ∀ i, Hart.Spec.choose h' = some i → h'.avail = true ∧ h'.code = BitVec.ofNat 64 i) ∧
    (b → Hart.Spec.choose h' = none → h'.avail = h.avail) ∧ (¬ b → h'.avail = h.avail)

/-- `mret` in machine mode: on to mepc in the mode of MPP; MIE is what MPIE was, MPIE is 1, MPP is U,
MPRV is 0 unless the mode is M; the other fields of mstatus are kept, and so is everything else but the
report of an interrupt and the number of returns.  An interrupt that can be taken now is reported if one of
the low four bits of mstatus is set. -/
def ReturnsM (c c' : Core n) : Prop :=
  let old := c.hart.mstatus.value
  ∃ m a q, c' = { c with hart := { c.hart with
      pc := c.hart.mepc, mode := field old .mpp, mstatus := m
      returns := c.hart.returns + 1, avail := a, code := q } } ∧
    field m.value .mie = field old .mpie ∧ field m.value .mpie = 1 ∧ field m.value .mpp = 0 ∧
    (field old .mpp = M → field m.value .mprv = field old .mprv) ∧
    (field old .mpp ≠ M → field m.value .mprv = 0) ∧
    (∀ f, f ≠ .mie → f ≠ .mpie → f ≠ .mpp → f ≠ .mprv → field m.value f = field old f) ∧
    Looks (m.value &&& 0xf#64 ≠ 0#64) c.hart c'.hart

/-- `sret` where it is allowed: on to sepc in the mode of SPP; SIE is what SPIE was, SPIE is 1, SPP is U,
MPRV is 0. -/
def ReturnsS (c c' : Core n) : Prop :=
  let old := c.hart.mstatus.value
  ∃ m a q, c' = { c with hart := { c.hart with
      pc := c.hart.sepc, mode := (field old .spp).setWidth 2, mstatus := m
      returns := c.hart.returns + 1, avail := a, code := q } } ∧
    field m.value .sie = field old .spie ∧ field m.value .spie = 1 ∧ field m.value .spp = 0 ∧
    field m.value .mprv = 0 ∧
    (∀ f, f ≠ .sie → f ≠ .spie → f ≠ .spp → f ≠ .mprv → field m.value f = field old f) ∧
    Looks (m.value &&& 0xf#64 ≠ 0#64) c.hart c'.hart

/-- The bytes of `v` are at `a`, and memory is otherwise as before. -/
def Stored (m m' : Memory) (a : BitVec 64) (k v : Nat) : Prop :=
  Mem.Spec.Holds m' a k v ∧ ∀ b, ¬ Mem.Spec.InRange a k b → m' b = m b

/-- The number of `k` bytes at `a` is `v`. -/
def Reads (m : Memory) (a : BitVec 64) (k v : Nat) : Prop := Mem.Spec.Holds m a k v ∧ v < 256 ^ k

/-- What an atomic instruction with operand `v` at `a` does to the memory, and its result `r`. -/
def Acts (i : Atomic.Insn) (k : Nat) (a : BitVec 64) (v : Nat) (m m' : Memory) (r : BitVec n) : Prop :=
  match i with
  | .lr => m' = m ∧ ∃ old, Reads m a k old ∧ Mem.Spec.IsExt true k old r
  | .sc => (r = 0#n ∧ Stored m m' a k v) ∨ (r ≠ 0#n ∧ m' = m)
  | i => ∃ old new, Reads m a k old ∧ Mem.Spec.IsExt true k old r ∧
      Atomic.Spec.amo i k old v = some new ∧ Stored m m' a k new

/-- The address and the operand of an atomic instruction. -/
def addrOf (c : Core n) (w : Nat) : BitVec 64 := (X c (rs1 w)).setWidth 64
def operandOf (c : Core n) (w k : Nat) : Nat := (X c (rs2 w)).toNat % 2 ^ (8 * k)

/-- An address for which an atomic access must raise an exception. -/
def Refused (c : Core n) (w k : Nat) : Prop :=
  (addrOf c w).toNat % k ≠ 0 ∨ c.limit.toNat < (addrOf c w).toNat

/-- The effect of an instruction.  `dev` is the atomic memory: without one, the A extension is not
there. -/
def DoesS (dev : Option (Atomic.Device ρ)) (k : SKind) (size w : Nat) (st st' : Atomic.St n ρ) : Prop :=
  let c := st.core
  let c' := st'.core
  match k with
  | .ecall => st'.resv = st.resv ∧ (c.hart.mode = U → Raises c c' 0#64 8#64) ∧
      (c.hart.mode = S → Raises c c' 0#64 9#64) ∧ (c.hart.mode = M → Raises c c' 0#64 11#64)
  | .ebreak => st'.resv = st.resv ∧ Raises c c' 0#64 3#64
  | .mret => st'.resv = st.resv ∧ (c.hart.mode ≠ M → Raises c c' 0#64 2#64) ∧
      (c.hart.mode = M → ReturnsM c c')
  | .sret => st'.resv = st.resv ∧
      (c.hart.mode = U ∨ (c.hart.mode = S ∧ field c.hart.mstatus.value .tsr = 1) → Raises c c' 0#64 2#64) ∧
      (c.hart.mode = M ∨ (c.hart.mode = S ∧ field c.hart.mstatus.value .tsr = 0) → ReturnsS c c')
  | .sfence => st'.resv = st.resv ∧
      (c.hart.mode = U ∨ (c.hart.mode = S ∧ field c.hart.mstatus.value .tvm = 1) → Raises c c' 0#64 2#64) ∧
      (¬ (c.hart.mode = U ∨ (c.hart.mode = S ∧ field c.hart.mstatus.value .tvm = 1)) → Passes c c' size)
  | .quiet => st'.resv = st.resv ∧ Passes c c' size
  | .atomic i sz =>
      (dev = none → st'.resv = st.resv ∧ Raises c c' 0#64 2#64) ∧
      (dev ≠ none → Refused c w sz.bytes →
        ∃ tval code, (code = 4#64 ∨ code = 5#64 ∨ code = 6#64 ∨ code = 7#64) ∧ Raises c c' tval code) ∧
      (dev ≠ none → ¬ Refused c w sz.bytes →
        ∃ p m r, IsNext c size p ∧ c'.hart = { c.hart with pc := p } ∧ c'.mem = m ∧ c'.limit = c.limit ∧
          c'.hasC = c.hasC ∧ SetsReg c c' (rd w) r ∧
          Acts i sz.bytes (addrOf c w) (operandOf c w sz.bytes) c.mem m r)

/-- Where the simulator deviates: `sret` in machine mode (C15), returns that leave MPRV set, atomic
accesses that should be refused. -/
def WrongS (dev : Option (Atomic.Device ρ)) (k : SKind) (w : Nat) (c : Core n) : Prop :=
  match k with
  | .sret => c.hart.mode = M ∨ (c.hart.mode = S ∧ field c.hart.mstatus.value .mprv = 1)
  | .mret => c.hart.mode = M ∧ field c.hart.mstatus.value .mprv = 1 ∧ field c.hart.mstatus.value .mpp ≠ M
  | .atomic _ sz => dev ≠ none ∧ Refused c w sz.bytes
  | _ => False

end Verif.Exec.Spec
