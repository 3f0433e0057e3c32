/-
The branch trace ring buffer (riscv/riscv_top.{h,cc}).

The buffer is a map from indices to entries; only the indices below the size are meaningful. A newly
allocated buffer has arbitrary contents (`junk`).
-/
namespace Verif.BranchTrace

/-- `BranchTraceEntry` (riscv_top.h:57-61): three `uint32_t`. -/
structure Entry where
  src : BitVec 32
  dst : BitVec 32
  count : BitVec 32
deriving DecidableEq

def zero : Entry := ⟨0, 0, 0⟩

/-- `branch_trace_`, `branch_trace_size_`, `branch_trace_mask_`, `branch_trace_head_`
(riscv_top.h:213-222). -/
structure State where
  buf : Nat → Entry
  size : Nat
  mask : Nat
  head : Nat

/-- Initial values (riscv_top.h:68, 220-222, riscv_top.cc:202-207). -/
def init : State := { buf := fun _ => zero, size := 16, mask := 15, head := 0 }

def setBuf (f : Nat → Entry) (i : Nat) (e : Entry) : Nat → Entry := fun j => if j = i then e else f j

/-- `AddToBranchTrace` (riscv_top.cc:921-932). The stored addresses are compared, zero-extended, with
the 64-bit ones. -/
def add (s : State) (src dst : BitVec 64) : State :=
  let e := s.buf s.head
  if src = e.src.setWidth 64 ∧ dst = e.dst.setWidth 64 then
    { s with buf := setBuf s.buf s.head { e with count := e.count + 1 } }
  else
    let head := (s.head + 1) &&& s.mask
    { s with head := head, buf := setBuf s.buf head ⟨src.setWidth 32, dst.setWidth 32, 1⟩ }

/-- `absl::popcount` of a 64-bit value: the number of its one bits. -/
def popcount : Nat → Nat → Nat
  | 0, _ => 0
  | n + 1, x => x % 2 + popcount n (x / 2)

/-- The copying loop of `ResizeBranchTrace` (riscv_top.cc:896-907). `r` is `new_index + 1`. Returns
the new buffer and the number of indices not yet filled. -/
def copy (s : State) (new : Nat → Entry) : Nat → Nat → (Nat → Entry) × Nat
  | 0, _ => (new, 0)
  | r + 1, old =>
    if 0 < (s.buf old).count.toNat then
      let new := setBuf new r (s.buf old)
      let old := if old = 0 then s.size - 1 else old - 1
      if old = s.head then (new, r) else copy s new r old
    else (new, r + 1)

/-- `ResizeBranchTrace` (riscv_top.cc:883-919); `none` is the error for a size that is not a power of
two. Simplification: the indices are `int` in the code, so sizes from 2^31 on are not modelled
faithfully; the theorems assume smaller sizes. -/
def resize (s : State) (size : BitVec 64) (junk : Nat → Entry) : Option State :=
  if popcount 64 size.toNat ≠ 1 then none
  else
    let c := copy s junk size.toNat s.head
    some { buf := fun i => if i < c.2 then zero else c.1 i
           size := size.toNat, mask := size.toNat - 1, head := size.toNat - 1 }

inductive Op where
  | branch (src dst : BitVec 64)
  | resize (size : BitVec 64) (junk : Nat → Entry)

def step (s : State) : Op → State
  | .branch src dst => add s src dst
  | .resize n junk => (resize s n junk).getD s

def run (ops : List Op) : State := ops.foldl step init

end Verif.BranchTrace
