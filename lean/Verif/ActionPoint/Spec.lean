import Verif.ActionPoint.Model
/-
What setting and clearing breakpoints is expected to do to memory, in terms of the program as it would
be without any breakpoint and of which breakpoints are set now.
-/
namespace Verif.ActionPoint.Spec
open Verif.Core

/-- Length in bytes of the instruction at `a`: two when the two low bits are not both set, four when
they are but the next three are not all set. Longer encodings have no length here. -/
def Length (m : Memory) (a : BitVec 64) (n : Nat) : Prop :=
  n = 2 ∧ (m a).toNat % 4 ≠ 3 ∨ n = 4 ∧ (m a).toNat % 4 = 3 ∧ (m a).toNat / 4 % 8 ≠ 7

/-- Byte `b` belongs to the `n` bytes at `a`. -/
def Within (a : BitVec 64) (n : Nat) (b : BitVec 64) : Prop := (b - a).toNat < n

/-- The breakpoint address a call is about. -/
def addr? : Op → Option (BitVec 64)
  | .set a => some a
  | .clear a => some a
  | .store _ _ => none

/-- A breakpoint is set after a sequence of events when the last call about its address was a set. -/
def IsSet (ops : List Op) (a : BitVec 64) : Prop :=
  (ops.filter (fun op => addr? op = some a)).getLast? = some (.set a)

/-- The program without breakpoints: the initial memory with the ordinary stores carried out. -/
def program (p : Memory) : List Op → Memory
  | [] => p
  | .store b v :: ops => program (setByte p b v) ops
  | _ :: ops => program p ops

/-- The breakpoint instruction of length `n`: `c.ebreak` or `ebreak`. -/
def breakWord (n : Nat) : Nat := if n = 2 then 0x9002 else 0x00100073

/-- Memory `m` is program `p` with breakpoints at exactly the addresses `S`. -/
structure Patched (p m : Memory) (S : BitVec 64 → Prop) : Prop where
  patched : ∀ a n, S a → Length p a n → ∀ k, k < n →
    m (a + BitVec.ofNat 64 k) = BitVec.ofNat 8 (breakWord n / 256 ^ k)
  same : ∀ b, (∀ a n, S a → Length p a n → ¬Within a n b) → m b = p b

/-- No instruction at a breakpoint address overlaps another one (an address where no instruction of
two or four bytes starts counts as one byte). -/
def Apart (p : Memory) (ops : List Op) : Prop :=
  ∀ op, op ∈ ops → ∀ op', op' ∈ ops → ∀ a b, addr? op = some a → addr? op' = some b → a ≠ b →
    ∀ n, n = 1 ∨ Length p b n → ¬Within b n a

/-- No ordinary store hits an instruction at a breakpoint address. -/
def StoresElsewhere (p : Memory) (ops : List Op) : Prop :=
  ∀ b v, Op.store b v ∈ ops → ∀ op, op ∈ ops → ∀ a, addr? op = some a →
    ∀ n, n = 1 ∨ Length p a n → ¬Within a n b

end Verif.ActionPoint.Spec
