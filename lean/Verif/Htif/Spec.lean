import Verif.Htif.Model
/-
What a program relies on when it makes system calls through the host-target interface: the
store that covers the ready byte, with the byte set, makes the call whose parameter block the
`tohost` word points to (an odd word ends the run).
-/
namespace Verif.Htif.Spec

open Semihost (Memory)

/-- The store at `address` of `size` bytes covers the byte at `b`. -/
def Covers (address : BitVec 64) (size : Nat) (b : BitVec 64) : Prop :=
  address.toNat ≤ b.toNat ∧ b.toNat < address.toNat + size

/-- The result convention of the interface: a failing host call is reported as minus its
error number (as the RISC-V front-end server does). -/
def result (r : Resp) : Int := if r.ret = -1 then - r.errno else r.ret

/-- Address `x` is none of the `n` bytes from `a`. -/
def Outside (x a : BitVec 64) (n : Nat) : Prop := n ≤ (x - a).toNat

/-- A host that delivers as many bytes as it says, and no more than were asked for. -/
def ReadsRight (host : Host) : Prop :=
  ∀ cs c, (∀ fd (n : Nat), c = .read fd n → (host cs c).data.length = (host cs c).ret.toNat ∧
      (host cs c).ret ≤ n ∧ -1 ≤ (host cs c).ret) ∧
    (∀ fd (n : Nat) o, c = .pread fd n o → (host cs c).data.length = (host cs c).ret.toNat ∧
      (host cs c).ret ≤ n ∧ -1 ≤ (host cs c).ret)

end Verif.Htif.Spec
