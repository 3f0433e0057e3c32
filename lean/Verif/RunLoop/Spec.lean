import Verif.RunLoop.Model
/-
Execution without any action point: one instruction after the other.
-/
namespace Verif.RunLoop.Spec

variable {σ : Type}

/-- One instruction of the program: execute, let a cycle pass, take an interrupt if there is one. The
next pc is the branch target, the handler, or the following instruction. -/
def plain (M : Machine σ) (s : σ) (pc : BitVec 64) : σ × BitVec 64 :=
  let r := M.exec s pc
  let next := r.2.getD (pc + BitVec.ofNat 64 (M.size s pc))
  match M.intr (M.tick r.1) with
  | some take => take next
  | none => (M.tick r.1, next)

/-- `n` instructions. -/
def plainN (M : Machine σ) (x : σ × BitVec 64) : Nat → σ × BitVec 64
  | 0 => x
  | n + 1 => plainN M (plain M x.1 x.2) n

/-- The addresses of the first `n` instructions, latest first. -/
def path (M : Machine σ) (x : σ × BitVec 64) : Nat → List (BitVec 64)
  | 0 => []
  | n + 1 => path M (plain M x.1 x.2) n ++ [x.2]

/-- None of the next `n` instructions is at an address with a breakpoint instruction. -/
def Clear (M : Machine σ) (t : Top σ) (x : σ × BitVec 64) (n : Nat) : Prop :=
  ∀ k, k < n → t.patched (plainN M x k).2 = false

/-- The top level executed exactly `n` instructions of the program, and the action points, the patched
memory and the debugger state are as before. -/
structure Executed (M : Machine σ) (t t' : Top σ) (x : σ × BitVec 64) (n : Nat) : Prop where
  arch : t'.arch = (plainN M x n).1
  pc : t'.pc = (plainN M x n).2
  log : t'.log = path M x n ++ t.log
  patched : t'.patched = t.patched
  active : t'.active = t.active
  known : t'.known = t.known

end Verif.RunLoop.Spec
