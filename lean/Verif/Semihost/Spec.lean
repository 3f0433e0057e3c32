import Verif.Semihost.Model
/-
What the semihosting specification (ARM "Semihosting for AArch32 and AArch64", which the
RISC-V semihosting specification adopts) says about the operations modelled.
-/
namespace Verif.Semihost.Spec

/-- The open modes 0 to 11: the strings "r", "rb", "r+", "r+b", "w", "wb", "w+", "w+b", "a",
"ab", "a+", "a+b" of ISO C `fopen`. -/
def openFlags (mode : Nat) : Option Flags :=
  if mode < 2 then some ⟨true, false, false, false, false⟩
  else if mode < 4 then some ⟨true, true, false, false, false⟩
  else if mode < 6 then some ⟨false, true, true, true, false⟩
  else if mode < 8 then some ⟨true, true, true, true, false⟩
  else if mode < 10 then some ⟨false, true, true, false, true⟩
  else if mode < 12 then some ⟨true, true, true, false, true⟩
  else none

/-- The console stream `:tt` stands for: standard input in modes 0 to 3, standard output in
modes 4 to 7, standard error in modes 8 to 11. -/
def console (mode : Nat) : Int := if mode < 4 then 0 else if mode < 8 then 1 else 2

/-- SYS_WRITE and SYS_READ return the number of bytes that were *not* transferred. -/
def notTransferred (length transferred : Nat) : Nat := length - transferred

/-- A host whose `read` delivers what it says it delivers. -/
def ReadsRight (host : Host) : Prop :=
  ∀ cs fd n, 0 ≤ (host cs (.read fd n)).ret →
    (host cs (.read fd n)).data.length = (host cs (.read fd n)).ret.toNat ∧
    (host cs (.read fd n)).ret.toNat ≤ n

/-- The parameter block at `p` holds the words `ws`. -/
def Block (w : Nat) (m : Memory) (p : BitVec 64) (ws : List Nat) : Prop :=
  ∀ k, (h : k < ws.length) → (word w m p k).toNat = ws[k]

end Verif.Semihost.Spec
