import Verif.Plic.Model
/-
Specification of the PLIC, in terms of the RISC-V PLIC specification (enable bits, pending bits,
priorities), not of the maps the code keeps.
-/
namespace Verif.Plic.Spec
open Verif.Plic (Plic)

/-- Enable bit of a source for a context. -/
def enabled (p : Plic) (c s : Nat) : Bool := (p.enabled c (s / 32)).getLsbD (s % 32)

/-- Pending bit of a source. -/
def pending (p : Plic) (s : Nat) : Bool := (p.pend (s / 32)).getLsbD (s % 32)

/-- A source that a claim may return: enabled, pending and of non-zero priority. -/
def candidate (p : Plic) (c s : Nat) : Prop :=
  enabled p c s = true ∧ pending p s = true ∧ (p.prio s).toNat ≠ 0

/-- What a claim by context `c` must return. -/
def claimResult (p : Plic) (c id : Nat) : Prop :=
  (id = 0 ∧ ∀ s, ¬ candidate p c s) ∨
  (candidate p c id ∧ ∀ s, candidate p c s →
    (p.prio s).toNat < (p.prio id).toNat ∨ ((p.prio s).toNat = (p.prio id).toNat ∧ id ≤ s))

/-- Documented register addresses (offsets in the PLIC window). -/
def prioAddr (s : Nat) : Nat := 4 * s
def pendAddr (word : Nat) : Nat := 0x1000 + 4 * word
def enableAddr (c word : Nat) : Nat := 0x2000 + 0x80 * c + 4 * word
def threshAddr (c : Nat) : Nat := 0x200000 + 0x1000 * c
def claimAddr (c : Nat) : Nat := 0x200004 + 0x1000 * c

/-- Should the line of a context be high? -/
def line (p : Plic) (c : Nat) : Prop :=
  ∃ s, s < p.nS ∧ enabled p c s = true ∧ pending p s = true ∧ (p.thresh c).toNat < (p.prio s).toNat

end Verif.Plic.Spec
