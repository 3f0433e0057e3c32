import Verif.ShellWatch.Model
import Verif.Watch.Spec
/-
The list of watchpoints as its user sees it: numbered entries, each active or not. An entry is made
active only if it clashes with no active one; `watch clear VALUE` is about the first active entry with
that address and kind of access.
-/
namespace Verif.ShellWatch.Spec
open Verif.Watch (Kind)
open Verif.Watch.Spec (Overlap)

def Reads (k : Kind) : Prop := k = .load ∨ k = .loadStore
def Writes (k : Kind) : Prop := k = .store ∨ k = .loadStore

/-- The two kinds of access have one in common. -/
def Shares (k l : Kind) : Prop := (Reads k ∧ Reads l) ∨ (Writes k ∧ Writes l)

/-- A watchpoint can be set: it is a stretch of the address space and overlaps no active one for a
common kind of access. -/
def Free (S : List Entry) (a n : Nat) (k : Kind) : Prop :=
  0 < n ∧ a + n ≤ 2 ^ 64 ∧
    ∀ e ∈ S, e.active = true → Shares k e.kind → ¬ Overlap a n e.address.toNat e.length.toNat

/-- The first active entry with the address and kind becomes inactive. -/
def deactivate (a : BitVec 64) (k : Kind) : List Entry → List Entry
  | [] => []
  | e :: es =>
    if e.active = true ∧ e.address = a ∧ e.kind = k then { e with active := false } :: es
    else e :: deactivate a k es

open Classical in
noncomputable def step (S : List Entry) : Cmd → List Entry
  | .set a n k => if Free S a.toNat n.toNat k then S ++ [⟨a, n, k, true⟩] else S
  | .setN i =>
    match S[i]? with
    | none => S
    | some e =>
      if e.active = false ∧ Free S e.address.toNat e.length.toNat e.kind
      then S.set i { e with active := true } else S
  | .clearN i =>
    match S[i]? with
    | none => S
    | some e => S.set i { e with active := false }
  | .clearAll => S.map fun e => { e with active := false }
  | .clear a k => deactivate a k S

/-- Commands the code does not follow: the empty stretch at address 0, and `watch clear VALUE` if an
inactive entry with that address and kind comes before all active ones, while the address is being
watched for one of the accesses. -/
def Deviates (S : List Entry) : Cmd → Prop
  | .set a n _ => a = 0#64 ∧ n = 0#64
  | .clear a k =>
    (∃ p e q, S = p ++ e :: q ∧ e.active = false ∧ e.address = a ∧ e.kind = k
      ∧ ∀ f ∈ p, ¬ (f.address = a ∧ f.kind = k))
    ∧ ∃ f ∈ S, f.active = true ∧ Shares k f.kind
        ∧ f.address.toNat ≤ a.toNat ∧ a.toNat < f.address.toNat + f.length.toNat
  | _ => False

/-- A history; `Follows S cs T`: none of its commands deviates and it leads from `S` to `T`. -/
inductive Follows : List Entry → List Cmd → List Entry → Prop
  | nil {S} : Follows S [] S
  | cons {S c cs T} : ¬ Deviates S c → Follows (step S c) cs T → Follows S (c :: cs) T

/-- An access touches an active entry of its kind. -/
def Touches (S : List Entry) (isStore : Bool) (a size : Nat) : Prop :=
  ∃ e ∈ S, e.active = true ∧ (if isStore then Writes e.kind else Reads e.kind)
    ∧ Overlap a size e.address.toNat e.length.toNat

end Verif.ShellWatch.Spec
