import Verif.Watch.Model
/-!
# Watchpoints

The watched stretches of memory, for loads and for stores, as pairs of a first address and a
length, in whole numbers. A watchpoint is set only if it is a non-empty stretch of the address space that
overlaps none of its kind; it is removed through any address in it. Every call does all it is
asked or nothing.
-/

namespace Verif.Watch.Spec

/-- `n` bytes from `a` and `m` bytes from `b` share one. -/
def Overlap (a n b m : Nat) : Prop := ∃ x, (a ≤ x ∧ x < a + n) ∧ (b ≤ x ∧ x < b + m)

abbrev Stretches := List (Nat × Nat)

open Classical in
noncomputable def add (l : Stretches) (a n : Nat) : Option Stretches :=
  if 0 < n ∧ a + n ≤ 2 ^ 64 ∧ ∀ s ∈ l, ¬ Overlap a n s.1 s.2 then some ((a, n) :: l) else none

open Classical in
noncomputable def remove (l : Stretches) (a : Nat) : Option Stretches :=
  if ∃ s ∈ l, s.1 ≤ a ∧ a < s.1 + s.2 then some (l.filter (fun s => ¬ (s.1 ≤ a ∧ a < s.1 + s.2)))
  else none

/-- The two sets of stretches. -/
structure Watched where
  loads : Stretches
  stores : Stretches

/-- One call; `none`: refused, nothing changes. -/
noncomputable def call (w : Watched) : Op → Option Watched
  | .set a n .load => (add w.loads a.toNat n.toNat).map fun l => { w with loads := l }
  | .set a n .store => (add w.stores a.toNat n.toNat).map fun l => { w with stores := l }
  | .set a n .loadStore =>
    match add w.loads a.toNat n.toNat, add w.stores a.toNat n.toNat with
    | some l, some s => some ⟨l, s⟩
    | _, _ => none
  | .clear a .load => (remove w.loads a.toNat).map fun l => { w with loads := l }
  | .clear a .store => (remove w.stores a.toNat).map fun l => { w with stores := l }
  | .clear a .loadStore =>
    match remove w.loads a.toNat, remove w.stores a.toNat with
    | some l, some s => some ⟨l, s⟩
    | _, _ => none

noncomputable def calls (w : Watched) : List Op → Watched × List Bool
  | [] => (w, [])
  | o :: os =>
    match call w o with
    | some w' => ((calls w' os).1, true :: (calls w' os).2)
    | none => ((calls w os).1, false :: (calls w os).2)

/-- An access of `size` bytes at `a` touches a watched stretch of its kind. -/
def Touches (w : Watched) (isStore : Bool) (a size : Nat) : Prop :=
  ∃ s ∈ (if isStore then w.stores else w.loads), Overlap a size s.1 s.2

/-- Calls whose documented effect the code has: a stretch that is not the empty one at address
0, and removal of one kind. -/
def Plain : Op → Prop
  | .set a n _ => ¬ (a = 0#64 ∧ n = 0#64)
  | .clear _ k => k ≠ .loadStore

end Verif.Watch.Spec
