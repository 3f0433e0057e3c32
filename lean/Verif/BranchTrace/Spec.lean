import Verif.BranchTrace.Model
/-
What the branch trace is expected to be: a list of runs of identical consecutive branches, most recent
first, cut to the capacity.
-/
namespace Verif.BranchTrace.Spec

/-- `count` consecutive branches from `src` to `dst`. -/
structure Run where
  src : BitVec 64
  dst : BitVec 64
  count : Nat
deriving DecidableEq

/-- One more branch. -/
def push (src dst : BitVec 64) : List Run → List Run
  | [] => [⟨src, dst, 1⟩]
  | r :: rs => if src = r.src ∧ dst = r.dst then { r with count := r.count + 1 } :: rs
    else ⟨src, dst, 1⟩ :: r :: rs

/-- Run-length encoding of all branches of a history, most recent first. -/
def encode (ops : List Op) : List Run :=
  ops.foldl (fun l op => match op with
    | .branch s d => push s d l
    | .resize _ _ => l) []

/-- A list of runs with a capacity. -/
structure Trace where
  runs : List Run
  cap : Nat

def PowerOfTwo (n : Nat) : Prop := ∃ k, n = 2 ^ k

open Classical in
/-- A branch is added and the oldest run dropped if there is no room; a resize to a power of two keeps
the most recent runs that fit; any other resize is refused. -/
noncomputable def next (t : Trace) : Op → Trace
  | .branch s d => { t with runs := (push s d t.runs).take t.cap }
  | .resize n _ => if PowerOfTwo n.toNat then ⟨t.runs.take n.toNat, n.toNat⟩ else t

noncomputable def trace (ops : List Op) : Trace := ops.foldl next ⟨[], 16⟩

/-- What a reader of the buffer sees: the entry `j` places before the head. -/
def entry (s : State) (j : Nat) : Entry := s.buf ((s.head + s.size - j) % s.size)

/-- The buffer holds the runs, most recent at the head, and empty entries beyond. -/
structure Shows (s : State) (t : Trace) : Prop where
  size : s.size = t.cap
  fits : t.runs.length ≤ t.cap
  held : ∀ j r, t.runs[j]? = some r → (entry s j).src.setWidth 64 = r.src ∧
    (entry s j).dst.setWidth 64 = r.dst ∧ (entry s j).count.toNat = r.count
  empty : ∀ j, t.runs.length ≤ j → j < s.size → entry s j = zero

end Verif.BranchTrace.Spec
