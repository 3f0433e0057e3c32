import Verif.TraceList.Model
import Verif.BranchTrace.Props
/-
C118: the command `branch-trace`. The specification is that of C55 (`BranchTrace/Spec.lean`).
-/
namespace Verif.TraceList
open Verif.BranchTrace Verif.BranchTrace.Spec

/-- A line read as numbers. -/
def values (l : BitVec 32 × BitVec 32 × BitVec 32) : BitVec 64 × BitVec 64 × Nat :=
  (l.1.setWidth 64, l.2.1.setWidth 64, l.2.2.toNat)

def shown (e : Entry) : Option (BitVec 32 × BitVec 32 × BitVec 32) :=
  if e.count = 0#32 then none else some (e.src, e.dst, e.count)

theorem range_rev (n : Nat) : (List.range n).map (fun i => n - 1 - i) = (List.range n).reverse := by
  apply List.ext_getElem
  · simp
  · intro i h1 h2
    simp at h1 h2 ⊢

theorem listing_eq (s : State) (w : Wf s) :
    listing s = (((List.range s.size).map (entry s)).filterMap shown).reverse := by
  unfold listing
  rw [← List.filterMap_reverse, ← List.map_reverse, ← range_rev, List.map_map]
  refine congrArg _ (List.map_congr_left (fun i hi => ?_))
  rw [List.mem_range] at hi
  unfold entry
  dsimp only [Function.comp]
  congr 1
  have := w.head
  rw [show s.head + s.size - (s.size - 1 - i) = s.head + 1 + i by omega]

theorem shown_runs (s : State) : ∀ (l : List Run) (k : Nat),
    (∀ j r, l[j]? = some r → (entry s (k + j)).src.setWidth 64 = r.src ∧
      (entry s (k + j)).dst.setWidth 64 = r.dst ∧ (entry s (k + j)).count.toNat = r.count ∧ 0 < r.count) →
    (((List.range' k l.length).map (entry s)).filterMap shown).map values
      = l.map (fun r => (r.src, r.dst, r.count)) := by
  intro l
  induction l with
  | nil => intro k _; rfl
  | cons r l ih =>
    intro k h
    obtain ⟨h1, h2, h3, h4⟩ := h 0 r rfl
    rw [Nat.add_zero] at h1 h2 h3
    rw [List.length_cons, List.range'_succ, List.map_cons, List.filterMap_cons]
    have hs : shown (entry s k) = some ((entry s k).src, (entry s k).dst, (entry s k).count) := by
      unfold shown
      rw [if_neg]
      intro e
      rw [e] at h3
      have : (0#32).toNat = 0 := rfl
      omega
    rw [hs]
    dsimp only
    rw [List.map_cons, List.map_cons, ih (k + 1) (fun j r' hj => by
      have := h (j + 1) r' (by rw [List.getElem?_cons_succ]; exact hj)
      rw [show k + 1 + j = k + (j + 1) by omega]
      exact this)]
    unfold values
    dsimp only
    rw [h1, h2, h3]

theorem shown_none (s : State) (n k : Nat) (h : ∀ j, k ≤ j → j < k + n → entry s j = zero) :
    ((List.range' k n).map (entry s)).filterMap shown = [] := by
  induction n generalizing k with
  | zero => rfl
  | succ n ih =>
    rw [List.range'_succ, List.map_cons, List.filterMap_cons, h k (Nat.le_refl k) (by omega)]
    have : shown zero = none := rfl
    rw [this]
    exact ih (k + 1) (fun j h1 h2 => h j (by omega) (by omega))

/-- C118: after any history of branches and resizes of the trace, `branch-trace` prints the runs of equal
transfers the trace should hold, oldest first, each once with the number of repetitions, and nothing else.

Missing, as for C55: addresses of more than 32 bits and counts of 2^32 or more. -/
theorem C118_listing_partial (ops : List Op) (nar : Narrow ops) (hl : ops.length < 2 ^ 32) :
    (listing (run ops)).map values
      = ((trace ops).runs.map fun r => (r.src, r.dst, r.count)).reverse := by
  obtain ⟨w, h, sm⟩ := refine_run ops [] init ⟨[], 16⟩ 0 init_wf init_shows (fun r h => by simp at h)
    (by omega) nar
  have h : Shows (ops.foldl step init) (trace ops) := h
  have sm : Small (0 + ops.length) (trace ops).runs := sm
  rw [show run ops = ops.foldl step init from rfl]
  rw [listing_eq _ w, List.map_reverse]
  refine congrArg _ ?_
  have hsize : (ops.foldl step init).size
      = (trace ops).runs.length + ((ops.foldl step init).size - (trace ops).runs.length) := by
    have h1 := h.fits
    have h2 := h.size
    omega
  have hr : List.range (ops.foldl step init).size
      = List.range' 0 (trace ops).runs.length
        ++ List.range' (trace ops).runs.length ((ops.foldl step init).size - (trace ops).runs.length) := by
    conv => lhs; rw [hsize, List.range_eq_range']
    rw [← List.range'_append_1, Nat.zero_add]
  rw [hr, List.map_append, List.filterMap_append, List.map_append,
    shown_none _ _ _ (fun j h1 h2 => h.empty j h1 (by omega)), List.map_nil, List.append_nil]
  refine shown_runs _ _ _ (fun j r hj => ?_)
  rw [Nat.zero_add]
  obtain ⟨h1, h2, h3⟩ := h.held j r hj
  exact ⟨h1, h2, h3, (sm r (List.mem_of_getElem? hj)).2.2.1⟩

/-- A branch is listed the moment after it was taken: as the last line. -/
theorem C118_last_partial (ops : List Op) (src dst : BitVec 64) (nar : Narrow (ops ++ [.branch src dst]))
    (hl : ops.length + 1 < 2 ^ 32) :
    ∃ n l, 0 < n ∧ (listing (run (ops ++ [.branch src dst]))).map values = l ++ [(src, dst, n)] := by
  rw [C118_listing_partial _ nar (by simpa using hl)]
  have hcap : 0 < (trace ops).cap := by
    obtain ⟨w, h, -⟩ := refine_run ops [] init ⟨[], 16⟩ 0 init_wf init_shows (fun r h => by simp at h)
      (by omega) (fun x y hm => nar x y (List.mem_append_left _ hm))
    have := wf_pos w
    rw [h.size] at this
    exact this
  have ht : (trace (ops ++ [.branch src dst])).runs = (push src dst (trace ops).runs).take (trace ops).cap := by
    unfold trace
    rw [List.foldl_append]
    rfl
  rw [ht]
  obtain ⟨c, hc⟩ : ∃ c, (trace ops).cap = c + 1 := ⟨(trace ops).cap - 1, by omega⟩
  rw [hc]
  cases hruns : (trace ops).runs with
  | nil => exact ⟨1, [], by decide, by simp [push]⟩
  | cons r rs =>
    rw [push]
    by_cases he : src = r.src ∧ dst = r.dst
    · rw [if_pos he, List.take_succ_cons, List.map_cons, List.reverse_cons]
      exact ⟨r.count + 1, _, by omega, by rw [he.1, he.2]⟩
    · rw [if_neg he, List.take_succ_cons, List.map_cons, List.reverse_cons]
      exact ⟨1, _, by decide, rfl⟩

example : (listing (run sample)).map values = [(0x114#64, 0x200#64, 2)] := by decide +kernel
example : (listing (run (sample.take 4))).map values
    = [(0x110#64, 0x100#64, 3), (0x114#64, 0x200#64, 1)] := by decide +kernel
example : Narrow sample ∧ sample.length < 2 ^ 32 := by
  refine ⟨?_, by decide⟩
  intro x y h
  simp only [sample, List.mem_cons, List.not_mem_nil, or_false] at h
  rcases h with h | h | h | h | h | h <;> first | (cases h; decide) | cases h

end Verif.TraceList
