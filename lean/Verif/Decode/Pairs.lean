import Verif.Decode.Overlaps

/-!
# Comparing whole groups

`selfOk` and `crossOk` compare every two instructions of a group, or of two
groups: by fixed bits first, and by all constraints where those do not settle
it.
-/

namespace Verif.Decode

open Verif.BinFmt

/-- The listed pairs of instructions with a common word, without the word. -/
def overlapsOf (g h : Grp) : List (Op × Op) := (clashes g h).map fun p => (p.1, p.2.1)

/-- Listed, or never matching the same word. -/
def slow (known : List (Op × Op)) (a b : Inst) : Bool := known.contains (a.op, b.op) || apart a b

/-- One instruction against a list. -/
def row (known : List (Op × Op)) (m v : Nat) (a : Inst) : List (Nat × Nat) → List Inst → Bool
  | (m', v') :: ms, b :: bs =>
    match Nat.land (Nat.xor v v') (Nat.land m m') with
    | 0 => slow known a b && row known m v a ms bs
    | _ + 1 => row known m v a ms bs
  | _, _ => true

/-- Every instruction of a list against the later ones. -/
def tri (known : List (Op × Op)) : List (Nat × Nat) → List Inst → Bool
  | (m, v) :: ms, a :: as => row known m v a ms as && tri known ms as
  | _, _ => true

/-- Every instruction of one list against every one of another. -/
def rect (known : List (Op × Op)) (ms' : List (Nat × Nat)) (bs : List Inst) :
    List (Nat × Nat) → List Inst → Bool
  | (m, v) :: ms, a :: as => row known m v a ms' bs && rect known ms' bs ms as
  | _, _ => true

/-- The instructions of the group are pairwise apart or listed. -/
def selfOk (g : Grp) : Bool := tri (overlapsOf g g) g.masks g.insts

/-- The instructions of the first group are apart from those of the second, or
listed. -/
def crossOk (g h : Grp) : Bool := rect (overlapsOf g h) h.masks h.insts g.masks g.insts

/-- Two instructions match a common word only if they are listed. -/
def Excl (known : List (Op × Op)) (w : Nat) (a b : Inst) : Prop :=
  a.matches w = true → b.matches w = true → (a.op, b.op) ∈ known

theorem slow_sound {known : List (Op × Op)} {a b : Inst} (h : slow known a b = true) {w : Nat}
    (hw : w < 2 ^ 32) : Excl known w a b := by
  intro ha hb
  unfold slow at h
  rw [Bool.or_eq_true] at h
  rcases h with h | h
  · simpa using h
  · rw [apart_sound h hw ha] at hb; simp at hb

theorem row_sound {known : List (Op × Op)} {a : Inst} {w : Nat} (hw : w < 2 ^ 32) :
    ∀ {bs : List Inst},
      row known a.maskVal.1 a.maskVal.2 a (bs.map Inst.maskVal) bs = true →
      ∀ b ∈ bs, Excl known w a b
  | [], _ => by simp
  | b :: bs, h => by
    rw [List.map_cons] at h
    have h' : (match Nat.land (Nat.xor a.maskVal.2 b.maskVal.2)
        (Nat.land a.maskVal.1 b.maskVal.1) with
      | 0 => slow known a b && row known a.maskVal.1 a.maskVal.2 a (bs.map Inst.maskVal) bs
      | _ + 1 => row known a.maskVal.1 a.maskVal.2 a (bs.map Inst.maskVal) bs) = true := h
    have key : Excl known w a b ∧
        row known a.maskVal.1 a.maskVal.2 a (bs.map Inst.maskVal) bs = true := by
      split at h'
      · rw [Bool.and_eq_true] at h'
        exact ⟨slow_sound h'.1 hw, h'.2⟩
      · rename_i n hn
        refine ⟨fun ha hb => ?_, h'⟩
        have hc : clash a.maskVal b.maskVal = true := by
          unfold clash
          rw [bne_iff_ne]
          show Nat.land (Nat.xor a.maskVal.2 b.maskVal.2) (Nat.land a.maskVal.1 b.maskVal.1) ≠ 0
          rw [hn]; exact Nat.succ_ne_zero n
        rw [clash_sound hc w ha] at hb
        simp at hb
    intro b' hb'
    rcases List.mem_cons.1 hb' with rfl | hb'
    · exact key.1
    · exact row_sound hw key.2 b' hb'

theorem tri_sound {known : List (Op × Op)} {w : Nat} (hw : w < 2 ^ 32) :
    ∀ {as : List Inst}, tri known (as.map Inst.maskVal) as = true →
      as.Pairwise (Excl known w)
  | [], _ => List.Pairwise.nil
  | a :: as, h => by
    rw [List.map_cons] at h
    have h' : (row known a.maskVal.1 a.maskVal.2 a (as.map Inst.maskVal) as &&
        tri known (as.map Inst.maskVal) as) = true := h
    rw [Bool.and_eq_true] at h'
    exact List.Pairwise.cons (row_sound hw h'.1) (tri_sound hw h'.2)

theorem rect_sound {known : List (Op × Op)} {w : Nat} (hw : w < 2 ^ 32) {bs : List Inst} :
    ∀ {as : List Inst}, rect known (bs.map Inst.maskVal) bs (as.map Inst.maskVal) as = true →
      ∀ a ∈ as, ∀ b ∈ bs, Excl known w a b
  | [], _ => by simp
  | a :: as, h => by
    rw [List.map_cons] at h
    have h' : (row known a.maskVal.1 a.maskVal.2 a (bs.map Inst.maskVal) bs &&
        rect known (bs.map Inst.maskVal) bs (as.map Inst.maskVal) as) = true := h
    rw [Bool.and_eq_true] at h'
    intro a' ha'
    rcases List.mem_cons.1 ha' with rfl | ha'
    · exact row_sound hw h'.1
    · exact rect_sound hw h'.2 a' ha'

theorem selfOk_sound {g : Grp} (h : selfOk g = true) {w : Nat} (hw : w < 2 ^ 32) :
    g.insts.Pairwise (Excl (overlapsOf g g) w) := by
  unfold selfOk at h
  rw [← g.masks_eq] at h
  exact tri_sound hw h

theorem crossOk_sound {g h : Grp} (hc : crossOk g h = true) {w : Nat} (hw : w < 2 ^ 32) :
    ∀ a ∈ g.insts, ∀ b ∈ h.insts, Excl (overlapsOf g h) w a b := by
  unfold crossOk at hc
  rw [← g.masks_eq, ← h.masks_eq] at hc
  exact rect_sound hw hc

end Verif.Decode
