import Verif.Decode.Modules
import Verif.Decode.Codes

/-!
# Checking the modules against the listing
-/

namespace Verif.Decode

open Isa

/-- The entry matches only words of its instruction. -/
def soundEntry (x : Xlen) (mv : Nat × Nat) (i : Inst) : Bool :=
  match enc x (canon i.op) with
  | some e => fits mv i e
  | none => false

/-- Every entry matches only words of its instruction, or is listed. -/
def soundAll (x : Xlen) (exc : List Op) : List (Nat × Nat) → List Inst → Bool
  | mv :: ms, i :: is => (soundEntry x mv i || exc.contains i.op) && soundAll x exc ms is
  | _, _ => true

/-- The fixed bits of the entries of a module. -/
def Module.masks (m : Module) : List (Nat × Nat) := m.groups.flatMap Grp.masks

/-- The numbers of the entries of a module. -/
def Module.codes (m : Module) : List Nat := m.groups.flatMap Grp.codes

theorem Module.masks_eq (m : Module) : m.insts.map Inst.maskVal = m.masks := by
  unfold Module.insts Module.masks
  rw [List.map_flatMap]
  congr 1
  funext g
  exact g.masks_eq

theorem Module.codes_eq (m : Module) :
    (m.insts.map fun i => (canon i.op).ctorIdx) = m.codes := by
  unfold Module.insts Module.codes
  rw [List.map_flatMap]
  congr 1
  funext g
  exact g.codes_eq

/-- The names of the listed entries. -/
def unsoundOps (x : Xlen) (m : Module) : List Op := (unsound x m).map (·.1)

/-- Every entry of the module matches only words of its instruction, or is
listed. -/
def soundMod (x : Xlen) (m : Module) : Bool := soundAll x (unsoundOps x m) m.masks m.insts

theorem soundAll_sound {x : Xlen} {exc : List Op} {w : Nat} (hw : w < 2 ^ 32) :
    ∀ {is : List Inst}, soundAll x exc (is.map Inst.maskVal) is = true →
      ∀ i ∈ is, i.op ∉ exc → i.matches w = true →
        ∃ e, enc x (canon i.op) = some e ∧ e.assigns w
  | [], _ => by simp
  | i :: is, h => by
    rw [List.map_cons] at h
    have h' : ((soundEntry x i.maskVal i || exc.contains i.op) &&
        soundAll x exc (is.map Inst.maskVal) is) = true := h
    rw [Bool.and_eq_true] at h'
    intro j hj hx hm
    rcases List.mem_cons.1 hj with rfl | hj
    · have h1 := h'.1
      rw [Bool.or_eq_true] at h1
      rcases h1 with h1 | h1
      · unfold soundEntry at h1
        split at h1
        · rename_i e he
          exact ⟨e, he, fits_sound h1 hw hm⟩
        · simp at h1
      · exact absurd (by simpa using h1) hx
    · exact soundAll_sound hw h'.2 j hj hx hm

theorem soundMod_sound {x : Xlen} {m : Module} (h : soundMod x m = true) {w : Nat}
    (hw : w < 2 ^ 32) :
    ∀ i ∈ m.insts, i.op ∉ unsoundOps x m → i.matches w = true →
      ∃ e, enc x (canon i.op) = some e ∧ e.assigns w := by
  unfold soundMod at h
  rw [← m.masks_eq] at h
  exact soundAll_sound hw h

/-- The entries with a given number. -/
def select (c : Nat) : List Nat → List Inst → List Inst
  | k :: ks, i :: is => if Nat.beq c k then i :: select c ks is else select c ks is
  | _, _ => []

theorem select_mem {c : Nat} : ∀ {is : List Inst} {i : Inst},
    i ∈ select c (is.map fun i => (canon i.op).ctorIdx) is →
      i ∈ is ∧ (canon i.op).ctorIdx = c
  | [], i, h => by simp [select] at h
  | j :: is, i, h => by
    rw [List.map_cons] at h
    have h' : i ∈ (if Nat.beq c (canon j.op).ctorIdx then
        j :: select c (is.map fun i => (canon i.op).ctorIdx) is
      else select c (is.map fun i => (canon i.op).ctorIdx) is) := h
    split at h'
    · rename_i hc
      rcases List.mem_cons.1 h' with rfl | h'
      · exact ⟨by simp, (Nat.eq_of_beq_eq_true hc).symm⟩
      · exact ⟨List.mem_cons_of_mem _ (select_mem h').1, (select_mem h').2⟩
    · exact ⟨List.mem_cons_of_mem _ (select_mem h').1, (select_mem h').2⟩

/-- The entries with a given number cover their instruction. -/
def coverCode (x : Xlen) (m : Module) (cs : List Nat) (is : List Inst) (c : Nat) : Bool :=
  match enc x (Op.ofNat c) with
  | some e => coverOk (select c cs is) e (gaps x m (Op.ofNat c))
  | none => true

/-- All instructions of the module are covered, but for the gaps. -/
def coverMod (x : Xlen) (m : Module) : Bool :=
  m.codes.eraseDups.all (coverCode x m m.codes m.insts)

theorem coverMod_sound {x : Xlen} {m : Module} (h : coverMod x m = true) {i : Inst}
    (hi : i ∈ m.insts) {e : Enc} (he : enc x (canon i.op) = some e) {w : Nat} (hw : w < 2 ^ 32)
    (ha : e.assigns w) (hg : ∀ p ∈ gaps x m (canon i.op), w &&& p.1 ≠ p.2) :
    ∃ j ∈ m.insts, canon j.op = canon i.op ∧ j.matches w = true := by
  unfold coverMod at h
  have hc : (canon i.op).ctorIdx ∈ m.codes.eraseDups := by
    rw [List.mem_eraseDups, ← m.codes_eq]
    exact List.mem_map.2 ⟨i, hi, rfl⟩
  have h1 := List.all_eq_true.1 h _ hc
  unfold coverCode at h1
  rw [Op.ofNat_ctorIdx, he] at h1
  obtain ⟨j, hj, hm⟩ := coverOk_sound h1 hw ha hg
  rw [← m.codes_eq] at hj
  obtain ⟨hj, hjc⟩ := select_mem hj
  refine ⟨j, hj, ?_, hm⟩
  rw [← Op.ofNat_ctorIdx (canon j.op), hjc, Op.ofNat_ctorIdx]

end Verif.Decode
