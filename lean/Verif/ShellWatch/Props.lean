import Verif.ShellWatch.Spec
import Verif.Watch.Props
/-
C115: the shell's list of watchpoints.
-/
namespace Verif.ShellWatch
open Verif.Watch
open Verif.Watch.Spec (Overlap)

/-! ## Lists of ranges -/

theorem meets_comm (r s : Range) : r.meets s = s.meets r := by
  unfold Range.meets
  rw [Bool.or_comm]

theorem ok_perm {l m : List Range} (h : List.Perm l m) (hl : Ok l) : Ok m :=
  ⟨fun r hr => hl.1 r (h.mem_iff.mpr hr), h.pairwise hl.2 (fun {r s} hrs => by rw [meets_comm]; exact hrs)⟩

theorem ok_tail {r : Range} {l : List Range} (h : Ok (r :: l)) : Ok l :=
  ⟨fun s hs => h.1 s (List.mem_cons_of_mem _ hs), (List.pairwise_cons.mp h.2).2⟩

/-- Removing through an address of a range that is there removes that range. -/
theorem remove_own {l rest : List Range} {r : Range} {a : BitVec 64} (hl : Ok l)
    (hp : List.Perm l (r :: rest)) (ha : r.has a = true) :
    ∃ l', remove l a = some l' ∧ Ok l' ∧ List.Perm l' rest := by
  have hr := ok_perm hp hl
  have hany : l.any (fun r => r.has a) = true :=
    List.any_eq_true.mpr ⟨r, hp.mem_iff.mpr List.mem_cons_self, ha⟩
  have he : remove l a = some (l.filter (fun r => !r.has a)) := by
    unfold remove
    rw [if_pos hany, eraseP_eq_filter a l hl]
  have hperm : List.Perm (l.filter (fun r => !r.has a)) rest := by
    have h1 := hp.filter (fun r => !r.has a)
    rw [List.filter_cons_of_neg (p := fun r : Range => !r.has a) (by simp [ha])] at h1
    have h2 : rest.filter (fun r => !r.has a) = rest := by
      refine List.filter_eq_self.mpr (fun s hs => ?_)
      have := (List.pairwise_cons.mp hr.2).1 s hs
      cases hb : s.has a with
      | false => rfl
      | true => rw [meets_of_has r s a ha hb] at this; cases this
    rw [h2] at h1
    exact h1
  exact ⟨_, he, ok_perm hperm.symm (ok_tail hr), hperm⟩

theorem remove_none {l : List Range} {a : BitVec 64} (h : ∀ r ∈ l, r.has a = false) :
    remove l a = none := by
  unfold remove
  rw [if_neg]
  intro hany
  obtain ⟨r, hr, hb⟩ := List.any_eq_true.mp hany
  rw [h r hr] at hb
  cases hb

/-! ## Entries and ranges -/

def range (e : Entry) : Range := ⟨e.address, e.address + e.length - 1#64⟩

def reads (k : Kind) : Bool := k = .load || k = .loadStore
def writes (k : Kind) : Bool := k = .store || k = .loadStore

theorem reads_iff (k : Kind) : reads k = true ↔ Spec.Reads k := by
  unfold reads Spec.Reads; simp

theorem writes_iff (k : Kind) : writes k = true ↔ Spec.Writes k := by
  unfold writes Spec.Writes; simp

/-- The ranges of the active entries for the accesses `f` selects. -/
def ranges (f : Kind → Bool) (S : List Entry) : List Range :=
  (S.filter (fun e => e.active && f e.kind)).map range

theorem ranges_split (f : Kind → Bool) (p q : List Entry) (e : Entry) :
    List.Perm (ranges f (p ++ e :: q))
      ((if e.active && f e.kind then [range e] else []) ++ ranges f (p ++ q)) := by
  unfold ranges
  rw [List.filter_append, List.filter_append, List.map_append, List.map_append, List.filter_cons]
  by_cases h : (e.active && f e.kind) = true
  · rw [if_pos h, if_pos h, List.map_cons]
    exact List.perm_middle
  · rw [if_neg h, if_neg h]
    exact List.Perm.refl _

/-- An entry is a stretch of the address space. -/
def Valid (e : Entry) : Prop := 0 < e.length.toNat ∧ e.address.toNat + e.length.toNat ≤ 2 ^ 64

theorem valid_range {e : Entry} (h : Valid e) :
    (range e).lo.toNat = e.address.toNat ∧ (range e).hi.toNat = e.address.toNat + e.length.toNat - 1
    ∧ st (range e) = (e.address.toNat, e.length.toNat) := by
  have hp : ¬ (e.address = 0#64 ∧ e.length = 0#64) := by
    rintro ⟨-, h0⟩
    have := h.1
    rw [h0] at this
    exact absurd this (by decide)
  obtain ⟨h1, h2⟩ := h
  rcases range_cases e.address e.length hp with ⟨-, -, h3⟩ | ⟨h3, -⟩
  · refine ⟨rfl, h3, ?_⟩
    unfold st range
    dsimp only
    rw [h3]
    congr 1
    omega
  · exact absurd ⟨h1, h2⟩ h3

theorem valid_has {e : Entry} (h : Valid e) (a : BitVec 64) :
    (range e).has a = true ↔ e.address.toNat ≤ a.toNat ∧ a.toNat < e.address.toNat + e.length.toNat := by
  obtain ⟨h1, h2, h3⟩ := valid_range h
  rw [has_iff _ _ (by have := h.1; omega), h3]

/-- The watcher watches what the list says is active. -/
structure Inv (w : Watcher) (S : List Entry) : Prop where
  good : Good w
  loads : List.Perm w.loads (ranges reads S)
  stores : List.Perm w.stores (ranges writes S)
  valid : ∀ e ∈ S, Valid e

theorem mem_ranges {f : Kind → Bool} {S : List Entry} {r : Range} :
    r ∈ ranges f S ↔ ∃ e ∈ S, e.active = true ∧ f e.kind = true ∧ range e = r := by
  unfold ranges
  rw [List.mem_map]
  constructor
  · rintro ⟨e, he, hr⟩
    rw [List.mem_filter, Bool.and_eq_true] at he
    exact ⟨e, he.1, he.2.1, he.2.2, hr⟩
  · rintro ⟨e, he, h1, h2, hr⟩
    exact ⟨e, List.mem_filter.mpr ⟨he, by rw [h1, h2]; rfl⟩, hr⟩

/-- Adding a range to one side. -/
theorem add_side {l : List Range} {S : List Entry} {f : Kind → Bool} (hl : Ok l)
    (hp : List.Perm l (ranges f S)) (hv : ∀ e ∈ S, Valid e) {e : Entry} (he : Valid e) :
    ((∀ g ∈ S, g.active = true → f g.kind = true →
        ¬ Overlap e.address.toNat e.length.toNat g.address.toNat g.length.toNat) →
      add l (range e) = some (range e :: l) ∧ Ok (range e :: l))
    ∧ (¬ (∀ g ∈ S, g.active = true → f g.kind = true →
        ¬ Overlap e.address.toNat e.length.toNat g.address.toNat g.length.toNat) →
      add l (range e) = none) := by
  obtain ⟨h1, h2, h3⟩ := valid_range he
  have hle : (range e).lo.toNat ≤ (range e).hi.toNat := by have := he.1; omega
  have hult : ¬ ((range e).hi.ult (range e).lo = true) := by
    rw [BitVec.ult, decide_eq_true_eq]; omega
  have hmeet : ∀ g ∈ S, (range e).meets (range g) = true
      ↔ Overlap e.address.toNat e.length.toNat g.address.toNat g.length.toNat := by
    intro g hg
    obtain ⟨g1, g2, g3⟩ := valid_range (hv g hg)
    rw [meets_iff _ _ hle (by have := (hv g hg).1; omega), h3, g3]
  constructor
  · intro h
    have hno : ∀ r ∈ l, (range e).meets r = false := by
      intro r hr
      obtain ⟨g, hg, ha, hf, rfl⟩ := mem_ranges.mp (hp.mem_iff.mp hr)
      cases hb : (range e).meets (range g) with
      | false => rfl
      | true => exact absurd ((hmeet g hg).mp hb) (h g hg ha hf)
    constructor
    · unfold add
      rw [if_neg hult, if_neg]
      intro hany
      obtain ⟨r, hr, hb⟩ := List.any_eq_true.mp hany
      rw [hno r hr] at hb
      cases hb
    · refine ⟨fun r hr => ?_, List.pairwise_cons.mpr ⟨hno, hl.2⟩⟩
      rcases List.mem_cons.mp hr with rfl | hr
      · exact hle
      · exact hl.1 r hr
  · intro h
    have : ∃ g ∈ S, g.active = true ∧ f g.kind = true ∧
        Overlap e.address.toNat e.length.toNat g.address.toNat g.length.toNat := by
      apply Classical.byContradiction
      intro hc
      exact h (fun g hg ha hf ho => hc ⟨g, hg, ha, hf, ho⟩)
    obtain ⟨g, hg, ha, hf, ho⟩ := this
    unfold add
    rw [if_neg hult, if_pos]
    exact List.any_eq_true.mpr ⟨range g, hp.mem_iff.mpr (mem_ranges.mpr ⟨g, hg, ha, hf, rfl⟩),
      (hmeet g hg).mpr ho⟩

theorem has_own {e : Entry} (h : Valid e) : (range e).has e.address = true :=
  (valid_has h _).mpr ⟨Nat.le_refl _, by have := h.1; omega⟩

theorem add_cons {l : List Range} {r : Range} {l' : List Range} (h : add l r = some l') : l' = r :: l := by
  unfold add at h
  split at h
  · cases h
  · split at h
    · cases h
    · injection h with h; exact h.symm

theorem remove_head {l : List Range} {r : Range} {a : BitVec 64} (h : r.has a = true) :
    remove (r :: l) a = some l := by
  unfold remove
  rw [if_pos (by simp [h]), List.eraseP_cons_of_pos (p := fun r : Range => r.has a) h]

/-- Setting a watchpoint, seen from the list. -/
theorem set_spec {w : Watcher} {S : List Entry} (hI : Inv w S) (e : Entry)
    (hne : ¬ (e.address = 0#64 ∧ e.length = 0#64)) :
    (Spec.Free S e.address.toNat e.length.toNat e.kind →
      ∃ w', setWatchpoint w e.address e.length e.kind = (w', true) ∧ Good w' ∧ Valid e
        ∧ w'.loads = (if reads e.kind then [range e] else []) ++ w.loads
        ∧ w'.stores = (if writes e.kind then [range e] else []) ++ w.stores)
    ∧ (¬ Spec.Free S e.address.toNat e.length.toNat e.kind →
      setWatchpoint w e.address e.length e.kind = (w, false)) := by
  obtain ⟨⟨hL, hS⟩, pL, pS, hv⟩ := hI
  by_cases he : Valid e
  · obtain ⟨l1, l2⟩ := add_side hL pL hv he
    obtain ⟨s1, s2⟩ := add_side hS pS hv he
    generalize hA : (∀ g ∈ S, g.active = true → reads g.kind = true →
        ¬ Overlap e.address.toNat e.length.toNat g.address.toNat g.length.toNat) = A at l1 l2
    generalize hB : (∀ g ∈ S, g.active = true → writes g.kind = true →
        ¬ Overlap e.address.toNat e.length.toNat g.address.toNat g.length.toNat) = B at s1 s2
    have hfree : Spec.Free S e.address.toNat e.length.toNat e.kind
        ↔ (reads e.kind = true → A) ∧ (writes e.kind = true → B) := by
      rw [← hA, ← hB]
      constructor
      · intro h
        refine ⟨fun hk g hg ha hf => h.2.2 g hg ha (Or.inl ⟨(reads_iff _).mp hk, (reads_iff _).mp hf⟩),
          fun hk g hg ha hf => h.2.2 g hg ha (Or.inr ⟨(writes_iff _).mp hk, (writes_iff _).mp hf⟩)⟩
      · rintro ⟨h1, h2⟩
        refine ⟨he.1, he.2, fun g hg ha hs => ?_⟩
        rcases hs with ⟨r1, r2⟩ | ⟨r1, r2⟩
        · exact h1 ((reads_iff _).mpr r1) g hg ha ((reads_iff _).mpr r2)
        · exact h2 ((writes_iff _).mpr r1) g hg ha ((writes_iff _).mpr r2)
    rw [hfree]
    have hr : (⟨e.address, e.address + e.length - 1#64⟩ : Range) = range e := rfl
    have hk : e.kind = .load ∨ e.kind = .store ∨ e.kind = .loadStore := by
      cases e.kind <;> simp
    rcases hk with hk | hk | hk
    · rw [hk]
      constructor
      · rintro ⟨h1, -⟩
        obtain ⟨h3, h4⟩ := l1 (h1 rfl)
        exact ⟨⟨range e :: w.loads, w.stores⟩, by simp [setWatchpoint, hr, h3], ⟨h4, hS⟩, he, rfl, rfl⟩
      · intro h
        have : ¬ A := fun ha => h ⟨fun _ => ha, (fun hw => by cases hw)⟩
        simp [setWatchpoint, hr, l2 this]
    · rw [hk]
      constructor
      · rintro ⟨-, h1⟩
        obtain ⟨h3, h4⟩ := s1 (h1 rfl)
        exact ⟨⟨w.loads, range e :: w.stores⟩, by simp [setWatchpoint, hr, h3], ⟨hL, h4⟩, he, rfl, rfl⟩
      · intro h
        have : ¬ B := fun ha => h ⟨(fun hw => by cases hw), fun _ => ha⟩
        simp [setWatchpoint, hr, s2 this]
    · rw [hk]
      constructor
      · rintro ⟨h1, h2⟩
        obtain ⟨h3, h4⟩ := l1 (h1 rfl)
        obtain ⟨h5, h6⟩ := s1 (h2 rfl)
        exact ⟨⟨range e :: w.loads, range e :: w.stores⟩, by simp [setWatchpoint, hr, h3, h5],
          ⟨h4, h6⟩, he, rfl, rfl⟩
      · intro h
        by_cases hA' : A
        · have hB' : ¬ B := fun hb => h ⟨fun _ => hA', fun _ => hb⟩
          simp [setWatchpoint, hr, (l1 hA').1, s2 hB', remove_head (has_own he)]
        · simp [setWatchpoint, hr, l2 hA']
  · constructor
    · intro h
      exact absurd ⟨h.1, h.2.1⟩ he
    · intro _
      have hlt : (e.address + e.length - 1#64).toNat < e.address.toNat := by
        rcases range_cases e.address e.length hne with ⟨h1, h2, -⟩ | ⟨-, h3⟩
        · exact absurd ⟨h1, h2⟩ he
        · exact h3
      have hadd : ∀ l, add l ⟨e.address, e.address + e.length - 1#64⟩ = none := by
        intro l
        unfold add
        rw [if_pos (by rw [BitVec.ult, decide_eq_true_eq]; exact hlt)]
      unfold setWatchpoint
      dsimp only
      rw [hadd, hadd]
      cases e.kind <;> simp

/-- Clearing an active entry. -/
theorem clear_spec {w : Watcher} {p q : List Entry} {e : Entry} (hI : Inv w (p ++ e :: q))
    (ha : e.active = true) :
    ∃ w', clearWatchpoint w e.address e.kind = (w', true)
      ∧ Inv w' (p ++ { e with active := false } :: q) := by
  obtain ⟨⟨hL, hS⟩, pL, pS, hv⟩ := hI
  have he := hv e (by simp)
  have hval : ∀ x ∈ p ++ { e with active := false } :: q, Valid x := by
    intro x hx
    rw [List.mem_append, List.mem_cons] at hx
    rcases hx with h | rfl | h
    · exact hv x (by simp [h])
    · exact he
    · exact hv x (by simp [h])
  have hoff : ∀ f, List.Perm (ranges f (p ++ { e with active := false } :: q)) (ranges f (p ++ q)) :=
    fun f => ranges_split f p q { e with active := false }
  have eL := pL.trans (ranges_split reads p q e)
  have eS := pS.trans (ranges_split writes p q e)
  rw [ha, Bool.true_and] at eL eS
  have hk : e.kind = .load ∨ e.kind = .store ∨ e.kind = .loadStore := by
    cases e.kind <;> simp
  rcases hk with hk | hk | hk
  · have rk : reads e.kind = true := by rw [hk]; rfl
    have wk : ¬ (writes e.kind = true) := by rw [hk]; decide
    rw [if_pos rk] at eL
    rw [if_neg wk] at eS
    obtain ⟨l', h1, h2, h3⟩ := remove_own hL eL (has_own he)
    exact ⟨⟨l', w.stores⟩, by simp [clearWatchpoint, hk, h1],
      ⟨⟨h2, hS⟩, h3.trans (hoff _).symm, eS.trans (hoff _).symm, hval⟩⟩
  · have rk : ¬ (reads e.kind = true) := by rw [hk]; decide
    have wk : writes e.kind = true := by rw [hk]; rfl
    rw [if_neg rk] at eL
    rw [if_pos wk] at eS
    obtain ⟨l', h1, h2, h3⟩ := remove_own hS eS (has_own he)
    exact ⟨⟨w.loads, l'⟩, by simp [clearWatchpoint, hk, h1],
      ⟨⟨hL, h2⟩, eL.trans (hoff _).symm, h3.trans (hoff _).symm, hval⟩⟩
  · have rk : reads e.kind = true := by rw [hk]; rfl
    have wk : writes e.kind = true := by rw [hk]; rfl
    rw [if_pos rk] at eL
    rw [if_pos wk] at eS
    obtain ⟨l', h1, h2, h3⟩ := remove_own hL eL (has_own he)
    obtain ⟨s', g1, g2, g3⟩ := remove_own hS eS (has_own he)
    exact ⟨⟨l', s'⟩, by simp [clearWatchpoint, hk, h1, g1],
      ⟨⟨h2, g2⟩, h3.trans (hoff _).symm, g3.trans (hoff _).symm, hval⟩⟩

/-! ## Commands -/

theorem split_at {S : List Entry} {i : Nat} {e : Entry} (h : S[i]? = some e) :
    ∃ p q, S = p ++ e :: q ∧ ∀ e', S.set i e' = p ++ e' :: q := by
  obtain ⟨hi, rfl⟩ := List.getElem?_eq_some_iff.mp h
  refine ⟨S.take i, S.drop (i + 1), ?_, fun e' => List.set_eq_take_append_cons_drop .. |>.trans (by rw [if_pos hi])⟩
  rw [List.getElem_cons_drop, List.take_append_drop]

theorem clearAll_spec : ∀ (q p : List Entry) (w : Watcher), Inv w (p ++ q) →
    (clearAll w q).2 = q.map (fun e => { e with active := false })
    ∧ Inv (clearAll w q).1 (p ++ q.map (fun e => { e with active := false })) := by
  intro q
  induction q with
  | nil => intro p w h; exact ⟨rfl, h⟩
  | cons e q ih =>
    intro p w h
    unfold clearAll
    by_cases ha : e.active = false
    · rw [if_pos ha]
      dsimp only
      have he : ({ e with active := false } : Entry) = e := by rw [← ha]
      obtain ⟨h1, h2⟩ := ih (p ++ [e]) w (by rw [List.append_assoc]; exact h)
      rw [List.append_assoc] at h2
      rw [List.map_cons, he, h1]
      exact ⟨rfl, h2⟩
    · rw [if_neg ha]
      dsimp only
      obtain ⟨w', h1, h2⟩ := clear_spec h (by simpa using ha)
      rw [h1]
      dsimp only
      obtain ⟨h3, h4⟩ := ih (p ++ [{ e with active := false }]) w' (by rw [List.append_assoc]; exact h2)
      rw [List.append_assoc] at h4
      rw [h3, List.map_cons]
      exact ⟨rfl, h4⟩

/-- The entry `clearFirst` is about. -/
theorem clearFirst_split (w : Watcher) (a : BitVec 64) (k : Kind) (S : List Entry) :
    (clearFirst w a k S = (w, S) ∧ ∀ e ∈ S, ¬ (e.address = a ∧ e.kind = k))
    ∨ ∃ p e q, S = p ++ e :: q ∧ e.address = a ∧ e.kind = k
        ∧ (∀ f ∈ p, ¬ (f.address = a ∧ f.kind = k))
        ∧ clearFirst w a k S = ((clearWatchpoint w a k).1,
            p ++ (if (clearWatchpoint w a k).2 then { e with active := false } else e) :: q) := by
  induction S with
  | nil => exact Or.inl ⟨rfl, fun e h => absurd h List.not_mem_nil⟩
  | cons x S ih =>
    by_cases hx : x.address = a ∧ x.kind = k
    · refine Or.inr ⟨[], x, S, rfl, hx.1, hx.2, fun f h => absurd h List.not_mem_nil, ?_⟩
      unfold clearFirst
      rw [if_pos hx]
      rfl
    · rcases ih with ⟨h1, h2⟩ | ⟨p, e, q, h1, h2, h3, h4, h5⟩
      · refine Or.inl ⟨?_, ?_⟩
        · unfold clearFirst
          rw [if_neg hx, h1]
        · intro e he
          rcases List.mem_cons.mp he with rfl | he
          · exact hx
          · exact h2 e he
      · refine Or.inr ⟨x :: p, e, q, by rw [h1]; rfl, h2, h3, ?_, ?_⟩
        · intro f hf
          rcases List.mem_cons.mp hf with rfl | hf
          · exact hx
          · exact h4 f hf
        · unfold clearFirst
          rw [if_neg hx, h5]
          rfl

theorem deactivate_none {a : BitVec 64} {k : Kind} {S : List Entry}
    (h : ∀ e ∈ S, ¬ (e.active = true ∧ e.address = a ∧ e.kind = k)) : Spec.deactivate a k S = S := by
  induction S with
  | nil => rfl
  | cons x S ih =>
    unfold Spec.deactivate
    rw [if_neg (h x List.mem_cons_self), ih (fun e he => h e (List.mem_cons_of_mem _ he))]

theorem deactivate_split {a : BitVec 64} {k : Kind} {p q : List Entry} {e : Entry}
    (hp : ∀ f ∈ p, ¬ (f.address = a ∧ f.kind = k)) (he : e.active = true ∧ e.address = a ∧ e.kind = k) :
    Spec.deactivate a k (p ++ e :: q) = p ++ { e with active := false } :: q := by
  induction p with
  | nil => rw [List.nil_append, Spec.deactivate, if_pos he]; rfl
  | cons x p ih =>
    rw [List.cons_append, Spec.deactivate, if_neg (fun h => hp x List.mem_cons_self h.2),
      ih (fun f hf => hp f (List.mem_cons_of_mem _ hf))]
    rfl

/-- An address nothing is watched at cannot be cleared. -/
theorem clear_unwatched {w : Watcher} {S : List Entry} (hI : Inv w S) (a : BitVec 64) (k : Kind)
    (h : ∀ f ∈ S, f.active = true → Spec.Shares k f.kind →
      ¬ (f.address.toNat ≤ a.toNat ∧ a.toNat < f.address.toNat + f.length.toNat)) :
    clearWatchpoint w a k = (w, false) := by
  obtain ⟨-, pL, pS, hv⟩ := hI
  have hno : ∀ (f : Kind → Bool) (l : List Range), List.Perm l (ranges f S) →
      (∀ g : Entry, f g.kind = true → Spec.Shares k g.kind) → remove l a = none := by
    intro f l hp hs
    refine remove_none (fun r hr => ?_)
    obtain ⟨g, hg, ha, hf, rfl⟩ := mem_ranges.mp (hp.mem_iff.mp hr)
    cases hb : (range g).has a with
    | false => rfl
    | true => exact absurd ((valid_has (hv g hg) a).mp hb) (h g hg ha (hs g hf))
  cases k with
  | load =>
    simp [clearWatchpoint, hno reads _ pL (fun g hg => Or.inl ⟨Or.inl rfl, (reads_iff _).mp hg⟩)]
  | store =>
    simp [clearWatchpoint, hno writes _ pS (fun g hg => Or.inr ⟨Or.inl rfl, (writes_iff _).mp hg⟩)]
  | loadStore =>
    simp [clearWatchpoint, hno reads _ pL (fun g hg => Or.inl ⟨Or.inr rfl, (reads_iff _).mp hg⟩)]

/-- One command. -/
theorem step_spec {s : State} (hI : Inv s.watcher s.entries) (c : Cmd)
    (hd : ¬ Spec.Deviates s.entries c) :
    (step s c).entries = Spec.step s.entries c ∧ Inv (step s c).watcher (step s c).entries := by
  obtain ⟨w, S⟩ := s
  dsimp only at hI hd ⊢
  cases c with
  | set a n k =>
    obtain ⟨h1, h2⟩ := set_spec hI ⟨a, n, k, true⟩ hd
    dsimp only at h1 h2
    unfold step Spec.step
    dsimp only
    by_cases hf : Spec.Free S a.toNat n.toNat k
    · obtain ⟨w', e1, g, hv, eL, eS⟩ := h1 hf
      rw [if_pos hf, e1]
      refine ⟨rfl, ⟨g, ?_, ?_, ?_⟩⟩
      · rw [eL]
        refine List.Perm.trans (List.Perm.append_left _ hI.loads) ?_
        have := (ranges_split reads S [] ⟨a, n, k, true⟩).symm
        rw [List.append_nil, Bool.true_and] at this
        exact this
      · rw [eS]
        refine List.Perm.trans (List.Perm.append_left _ hI.stores) ?_
        have := (ranges_split writes S [] ⟨a, n, k, true⟩).symm
        rw [List.append_nil, Bool.true_and] at this
        exact this
      · intro x hx
        rcases List.mem_append.mp hx with hx | hx
        · exact hI.valid x hx
        · rw [List.mem_singleton] at hx
          rw [hx]; exact hv
    · rw [if_neg hf, h2 hf]
      exact ⟨rfl, hI⟩
  | setN i =>
    unfold step Spec.step
    dsimp only
    cases hi : S[i]? with
    | none => exact ⟨rfl, hI⟩
    | some e =>
      dsimp only
      obtain ⟨p, q, rfl, hset⟩ := split_at hi
      have hv := hI.valid e (by simp)
      by_cases ha : e.active = true
      · simp only [ha, if_true, Bool.true_eq_false, false_and, if_false, true_and]
        exact hI
      · have ha' : e.active = false := by simpa using ha
        rw [if_neg ha]
        obtain ⟨h1, h2⟩ := set_spec hI e (by
          rintro ⟨-, h0⟩
          have := hv.1
          rw [h0] at this
          exact absurd this (by decide))
        by_cases hf : Spec.Free (p ++ e :: q) e.address.toNat e.length.toNat e.kind
        · obtain ⟨w', e1, g, -, eL, eS⟩ := h1 hf
          simp only [e1, ha', hf, and_self, if_true, hset]
          have key : ∀ f, List.Perm ((if f e.kind then [range e] else []) ++ ranges f (p ++ e :: q))
              (ranges f (p ++ { e with active := true } :: q)) := by
            intro f
            have o := ranges_split f p q e
            rw [ha', Bool.false_and] at o
            have n := ranges_split f p q { e with active := true }
            rw [Bool.true_and] at n
            exact (List.Perm.append_left _ o).trans n.symm
          refine ⟨trivial, ⟨g, ?_, ?_, ?_⟩⟩
          · rw [eL]; exact (List.Perm.append_left _ hI.loads).trans (key reads)
          · rw [eS]; exact (List.Perm.append_left _ hI.stores).trans (key writes)
          · intro x hx
            rw [List.mem_append, List.mem_cons] at hx
            rcases hx with h | rfl | h
            · exact hI.valid x (by simp [h])
            · exact hv
            · exact hI.valid x (by simp [h])
        · simp only [h2 hf, hf, and_false, if_false, true_and, Bool.false_eq_true]
          exact hI
  | clearN i =>
    unfold step Spec.step
    dsimp only
    cases hi : S[i]? with
    | none => exact ⟨rfl, hI⟩
    | some e =>
      dsimp only
      obtain ⟨p, q, rfl, hset⟩ := split_at hi
      by_cases ha : e.active = false
      · rw [if_pos ha, hset]
        have he : ({ e with active := false } : Entry) = e := by rw [← ha]
        rw [he]
        exact ⟨rfl, hI⟩
      · rw [if_neg ha]
        obtain ⟨w', h1, h2⟩ := clear_spec hI (by simpa using ha)
        rw [h1]
        dsimp only
        rw [if_pos rfl, hset]
        exact ⟨rfl, h2⟩
  | clearAll =>
    obtain ⟨h1, h2⟩ := clearAll_spec S [] w hI
    unfold step Spec.step
    dsimp only
    rw [h1]
    exact ⟨rfl, h2⟩
  | clear a k =>
    unfold step Spec.step
    dsimp only
    rcases clearFirst_split w a k S with ⟨h1, h2⟩ | ⟨p, e, q, hS, h2, h3, h4, h5⟩
    · rw [h1, deactivate_none (fun e he h => h2 e he h.2)]
      exact ⟨rfl, hI⟩
    · by_cases ha : e.active = true
      · subst hS
        obtain ⟨w', g1, g2⟩ := clear_spec hI ha
        rw [h2, h3] at g1
        rw [g1] at h5
        rw [h5, deactivate_split h4 ⟨ha, h2, h3⟩]
        exact ⟨rfl, g2⟩
      · have ha' : e.active = false := by simpa using ha
        have hun : ∀ f ∈ S, f.active = true → Spec.Shares k f.kind →
            ¬ (f.address.toNat ≤ a.toNat ∧ a.toNat < f.address.toNat + f.length.toNat) := by
          intro f hf hact hsh hin
          exact hd ⟨⟨p, e, q, hS, ha', h2, h3, h4⟩, f, hf, hact, hsh, hin⟩
        have hc := clear_unwatched hI a k hun
        rw [hc] at h5
        dsimp only at h5
        rw [if_neg (by simp), ← hS] at h5
        rw [h5, deactivate_none]
        · exact ⟨rfl, hI⟩
        · rintro f hf ⟨f1, f2, f3⟩
          refine hun f hf f1 ?_ ?_
          · rw [f3]
            cases k
            · exact Or.inl ⟨Or.inl rfl, Or.inl rfl⟩
            · exact Or.inr ⟨Or.inl rfl, Or.inl rfl⟩
            · exact Or.inl ⟨Or.inr rfl, Or.inr rfl⟩
          · rw [f2]
            have := (hI.valid f hf).1
            omega

theorem run_spec {S T : List Entry} {cs : List Cmd} (h : Spec.Follows S cs T) :
    ∀ s : State, s.entries = S → Inv s.watcher s.entries →
      (run s cs).entries = T ∧ Inv (run s cs).watcher T := by
  induction h with
  | nil => intro s h1 h2; rw [h1] at h2; exact ⟨h1, h2⟩
  | @cons S c cs T hd _ ih =>
    intro s h1 h2
    subst h1
    obtain ⟨e1, e2⟩ := step_spec h2 c hd
    exact ih (step s c) e1 e2

theorem inv_empty : Inv {} [] :=
  ⟨good_empty, List.Perm.refl _, List.Perm.refl _, fun _ h => absurd h List.not_mem_nil⟩

/-- C115: after any history of the shell's watchpoint commands, none of which deviates, the list has the
entries it should have, and the loads and stores that stop the core are exactly those that touch an
entry listed as active.

Missing: the commands of `Spec.Deviates`, see `C115_clear_violated` and C106. -/
theorem C115_list_partial (cs : List Cmd) (T : List Entry) (h : Spec.Follows [] cs T) :
    (run {} cs).entries = T
    ∧ ∀ (isStore : Bool) (a : BitVec 64) (size : Nat), 0 < size → a.toNat + size ≤ 2 ^ 64 →
        (triggers (run {} cs).watcher .instruction isStore a size = true
          ↔ Spec.Touches T isStore a.toNat size) := by
  obtain ⟨h1, h2⟩ := run_spec h {} rfl inv_empty
  refine ⟨h1, fun isStore a size h3 h4 => ?_⟩
  rw [triggers_iff _ h2.good isStore a size h3 h4]
  unfold Watch.Spec.Touches Spec.Touches watched
  have key : ∀ (f : Kind → Bool) (l : List Range), List.Perm l (ranges f T) →
      ((∃ s ∈ l.map st, Overlap a.toNat size s.1 s.2)
        ↔ ∃ e ∈ T, e.active = true ∧ f e.kind = true
            ∧ Overlap a.toNat size e.address.toNat e.length.toNat) := by
    intro f l hp
    constructor
    · rintro ⟨s, hs, ho⟩
      obtain ⟨r, hr, rfl⟩ := List.mem_map.mp hs
      obtain ⟨e, he, ha, hf, rfl⟩ := mem_ranges.mp (hp.mem_iff.mp hr)
      rw [(valid_range (h2.valid e he)).2.2] at ho
      exact ⟨e, he, ha, hf, ho⟩
    · rintro ⟨e, he, ha, hf, ho⟩
      refine ⟨st (range e), List.mem_map_of_mem (hp.mem_iff.mpr (mem_ranges.mpr ⟨e, he, ha, hf, rfl⟩)), ?_⟩
      rw [(valid_range (h2.valid e he)).2.2]
      exact ho
  cases isStore with
  | false =>
    have := key reads _ h2.loads
    simp only [reads_iff] at this
    simpa using this
  | true =>
    have := key writes _ h2.stores
    simp only [writes_iff] at this
    simpa using this

/-- If a watchpoint was cleared and then set anew, `watch clear VALUE` finds the old entry: the new one
stays listed as active, although no access stops at it any more and `watch set #1` does nothing. For
every stretch and kind of access. -/
theorem C115_clear_violated (a n : BitVec 64) (k : Kind) (h0 : 0 < n.toNat)
    (h1 : a.toNat + n.toNat ≤ 2 ^ 64) :
    let s := run {} [.set a n k, .clearN 0, .set a n k, .clear a k]
    s.entries = [⟨a, n, k, false⟩, ⟨a, n, k, true⟩]
    ∧ (∀ isStore b size, triggers s.watcher .instruction isStore b size = false)
    ∧ step s (.setN 1) = s := by
  have hv : Valid ⟨a, n, k, true⟩ := ⟨h0, h1⟩
  have hult : ¬ ((a + n - 1#64).ult a = true) := by
    obtain ⟨e1, e2, -⟩ := valid_range hv
    rw [BitVec.ult, decide_eq_true_eq]
    have : (a + n - 1#64).toNat = a.toNat + n.toNat - 1 := e2
    omega
  have hhas : Range.has ⟨a, a + n - 1#64⟩ a = true := has_own hv
  have hset : setWatchpoint {} a n k = (⟨if reads k then [⟨a, a + n - 1#64⟩] else [],
      if writes k then [⟨a, a + n - 1#64⟩] else []⟩, true) := by
    cases k <;> simp [setWatchpoint, add, hult, reads, writes]
  have hclr : clearWatchpoint ⟨if reads k then [⟨a, a + n - 1#64⟩] else [],
      if writes k then [⟨a, a + n - 1#64⟩] else []⟩ a k = ({}, true) := by
    cases k <;> simp [clearWatchpoint, remove, hhas, reads, writes]
  intro s
  have hs : s = ⟨{}, [⟨a, n, k, false⟩, ⟨a, n, k, true⟩]⟩ := by
    show run {} [.set a n k, .clearN 0, .set a n k, .clear a k] = _
    simp [run, step, hset, hclr, clearFirst]
  rw [hs]
  refine ⟨rfl, ?_, rfl⟩
  intro isStore b size
  cases isStore <;> rfl

/-! ## Cases that meet the hypotheses -/

theorem follows_snoc {S T : List Entry} {cs : List Cmd} {c : Cmd} (h : Spec.Follows S cs T)
    (hc : ¬ Spec.Deviates T c) : Spec.Follows S (cs ++ [c]) (Spec.step T c) := by
  induction h with
  | nil => exact .cons hc .nil
  | cons hd _ ih => exact .cons hd (ih hc)

def sample : List Cmd :=
  [.set 0x100#64 4#64 .loadStore, .set 0x102#64 4#64 .load, .set 0x200#64 8#64 .store, .clearN 0,
   .set 0x102#64 4#64 .load, .setN 0]

example : (run {} (sample ++ [.clear 0x200#64 .store])).entries = [⟨0x100#64, 4#64, .loadStore, false⟩,
    ⟨0x200#64, 8#64, .store, false⟩, ⟨0x102#64, 4#64, .load, true⟩] := by decide

-- None of its commands deviates.
example : ∃ T, Spec.Follows [] (sample ++ [.clear 0x200#64 .store]) T := by
  have h6 : ∃ T, Spec.Follows [] sample T := by
    refine ⟨_, .cons ?_ (.cons ?_ (.cons ?_ (.cons (fun h => h) (.cons ?_ (.cons (fun h => h) .nil)))))⟩
    all_goals
      rintro ⟨h, -⟩
      exact absurd h (by decide)
  obtain ⟨T, h⟩ := h6
  have hT : T = [⟨0x100#64, 4#64, .loadStore, false⟩, ⟨0x200#64, 8#64, .store, true⟩,
      ⟨0x102#64, 4#64, .load, true⟩] :=
    (run_spec h {} rfl inv_empty).1.symm.trans (by decide)
  refine ⟨_, follows_snoc h ?_⟩
  rintro ⟨⟨p, e, q, hS, h1, h2, h3, -⟩, -⟩
  have he : e ∈ T := by rw [hS]; simp
  rw [hT] at he
  simp only [List.mem_cons, List.not_mem_nil, or_false] at he
  rcases he with rfl | rfl | rfl
  · exact absurd h2 (by decide)
  · exact absurd h1 (by decide)
  · exact absurd h2 (by decide)

-- A watchpoint cleared and set anew, then cleared by its address.
example : (run {} [.set 0x100#64 4#64 .load, .clearN 0, .set 0x100#64 4#64 .load,
    .clear 0x100#64 .load]).entries = [⟨0x100#64, 4#64, .load, false⟩, ⟨0x100#64, 4#64, .load, true⟩] := by
  decide

end Verif.ShellWatch
