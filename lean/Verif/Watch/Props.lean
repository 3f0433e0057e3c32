import Verif.Watch.Model
import Verif.Watch.Spec
/-
C105: watchpoints stop the program at the accesses to their range.
C106: watchpoints concern the program's accesses, all of them, and calls are all or nothing.
-/
namespace Verif.Watch

/-- A range as a stretch. -/
def st (r : Range) : Nat × Nat := (r.lo.toNat, r.hi.toNat + 1 - r.lo.toNat)

/-- Ranges in order and disjoint. -/
def Ok (l : List Range) : Prop :=
  (∀ r ∈ l, r.lo.toNat ≤ r.hi.toNat) ∧ l.Pairwise (fun r s => r.meets s = false)

theorem overlap_iff (a n b m : Nat) (hn : 0 < n) (hm : 0 < m) :
    Spec.Overlap a n b m ↔ a < b + m ∧ b < a + n := by
  unfold Spec.Overlap
  constructor
  · rintro ⟨x, ⟨h1, h2⟩, h3, h4⟩
    omega
  · rintro ⟨h1, h2⟩
    by_cases h : a ≤ b
    · exact ⟨b, ⟨h, h2⟩, by omega, by omega⟩
    · exact ⟨a, ⟨by omega, by omega⟩, by omega, h1⟩

theorem meets_iff (r s : Range) (hr : r.lo.toNat ≤ r.hi.toNat) (hs : s.lo.toNat ≤ s.hi.toNat) :
    r.meets s = true ↔ Spec.Overlap (st r).1 (st r).2 (st s).1 (st s).2 := by
  rw [overlap_iff _ _ _ _ (by simp only [st]; omega) (by simp only [st]; omega)]
  unfold Range.meets st
  simp only [BitVec.ult, Bool.not_or, Bool.and_eq_true, Bool.not_eq_true', decide_eq_false_iff_not]
  omega

theorem has_iff (r : Range) (a : BitVec 64) (hr : r.lo.toNat ≤ r.hi.toNat) :
    r.has a = true ↔ (st r).1 ≤ a.toNat ∧ a.toNat < (st r).1 + (st r).2 := by
  unfold Range.has st
  simp only [BitVec.ult, Bool.not_or, Bool.and_eq_true, Bool.not_eq_true', decide_eq_false_iff_not]
  omega

/-- The range of a call, unless it is the empty one at 0. -/
theorem range_cases (a n : BitVec 64) (h : ¬ (a = 0#64 ∧ n = 0#64)) :
    (0 < n.toNat ∧ a.toNat + n.toNat ≤ 2 ^ 64
      ∧ (a + n - 1#64).toNat = a.toNat + n.toNat - 1)
    ∨ (¬ (0 < n.toNat ∧ a.toNat + n.toNat ≤ 2 ^ 64) ∧ (a + n - 1#64).toNat < a.toNat) := by
  have ha := a.isLt
  have hn := n.isLt
  have h' : ¬ (a.toNat = 0 ∧ n.toNat = 0) := by
    rintro ⟨h1, h2⟩
    exact h ⟨BitVec.eq_of_toNat_eq h1, BitVec.eq_of_toNat_eq h2⟩
  have e : (a + n - 1#64).toNat = (2 ^ 64 - 1 + (a.toNat + n.toNat) % 2 ^ 64) % 2 ^ 64 := by
    rw [BitVec.toNat_sub, BitVec.toNat_add]
    rfl
  rw [e]
  omega

/-- Setting is the specification's. -/
theorem add_eq (l : List Range) (a n : BitVec 64) (hl : Ok l) (h : ¬ (a = 0#64 ∧ n = 0#64)) :
    (add l ⟨a, a + n - 1#64⟩).map (List.map st) = Spec.add (l.map st) a.toNat n.toNat
    ∧ ∀ l', add l ⟨a, a + n - 1#64⟩ = some l' → Ok l' ∧ l' = ⟨a, a + n - 1#64⟩ :: l := by
  rcases range_cases a n h with ⟨h1, h2, h3⟩ | ⟨h1, h2⟩
  · have hlt : ¬ ((a + n - 1#64).ult a = true) := by
      simp only [BitVec.ult, decide_eq_true_eq]; omega
    have hr : a.toNat ≤ (a + n - 1#64).toNat := by omega
    have hst : st ⟨a, a + n - 1#64⟩ = (a.toNat, n.toNat) := by
      simp only [st, h3]
      exact Prod.ext rfl (by simp only; omega)
    have hany : l.any (fun s => Range.meets ⟨a, a + n - 1#64⟩ s) = true
        ↔ ¬ ∀ s ∈ l.map st, ¬ Spec.Overlap a.toNat n.toNat s.1 s.2 := by
      rw [List.any_eq_true]
      constructor
      · rintro ⟨s, hs, hm⟩ hall
        rw [meets_iff _ _ hr (hl.1 s hs), hst] at hm
        exact hall (st s) (List.mem_map_of_mem hs) hm
      · intro hn
        apply Classical.byContradiction
        intro hno
        apply hn
        intro s hs ho
        obtain ⟨q, hq, rfl⟩ := List.mem_map.mp hs
        apply hno
        refine ⟨q, hq, ?_⟩
        rw [meets_iff _ _ hr (hl.1 q hq), hst]
        exact ho
    unfold add Spec.add
    rw [if_neg hlt]
    by_cases hm : l.any (fun s => Range.meets ⟨a, a + n - 1#64⟩ s) = true
    · rw [if_pos hm, if_neg (fun hc => hany.mp hm hc.2.2)]
      exact ⟨rfl, fun l' hc => by cases hc⟩
    · rw [if_neg hm, if_pos ⟨h1, h2, Classical.byContradiction (fun hc => hm (hany.mpr hc))⟩]
      refine ⟨by simp only [Option.map_some, List.map_cons, hst], ?_⟩
      intro l' hl'
      cases hl'
      refine ⟨⟨?_, ?_⟩, rfl⟩
      · intro r hr'
        rcases List.mem_cons.mp hr' with rfl | hr'
        · exact hr
        · exact hl.1 r hr'
      · refine List.pairwise_cons.mpr ⟨?_, hl.2⟩
        intro s hs
        cases hb : Range.meets ⟨a, a + n - 1#64⟩ s with
        | false => rfl
        | true => exact absurd (List.any_eq_true.mpr ⟨s, hs, hb⟩) hm
  · have hlt : (a + n - 1#64).ult a = true := by
      simp only [BitVec.ult, decide_eq_true_eq]; omega
    unfold add Spec.add
    rw [if_pos hlt, if_neg (fun hc => h1 ⟨hc.1, hc.2.1⟩)]
    exact ⟨rfl, fun l' hc => by cases hc⟩

theorem meets_of_has (r s : Range) (a : BitVec 64) (h1 : r.has a = true) (h2 : s.has a = true) :
    r.meets s = true := by
  unfold Range.has at h1 h2
  unfold Range.meets
  simp only [BitVec.ult, Bool.not_or, Bool.and_eq_true, Bool.not_eq_true',
    decide_eq_false_iff_not] at h1 h2 ⊢
  omega

/-- In disjoint ranges, the range with an address is the only one. -/
theorem eraseP_eq_filter (a : BitVec 64) : ∀ l : List Range, Ok l →
    l.eraseP (fun r => r.has a) = l.filter (fun r => !r.has a) := by
  intro l
  induction l with
  | nil => intro _; rfl
  | cons r l ih =>
    intro hl
    have hl' : Ok l := ⟨fun s hs => hl.1 s (List.mem_cons_of_mem _ hs), (List.pairwise_cons.mp hl.2).2⟩
    cases hb : r.has a with
    | true =>
      rw [List.eraseP_cons_of_pos (p := fun r : Range => r.has a) hb, List.filter_cons_of_neg (by simp [hb])]
      refine (List.filter_eq_self.mpr ?_).symm
      intro s hs
      cases hc : s.has a with
      | false => rfl
      | true =>
        have h1 := (List.pairwise_cons.mp hl.2).1 s hs
        rw [meets_of_has r s a hb hc] at h1
        cases h1
    | false =>
      rw [List.eraseP_cons_of_neg (by simp [hb]), List.filter_cons_of_pos (by simp [hb]), ih hl']

/-- Removing is the specification's. -/
theorem remove_eq (l : List Range) (a : BitVec 64) (hl : Ok l) :
    (remove l a).map (List.map st) = Spec.remove (l.map st) a.toNat
    ∧ ∀ l', remove l a = some l' → Ok l' := by
  have hany : l.any (fun r => r.has a) = true
      ↔ ∃ s ∈ l.map st, s.1 ≤ a.toNat ∧ a.toNat < s.1 + s.2 := by
    rw [List.any_eq_true]
    constructor
    · rintro ⟨r, hr, h⟩
      exact ⟨st r, List.mem_map_of_mem hr, (has_iff r a (hl.1 r hr)).mp h⟩
    · rintro ⟨s, hs, h⟩
      obtain ⟨r, hr, rfl⟩ := List.mem_map.mp hs
      exact ⟨r, hr, (has_iff r a (hl.1 r hr)).mpr h⟩
  unfold remove Spec.remove
  by_cases hm : l.any (fun r => r.has a) = true
  · rw [if_pos hm, if_pos (hany.mp hm), eraseP_eq_filter a l hl]
    constructor
    · simp only [Option.map_some, Option.some.injEq]
      rw [List.filter_map]
      refine congrArg _ (List.filter_congr ?_)
      intro r hr
      have := has_iff r a (hl.1 r hr)
      cases hb : r.has a with
      | true => simp [Function.comp, this.mp hb]
      | false =>
        rw [hb] at this
        simp only [Function.comp, Bool.not_false]
        symm
        rw [decide_eq_true_eq]
        intro hc
        exact absurd (this.mpr hc) (by simp)
    · intro l' hl'
      cases hl'
      exact ⟨fun r hr => hl.1 r (List.mem_filter.mp hr).1, hl.2.filter _⟩
  · rw [if_neg hm, if_neg (fun h => hm (hany.mpr h))]
    exact ⟨rfl, fun l' hc => by cases hc⟩

/-- The watched stretches of a watcher. -/
def watched (w : Watcher) : Spec.Watched := ⟨w.loads.map st, w.stores.map st⟩

def Good (w : Watcher) : Prop := Ok w.loads ∧ Ok w.stores

/-- One call is the specification's. -/
theorem apply_eq (w : Watcher) (o : Op) (hw : Good w) (ho : Spec.Plain o) :
    Good (apply w o).1
    ∧ (match Spec.call (watched w) o with
        | some w' => watched (apply w o).1 = w' ∧ (apply w o).2 = true
        | none => (apply w o).1 = w ∧ (apply w o).2 = false) := by
  obtain ⟨hL, hS⟩ := hw
  cases o with
  | set a n k =>
    have hp : ¬ (a = 0#64 ∧ n = 0#64) := ho
    obtain ⟨l1, l2⟩ := add_eq w.loads a n hL hp
    obtain ⟨s1, s2⟩ := add_eq w.stores a n hS hp
    cases k with
    | load =>
      cases e : add w.loads ⟨a, a + n - 1#64⟩ with
      | none =>
        rw [e] at l1
        simp [apply, setWatchpoint, e, Spec.call, watched, ← l1, Good, hL, hS]
      | some l =>
        rw [e] at l1
        have := (l2 l e).1
        simp [apply, setWatchpoint, e, Spec.call, watched, ← l1, Good, hS, this]
    | store =>
      cases e : add w.stores ⟨a, a + n - 1#64⟩ with
      | none =>
        rw [e] at s1
        simp [apply, setWatchpoint, e, Spec.call, watched, ← s1, Good, hL, hS]
      | some l =>
        rw [e] at s1
        have := (s2 l e).1
        simp [apply, setWatchpoint, e, Spec.call, watched, ← s1, Good, hL, this]
    | loadStore =>
      cases e : add w.loads ⟨a, a + n - 1#64⟩ with
      | none =>
        rw [e] at l1
        simp [apply, setWatchpoint, e, Spec.call, watched, ← l1, Good, hL, hS]
      | some l =>
        rw [e] at l1
        obtain ⟨g1, g2⟩ := l2 l e
        cases e' : add w.stores ⟨a, a + n - 1#64⟩ with
        | none =>
          rw [e'] at s1
          have hh : Range.has ⟨a, a + n - 1#64⟩ a = true := by
            rw [has_iff _ _ (g1.1 _ (by rw [g2]; exact List.mem_cons_self))]
            have := g1.1 ⟨a, a + n - 1#64⟩ (by rw [g2]; exact List.mem_cons_self)
            simp only [st] at this ⊢
            omega
          have hrem : remove l a = some w.loads := by
            rw [g2]
            unfold remove
            rw [List.any_cons, hh, Bool.true_or, if_pos rfl,
              List.eraseP_cons_of_pos (p := fun r : Range => r.has a) hh]
          simp [apply, setWatchpoint, e, e', hrem, Spec.call, watched, ← l1, ← s1, Good, hL, hS]
        | some s =>
          rw [e'] at s1
          have := (s2 s e').1
          simp [apply, setWatchpoint, e, e', Spec.call, watched, ← l1, ← s1, Good, g1, this]
  | clear a k =>
    obtain ⟨l1, l2⟩ := remove_eq w.loads a hL
    obtain ⟨s1, s2⟩ := remove_eq w.stores a hS
    cases k with
    | load =>
      cases e : remove w.loads a with
      | none =>
        rw [e] at l1
        simp [apply, clearWatchpoint, e, Spec.call, watched, ← l1, Good, hL, hS]
      | some l =>
        rw [e] at l1
        have := l2 l e
        simp [apply, clearWatchpoint, e, Spec.call, watched, ← l1, Good, hS, this]
    | store =>
      cases e : remove w.stores a with
      | none =>
        rw [e] at s1
        simp [apply, clearWatchpoint, e, Spec.call, watched, ← s1, Good, hL, hS]
      | some l =>
        rw [e] at s1
        have := s2 l e
        simp [apply, clearWatchpoint, e, Spec.call, watched, ← s1, Good, hL, this]
    | loadStore => exact absurd rfl ho

/-- A history of calls is the specification's, results included. -/
theorem applyAll_eq : ∀ (os : List Op) (w : Watcher), Good w → (∀ o ∈ os, Spec.Plain o) →
    Good (applyAll w os).1
    ∧ watched (applyAll w os).1 = (Spec.calls (watched w) os).1
    ∧ (applyAll w os).2 = (Spec.calls (watched w) os).2 := by
  intro os
  induction os with
  | nil => intro w hw _; exact ⟨hw, rfl, rfl⟩
  | cons o os ih =>
    intro w hw ho
    obtain ⟨g, e⟩ := apply_eq w o hw (ho o List.mem_cons_self)
    obtain ⟨i1, i2, i3⟩ := ih (apply w o).1 g (fun o' h => ho o' (List.mem_cons_of_mem _ h))
    cases hc : Spec.call (watched w) o with
    | some w' =>
      rw [hc] at e
      simp only at e
      simp only [applyAll, Spec.calls, hc]
      rw [← e.1, e.2]
      exact ⟨i1, i2, by rw [i3]⟩
    | none =>
      rw [hc] at e
      simp only at e
      simp only [applyAll, Spec.calls, hc]
      rw [e.2]
      rw [e.1] at i1 i2 i3
      rw [e.1]
      exact ⟨i1, i2, by rw [i3]⟩

/-- The accesses that call back are those that touch a watched stretch. -/
theorem triggers_iff (w : Watcher) (hw : Good w) (isStore : Bool) (a : BitVec 64) (size : Nat)
    (h0 : 0 < size) (h1 : a.toNat + size ≤ 2 ^ 64) :
    triggers w .instruction isStore a size = true
      ↔ Spec.Touches (watched w) isStore a.toNat size := by
  have hlast : (a + BitVec.ofNat 64 size - 1#64).toNat = a.toNat + size - 1 := by
    have ha := a.isLt
    rw [BitVec.toNat_sub, BitVec.toNat_add, BitVec.toNat_ofNat]
    show (2 ^ 64 - 1 + (a.toNat + size % 2 ^ 64) % 2 ^ 64) % 2 ^ 64 = _
    omega
  have hst : st ⟨a, a + BitVec.ofNat 64 size - 1#64⟩ = (a.toNat, size) := by
    simp only [st, hlast]
    exact Prod.ext rfl (by simp only; omega)
  have key : ∀ l : List Range, Ok l →
      (l.any (fun r => r.meets ⟨a, a + BitVec.ofNat 64 size - 1#64⟩) = true
        ↔ ∃ s ∈ l.map st, Spec.Overlap a.toNat size s.1 s.2) := by
    intro l hl
    rw [List.any_eq_true]
    constructor
    · rintro ⟨r, hr, h⟩
      rw [meets_iff _ _ (hl.1 r hr) (by simp only [hlast]; omega), hst] at h
      obtain ⟨x, hx1, hx2⟩ := h
      exact ⟨st r, List.mem_map_of_mem hr, x, hx2, hx1⟩
    · rintro ⟨s, hs, x, hx1, hx2⟩
      obtain ⟨r, hr, rfl⟩ := List.mem_map.mp hs
      refine ⟨r, hr, ?_⟩
      rw [meets_iff _ _ (hl.1 r hr) (by simp only [hlast]; omega), hst]
      exact ⟨x, hx2, hx1⟩
  unfold triggers Spec.Touches
  cases isStore with
  | true => exact key w.stores hw.2
  | false => exact key w.loads hw.1

theorem good_empty : Good {} :=
  ⟨⟨fun _ h => absurd h List.not_mem_nil, List.Pairwise.nil⟩,
   ⟨fun _ h => absurd h List.not_mem_nil, List.Pairwise.nil⟩⟩

/-- After any history of calls that set watchpoints, other than the empty one at address 0, or
remove one for loads or one for stores: each call succeeded exactly when it should, and the
loads and stores that stop the core are exactly those that touch a stretch then watched. -/
theorem C105_watchpoints (os : List Op) (h : ∀ o ∈ os, Spec.Plain o) :
    (applyAll {} os).2 = (Spec.calls ⟨[], []⟩ os).2
    ∧ ∀ (isStore : Bool) (a : BitVec 64) (size : Nat), 0 < size → a.toNat + size ≤ 2 ^ 64 →
        (triggers (applyAll {} os).1 .instruction isStore a size = true
          ↔ Spec.Touches (Spec.calls ⟨[], []⟩ os).1 isStore a.toNat size) := by
  obtain ⟨g, e1, e2⟩ := applyAll_eq os {} good_empty h
  refine ⟨e2, ?_⟩
  intro isStore a size h0 h1
  rw [triggers_iff _ g isStore a size h0 h1, e1]
  rfl

/-- A call that is refused changes nothing. -/
theorem C105_refused (os : List Op) (o : Op) (h : ∀ o ∈ os, Spec.Plain o) (ho : Spec.Plain o)
    (hf : (apply (applyAll {} os).1 o).2 = false) :
    (apply (applyAll {} os).1 o).1 = (applyAll {} os).1 := by
  obtain ⟨g, _, _⟩ := applyAll_eq os {} good_empty h
  obtain ⟨_, e⟩ := apply_eq _ o g ho
  cases hc : Spec.call (watched (applyAll {} os).1) o with
  | some w' =>
    rw [hc] at e
    simp only at e
    rw [e.2] at hf
    cases hf
  | none =>
    rw [hc] at e
    exact e.1

/-- Removing both kinds at once, where both are set: both are removed. -/
theorem C106_clear_partial (w : Watcher) (hw : Good w) (a : BitVec 64) (w' : Spec.Watched)
    (hc : Spec.call (watched w) (.clear a .loadStore) = some w') :
    watched (clearWatchpoint w a .loadStore).1 = w' ∧ (clearWatchpoint w a .loadStore).2 = true := by
  obtain ⟨l1, _⟩ := remove_eq w.loads a hw.1
  obtain ⟨s1, _⟩ := remove_eq w.stores a hw.2
  cases e : remove w.loads a with
  | none =>
    rw [e] at l1
    simp [Spec.call, watched, ← l1] at hc
  | some l =>
    rw [e] at l1
    cases e' : remove w.stores a with
    | none =>
      rw [e'] at s1
      simp [Spec.call, watched, ← l1, ← s1] at hc
    | some s =>
      rw [e'] at s1
      simp [Spec.call, watched, ← l1, ← s1] at hc
      rw [← hc]
      simp [clearWatchpoint, e, e', watched]

/-- Where no store watchpoint is set, removing both kinds fails, and has removed the one for
loads. -/
theorem C106_clear_violated (w : Watcher) (hw : Good w) (a : BitVec 64)
    (hl : w.loads.any (fun r => r.has a) = true) (hs : w.stores.any (fun r => r.has a) = false) :
    Spec.call (watched w) (.clear a .loadStore) = none
    ∧ (clearWatchpoint w a .loadStore).2 = false
    ∧ triggers w .instruction false a 1 = true
    ∧ triggers (clearWatchpoint w a .loadStore).1 .instruction false a 1 = false := by
  obtain ⟨l1, l2⟩ := remove_eq w.loads a hw.1
  obtain ⟨s1, _⟩ := remove_eq w.stores a hw.2
  have e : remove w.loads a = some (w.loads.filter (fun r => !r.has a)) := by
    unfold remove
    rw [if_pos hl, eraseP_eq_filter a _ hw.1]
  have e' : remove w.stores a = none := by
    unfold remove
    rw [if_neg (by rw [hs]; simp)]
  rw [e] at l1
  rw [e'] at s1
  have hone : a + BitVec.ofNat 64 1 - 1#64 = a := BitVec.add_sub_cancel a 1#64
  have hmeet : ∀ r : Range, r.meets ⟨a, a⟩ = r.has a := by
    intro r
    unfold Range.meets Range.has
    simp only [Bool.or_comm]
  refine ⟨by simp [Spec.call, watched, ← s1, ← l1], by simp [clearWatchpoint, e, e'], ?_, ?_⟩
  · simp only [triggers, hone, hmeet, Bool.false_eq_true, if_false]
    exact hl
  · have hc : (clearWatchpoint w a .loadStore).1
        = { w with loads := w.loads.filter (fun r => !r.has a) } := by
      simp [clearWatchpoint, e, e']
    simp only [triggers, hone, hmeet, hc, Bool.false_eq_true, if_false]
    simp

/-- The empty stretch at address 0 is accepted and watches the whole memory. -/
theorem C106_empty_violated (k : Kind) (isStore : Bool) (a : BitVec 64) (size : Nat)
    (hk : k = .loadStore ∨ (k = .store ∧ isStore = true) ∨ (k = .load ∧ isStore = false)) :
    (setWatchpoint {} 0#64 0#64 k).2 = true
    ∧ triggers (setWatchpoint {} 0#64 0#64 k).1 .instruction isStore a size = true := by
  have hm : Range.meets ⟨0#64, 0#64 + 0#64 - 1#64⟩ ⟨a, a + BitVec.ofNat 64 size - 1#64⟩ = true := by
    have ha := a.isLt
    unfold Range.meets
    simp only [BitVec.ult, Bool.not_or, Bool.and_eq_true, Bool.not_eq_true', decide_eq_false_iff_not]
    refine ⟨?_, ?_⟩
    · show ¬ (18446744073709551615 < a.toNat)
      omega
    · show ¬ (_ < 0)
      omega
  rcases hk with rfl | ⟨rfl, rfl⟩ | ⟨rfl, rfl⟩
  · have : setWatchpoint {} 0#64 0#64 .loadStore
        = (⟨[⟨0#64, 0#64 + 0#64 - 1#64⟩], [⟨0#64, 0#64 + 0#64 - 1#64⟩]⟩, true) := by decide
    rw [this]
    cases isStore <;> simp only [triggers, List.any_cons, hm, if_true, Bool.false_eq_true, if_false,
      Bool.true_or, and_self]
  · have : setWatchpoint {} 0#64 0#64 .store
        = (⟨[], [⟨0#64, 0#64 + 0#64 - 1#64⟩]⟩, true) := by decide
    rw [this]
    simp only [triggers, List.any_cons, hm, if_true, Bool.true_or, and_self]
  · have : setWatchpoint {} 0#64 0#64 .load
        = (⟨[⟨0#64, 0#64 + 0#64 - 1#64⟩], []⟩, true) := by decide
    rw [this]
    simp only [triggers, List.any_cons, hm, Bool.false_eq_true, if_false, Bool.true_or, and_self]

/-- An atomic never stops the core, whatever is watched. -/
theorem C106_atomic_violated (w : Watcher) (isStore : Bool) (a : BitVec 64) (size : Nat) :
    triggers w .atomic isStore a size = false := rfl

/-- The debugger's own reads and writes of watched memory do. -/
theorem C106_debugger_violated (w : Watcher) (isStore : Bool) (a : BitVec 64) (size : Nat) :
    triggers w .debugger isStore a size = triggers w .instruction isStore a size := rfl

/-! ## Cases -/

-- Two watchpoints that touch no common byte, one refused, one removed through its last byte.
example : (applyAll {} [.set 0x100#64 4#64 .loadStore, .set 0x104#64 4#64 .load,
      .set 0x103#64 2#64 .load, .set 0x103#64 2#64 .loadStore, .clear 0x107#64 .load]).2
    = [true, true, false, false, true] := by decide

example : ∀ o ∈ [Op.set 0x100#64 4#64 .loadStore, .set 0x103#64 2#64 .load, .clear 0x102#64 .store],
    Spec.Plain o := by
  intro o ho
  simp only [List.mem_cons, List.not_mem_nil, or_false] at ho
  rcases ho with rfl | rfl | rfl <;> simp [Spec.Plain]

example : triggers (applyAll {} [.set 0x100#64 4#64 .store]).1 .instruction true 0xff#64 2 = true
    ∧ triggers (applyAll {} [.set 0x100#64 4#64 .store]).1 .instruction true 0xfe#64 2 = false
    ∧ triggers (applyAll {} [.set 0x100#64 4#64 .store]).1 .instruction false 0x100#64 4 = false
    ∧ triggers (applyAll {} [.set 0x100#64 4#64 .store]).1 .debugger true 0x100#64 4 = true := by
  decide

-- A load watchpoint alone meets the hypotheses of the violation.
example : Good (applyAll {} [.set 0x100#64 4#64 .load]).1 :=
  (applyAll_eq _ {} good_empty (fun o ho => by
    simp only [List.mem_cons, List.not_mem_nil, or_false] at ho
    subst ho
    simp [Spec.Plain])).1
example : (applyAll {} [.set 0x100#64 4#64 .load]).1.loads.any (fun r => r.has 0x102#64) = true
    ∧ (applyAll {} [.set 0x100#64 4#64 .load]).1.stores.any (fun r => r.has 0x102#64) = false := by
  decide

end Verif.Watch
