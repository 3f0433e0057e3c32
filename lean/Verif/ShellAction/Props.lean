import Verif.ShellAction.Spec
/-
C116: the shell's list of action points.
-/
namespace Verif.ShellAction
open Spec (Line)

theorem index_small {n : Nat} (h : n < 2 ^ 31) : index n = some (n : Int) := by
  unfold index
  rw [if_pos (by omega)]
  congr 1
  rw [BitVec.toInt_eq_toNat_of_lt (by rw [BitVec.toNat_ofNat]; omega), BitVec.toNat_ofNat]
  omega

def Differ (p q : Nat × Info) : Prop := p.1 ≠ q.1 ∧ ¬ (p.2.address = q.2.address ∧ p.2.id = q.2.id)

theorem differ_symm {p q : Nat × Info} (h : Differ p q) : Differ q p :=
  ⟨fun e => h.1 e.symm, fun e => h.2 ⟨e.1.symm, e.2.symm⟩⟩

theorem pair_mem {l : List (Nat × Info)} (h : l.Pairwise Differ) {p q : Nat × Info} (hp : p ∈ l)
    (hq : q ∈ l) : p = q ∨ Differ p q := by
  induction l with
  | nil => exact absurd hp List.not_mem_nil
  | cons x l ih =>
    obtain ⟨h1, h2⟩ := List.pairwise_cons.mp h
    rcases List.mem_cons.mp hp with rfl | hp'
    · rcases List.mem_cons.mp hq with rfl | hq
      · exact Or.inl rfl
      · exact Or.inr (h1 q hq)
    · rcases List.mem_cons.mp hq with h3 | hq
      · exact Or.inr (by rw [h3]; exact differ_symm (h1 p hp'))
      · exact ih h2 hp' hq

/-- The manager has what the map has; numbers and actions are all different. -/
structure Inv (s : State) : Prop where
  same : s.manager = s.map.map (·.2)
  differ : s.map.Pairwise Differ
  below : ∀ p ∈ s.map, p.1 < s.next

def view (s : State) : Spec.List' := { lines := listed s, next := s.next }

theorem find_some {s : State} {n : Nat} (hn : n < 2 ^ 31) {p : Nat × Info} (h : find s.map n = some p) :
    p ∈ s.map ∧ p.1 = n := by
  unfold find at h
  rw [index_small hn] at h
  dsimp only at h
  have h1 := List.find?_some h
  have h2 := List.mem_of_find?_eq_some h
  rw [decide_eq_true_eq] at h1
  exact ⟨h2, by omega⟩

theorem find_none {s : State} {n : Nat} (hn : n < 2 ^ 31) (h : find s.map n = none) :
    ∀ p ∈ s.map, p.1 ≠ n := by
  unfold find at h
  rw [index_small hn] at h
  dsimp only at h
  intro p hp e
  have := List.find?_eq_none.mp h p hp
  rw [decide_eq_true_eq] at this
  exact this (by omega)

theorem same_iff {s : State} (hI : Inv s) {p q : Nat × Info} (hp : p ∈ s.map) (hq : q ∈ s.map) :
    q.1 = p.1 ↔ (q.2.address = p.2.address ∧ q.2.id = p.2.id) := by
  rcases pair_mem hI.differ hq hp with rfl | h
  · exact ⟨fun _ => ⟨rfl, rfl⟩, fun _ => rfl⟩
  · exact ⟨fun e => absurd e h.1, fun e => absurd e h.2⟩

theorem view_mark (map : List (Nat × Info)) (k : Nat) (b : Bool) :
    (mark map k b).map (fun p => (p.1, p.2.address, p.2.enabled, p.2.name))
      = (map.map (fun p => (p.1, p.2.address, p.2.enabled, p.2.name))).map (Spec.setFlag k b) := by
  unfold mark
  rw [List.map_map, List.map_map]
  refine List.map_congr_left (fun p _ => ?_)
  simp only [Function.comp, Spec.setFlag]
  by_cases h : p.1 = k
  · rw [if_pos h, if_pos h]
  · rw [if_neg h, if_neg h]

theorem mark_same {map : List (Nat × Info)} {k : Nat} {b : Bool}
    (h : ∀ p ∈ map, p.1 = k → p.2.enabled = b) : mark map k b = map := by
  unfold mark
  conv => rhs; rw [← List.map_id map]
  refine List.map_congr_left (fun p hp => ?_)
  by_cases hk : p.1 = k
  · rw [if_pos hk, ← h p hp hk]; rfl
  · rw [if_neg hk]; rfl

theorem mark_keys {map : List (Nat × Info)} {k : Nat} {b : Bool} (h : map.Pairwise Differ) :
    (mark map k b).Pairwise Differ := by
  unfold mark
  rw [List.pairwise_map]
  refine h.imp (fun {p q} hd => ?_)
  unfold Differ at hd ⊢
  by_cases h1 : p.1 = k <;> by_cases h2 : q.1 = k <;> simp only [h1, h2, if_true, if_false] <;>
    simp_all

theorem switch_spec {s : State} (hI : Inv s) {n : Nat} (hn : n < 2 ^ 31) (b : Bool) :
    Inv (switch s n b) ∧ view (switch s n b) = { view s with lines := (view s).lines.map (Spec.setFlag n b) } := by
  unfold switch
  cases hf : find s.map n with
  | none =>
    refine ⟨hI, ?_⟩
    have := mark_same (b := b) (fun p hp e => absurd e (find_none hn hf p hp))
    unfold view listed
    dsimp only
    rw [← view_mark, this]
  | some p =>
    obtain ⟨k, info⟩ := p
    obtain ⟨hp, hk⟩ := find_some hn hf
    dsimp only at hk ⊢
    subst hk
    by_cases he : info.enabled = b
    · rw [if_pos he]
      refine ⟨hI, ?_⟩
      have := mark_same (map := s.map) (k := k) (b := b) (fun q hq e => by
        rcases pair_mem hI.differ hq hp with rfl | h
        · exact he
        · exact absurd e h.1)
      unfold view listed
      dsimp only
      rw [← view_mark, this]
    · rw [if_neg he]
      refine ⟨⟨?_, mark_keys hI.differ, ?_⟩, ?_⟩
      · show setEnabled s.manager info.address info.id b = (mark s.map k b).map (·.2)
        rw [hI.same]
        unfold setEnabled mark
        rw [List.map_map, List.map_map]
        refine List.map_congr_left (fun q hq => ?_)
        have hs := same_iff hI hp hq
        dsimp only [Function.comp] at hs ⊢
        by_cases h : q.1 = k
        · rw [if_pos h, if_pos (hs.mp h)]
        · rw [if_neg h, if_neg (fun e => h (hs.mpr e))]
      · intro q hq
        unfold mark at hq
        obtain ⟨r, hr, rfl⟩ := List.mem_map.mp hq
        have := hI.below r hr
        by_cases h : r.1 = k
        · rw [if_pos h]; exact this
        · rw [if_neg h]; exact this
      · unfold view listed
        dsimp only
        rw [view_mark]

theorem step_spec {s : State} (hI : Inv s) (c : Cmd) (hp : Spec.Plain c)
    (hf : ∀ a name id, c = .set a name (some id) → ∀ x ∈ s.manager, ¬ (x.address = a ∧ x.id = id)) :
    Inv (step s c) ∧ view (step s c) = Spec.step (view s) c := by
  cases c with
  | set a name answer =>
    cases answer with
    | none => exact ⟨hI, rfl⟩
    | some id =>
      have hf := hf a name id rfl
      refine ⟨⟨?_, ?_, ?_⟩, ?_⟩
      · show s.manager ++ _ = (s.map ++ _).map _
        rw [List.map_append, hI.same]
        rfl
      · show (s.map ++ _).Pairwise Differ
        refine List.pairwise_append.mpr ⟨hI.differ, List.pairwise_singleton _ _, ?_⟩
        intro p hp q hq
        rw [List.mem_singleton] at hq
        subst hq
        refine ⟨?_, ?_⟩
        · have := hI.below p hp
          dsimp only
          omega
        · exact hf p.2 (by rw [hI.same]; exact List.mem_map_of_mem hp)
      · intro p hp
        show p.1 < s.next + 1
        rcases List.mem_append.mp hp with hp | hp
        · have := hI.below p hp; omega
        · rw [List.mem_singleton] at hp
          rw [hp]; dsimp only; omega
      · unfold view listed step Spec.step
        dsimp only
        rw [List.map_append]
        rfl
  | enable n => exact switch_spec hI hp true
  | disable n => exact switch_spec hI hp false
  | clearAll => exact absurd hp id
  | clear n =>
    have hn : n < 2 ^ 31 := hp
    have hfilter : ∀ k : Nat, (s.map.filter fun p => !(decide (p.1 = k))).map
          (fun p => (p.1, p.2.address, p.2.enabled, p.2.name))
        = (s.map.map (fun p => (p.1, p.2.address, p.2.enabled, p.2.name))).filter
          (fun l : Line => decide (l.1 ≠ k)) := by
      intro k
      rw [List.filter_map]
      refine congrArg _ (List.filter_congr (fun p _ => ?_))
      simp [Function.comp]
    unfold step clearN
    dsimp only
    cases hfd : find s.map n with
    | none =>
      refine ⟨hI, ?_⟩
      unfold view listed Spec.step
      dsimp only
      rw [← hfilter, List.filter_eq_self.mpr]
      intro p hp'
      have := find_none hn hfd p hp'
      simp [this]
    | some p =>
      obtain ⟨k, info⟩ := p
      obtain ⟨hm, hk⟩ := find_some hn hfd
      dsimp only at hk ⊢
      subst hk
      have hknown : known s.manager info.address info.id = true := by
        unfold known
        rw [hI.same]
        exact List.any_eq_true.mpr ⟨info, List.mem_map_of_mem (f := (·.2)) hm, by simp⟩
      rw [if_pos hknown]
      refine ⟨⟨?_, hI.differ.filter _, ?_⟩, ?_⟩
      · show clearAction s.manager info.address info.id = (s.map.filter _).map _
        unfold clearAction
        rw [hI.same, List.filter_map]
        refine congrArg _ (List.filter_congr (fun q hq => ?_))
        have hs := same_iff hI hm hq
        dsimp only [Function.comp] at hs ⊢
        rw [decide_eq_decide.mpr hs.symm]
      · intro q hq
        exact hI.below q (List.mem_filter.mp hq).1
      · unfold view listed Spec.step
        dsimp only
        rw [hfilter]

theorem run_spec : ∀ (cs : List Cmd) (s : State), Inv s → (∀ c ∈ cs, Spec.Plain c) → Spec.Fresh s cs →
    Inv (run s cs) ∧ view (run s cs) = Spec.run (view s) cs := by
  intro cs
  induction cs with
  | nil => intro s h _ _; exact ⟨h, rfl⟩
  | cons c cs ih =>
    intro s h hp hf
    obtain ⟨h1, h2⟩ := step_spec h c (hp c List.mem_cons_self) hf.1
    obtain ⟨h3, h4⟩ := ih (step s c) h1 (fun d hd => hp d (List.mem_cons_of_mem _ hd)) hf.2
    refine ⟨h3, ?_⟩
    rw [show run s (c :: cs) = run (step s c) cs from rfl, h4, h2]
    rfl

theorem inv_empty : Inv {} := ⟨rfl, List.Pairwise.nil, fun _ h => absurd h List.not_mem_nil⟩

/-- C116: after any history of action points being set, and of commands that enable, disable and clear
them by numbers that fit an `int`, the list shows the actions that were not cleared with their numbers
and flags, and what is executed at an address is what the list shows as enabled there.

Missing: `action clear-all` and numbers of 2^31 and more, see `C116_clear_all_violated` and
`C116_number_violated`. -/
theorem C116_list_partial (cs : List Cmd) (hp : ∀ c ∈ cs, Spec.Plain c) (hf : Spec.Fresh {} cs) :
    listed (run {} cs) = (Spec.run {} cs).lines
    ∧ ∀ a, List.Perm (executed (run {} cs) a) (Spec.executed (Spec.run {} cs) a) := by
  obtain ⟨h1, h2⟩ := run_spec cs {} inv_empty hp hf
  have h2 : view (run {} cs) = Spec.run {} cs := h2
  rw [← h2]
  refine ⟨rfl, fun a => ?_⟩
  unfold executed Spec.executed view listed
  rw [h1.same]
  dsimp only
  rw [List.filter_map, List.filter_map, List.map_map, List.map_map]
  exact List.Perm.refl _

theorem clear_all_empty (l : List (Nat × Info)) : ∀ m : List Info,
    (∀ x ∈ m, ∃ p ∈ l, x.address = p.2.address ∧ x.id = p.2.id) →
    l.foldl (fun m p => clearAction m p.2.address p.2.id) m = [] := by
  induction l with
  | nil =>
    intro m h
    cases m with
    | nil => rfl
    | cons x m =>
      obtain ⟨p, hp, -⟩ := h x List.mem_cons_self
      exact absurd hp List.not_mem_nil
  | cons q l ih =>
    intro m h
    refine ih _ (fun x hx => ?_)
    obtain ⟨hm, hne⟩ := List.mem_filter.mp hx
    obtain ⟨p, hp, he⟩ := h x hm
    rcases List.mem_cons.mp hp with rfl | hp
    · simp [he] at hne
    · exact ⟨p, hp, he⟩

/-- `action clear-all` after any plain history: nothing is executed any more, but the list stays as it
was, its lines cannot be removed, and enabled ones stay listed as enabled. -/
theorem C116_clear_all_violated (cs : List Cmd) (hp : ∀ c ∈ cs, Spec.Plain c) (hf : Spec.Fresh {} cs) :
    let s := run {} cs
    let t := step s .clearAll
    (∀ a, executed t a = []) ∧ listed t = listed s ∧ (∀ n, step t (.clear n) = t) := by
  obtain ⟨h1, -⟩ := run_spec cs {} inv_empty hp hf
  dsimp only
  have hm : (step (run {} cs) .clearAll).manager = [] := by
    refine clear_all_empty _ _ (fun x hx => ?_)
    rw [h1.same] at hx
    obtain ⟨p, hp, rfl⟩ := List.mem_map.mp hx
    exact ⟨p, hp, rfl, rfl⟩
  refine ⟨fun a => ?_, rfl, fun n => ?_⟩
  · unfold executed
    rw [hm]
    rfl
  · show clearN (step (run {} cs) .clearAll) n = step (run {} cs) .clearAll
    unfold clearN
    split
    · rfl
    · rw [hm]
      rfl

/-- A number is cut to 32 bits: an index 2^32 higher than an action's number is taken for it. -/
theorem C116_number_violated (s : State) (n k : Nat) (hn : n < 2 ^ 31) (hk : n + 2 ^ 32 * k < 2 ^ 64) :
    step s (.clear (n + 2 ^ 32 * k)) = step s (.clear n)
    ∧ step s (.enable (n + 2 ^ 32 * k)) = step s (.enable n)
    ∧ step s (.disable (n + 2 ^ 32 * k)) = step s (.disable n) := by
  have h : find s.map (n + 2 ^ 32 * k) = find s.map n := by
    unfold find
    have : index (n + 2 ^ 32 * k) = index n := by
      unfold index
      rw [if_pos hk, if_pos (by omega)]
      congr 2
      apply BitVec.eq_of_toNat_eq
      rw [BitVec.toNat_ofNat, BitVec.toNat_ofNat]
      omega
    rw [this]
  refine ⟨?_, ?_, ?_⟩
  · show clearN s _ = clearN s _
    unfold clearN
    rw [h]
  · show switch s _ _ = switch s _ _
    unfold switch
    rw [h]
  · show switch s _ _ = switch s _ _
    unfold switch
    rw [h]

/-! ## Cases that meet the hypotheses -/

def sample : List Cmd :=
  [.set 0x100#64 "a" (some 0), .set 0x100#64 "b" (some 1), .set 0x200#64 "c" (some 0), .disable 0,
   .clear 2, .set 0x104#64 "d" none, .set 0x200#64 "e" (some 0), .disable 7]

example : listed (run {} sample) = [(0, 0x100#64, false, "a"), (1, 0x100#64, true, "b"),
    (3, 0x200#64, true, "e")] := by decide
example : executed (run {} sample) 0x100#64 = ["b"] := by decide
example : ∀ c ∈ sample, Spec.Plain c := by
  intro c hc
  simp only [sample, List.mem_cons, List.not_mem_nil, or_false] at hc
  rcases hc with rfl | rfl | rfl | rfl | rfl | rfl | rfl | rfl <;> simp [Spec.Plain]
example : Spec.Fresh {} sample := by
  simp [sample, Spec.Fresh, step, switch, clearN, find, index, known, clearAction, setEnabled, mark]
example : listed (step (run {} sample) .clearAll) = listed (run {} sample) ∧
    executed (run {} sample) 0x200#64 = ["e"] ∧ executed (step (run {} sample) .clearAll) 0x200#64 = [] := by
  decide

end Verif.ShellAction
